import Verif.Py.Value
/-!
# Laying out a tree in memory

The object graph of a value that was just built: one object per list, dict and instance, in the order in which they
stand in the value.
-/
namespace Verif
open Verif.Gen

mutual
/-- The number of lists, dicts and instances in a value. -/
def objects : V → Nat
  | .list l => 1 + objectsL l
  | .dict d => 1 + objectsD d
  | .inst _ fs ex _ => 1 + (objectsD fs + objectsD ex)
  | _ => 0
def objectsL : List V → Nat
  | [] => 0
  | v :: l => objects v + objectsL l
def objectsD : List (Str × V) → Nat
  | [] => 0
  | (_, v) :: d => objects v + objectsD d
end

/-- The Python value: childless, or the object at address `at`. -/
def valueAt (N at_ : Nat) : V → Val (N + 1)
  | .none => .none
  | .str s => .str s
  | .bool _ => .atom p!"bool"
  | .int _ => .atom p!"int"
  | .float _ => .atom p!"float"
  | .url .any _ => .atom p!"AnyUrl"
  | .url .http _ => .atom p!"HttpUrl"
  | .proc _ => .atom p!"type"
  | _ => .ptr (Fin.ofNat (N + 1) at_)

/-- The items of a list laid out from address `at`. -/
def itemsAt (N : Nat) : Nat → List V → List (Val (N + 1))
  | _, [] => []
  | at_, v :: l => valueAt N at_ v :: itemsAt N (at_ + objects v) l

/-- The entries of a dict laid out from address `at`. -/
def entriesAt (N : Nat) : Nat → List (Str × V) → List (Str × Val (N + 1))
  | _, [] => []
  | at_, (k, v) :: d => (k, valueAt N at_ v) :: entriesAt N (at_ + objects v) d

mutual
/-- The objects of a value laid out from address `at`. -/
def layout (N : Nat) : Nat → V → List (Node Cls (N + 1))
  | at_, .list l => .list (itemsAt N (at_ + 1) l) :: layoutL N (at_ + 1) l
  | at_, .dict d => .dict (entriesAt N (at_ + 1) d) :: layoutD N (at_ + 1) d
  | at_, .inst c fs ex _ =>
    .model c (entriesAt N (at_ + 1) fs) (entriesAt N (at_ + 1 + objectsD fs) ex) ::
      (layoutD N (at_ + 1) fs ++ layoutD N (at_ + 1 + objectsD fs) ex)
  | _, _ => []
def layoutL (N : Nat) : Nat → List V → List (Node Cls (N + 1))
  | _, [] => []
  | at_, v :: l => layout N at_ v ++ layoutL N (at_ + objects v) l
def layoutD (N : Nat) : Nat → List (Str × V) → List (Node Cls (N + 1))
  | _, [] => []
  | at_, (_, v) :: d => layout N at_ v ++ layoutD N (at_ + objects v) d
end

/-- The object graph of a document. -/
def graphOf (doc : V) : Doc Cls (objects doc - 1 + 1) where
  node a := ((layout (objects doc - 1) 0 doc)[a.val]?).getD (.list [])
  spec := 0

end Verif
