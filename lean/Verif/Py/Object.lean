import Verif.Py.Value
/-!
# Python objects with an identity

Values as in `Verif/Py/Value.lean`, in which each list, dict and instance says which object it is.
-/
namespace Verif
open Verif.Gen

/-- A Python object. Those that can be changed in place have an identity: `some n` is object number `n` of those that
were there before a call, `none` an object that was made by the call, and is no other object. -/
inductive Ob where
  | none
  | bool (b : Bool)
  | int (i : Int)
  | float (x : Str)
  | str (s : Str)
  | url (k : UrlKind) (s : Str)
  | proc (n : Nat)
  | list (id : Option Nat) (l : List Ob)
  | dict (id : Option Nat) (d : List (Str × Ob))
  | inst (id : Option Nat) (c : Cls) (fields extras : List (Str × Ob)) (set : List Str)

mutual
/-- The value of an object, whichever object it is. -/
def Ob.val : Ob → V
  | .none => .none
  | .bool b => .bool b
  | .int i => .int i
  | .float x => .float x
  | .str s => .str s
  | .url k s => .url k s
  | .proc n => .proc n
  | .list _ l => .list (obVals l)
  | .dict _ d => .dict (obEntries d)
  | .inst _ c fs ex set => .inst c (obEntries fs) (obEntries ex) set
def obVals : List Ob → List V
  | [] => []
  | x :: l => x.val :: obVals l
def obEntries : List (Str × Ob) → List (Str × V)
  | [] => []
  | (k, x) :: d => (k, x.val) :: obEntries d
end

mutual
/-- A value of which every object is new. -/
def Ob.new : V → Ob
  | .none => .none
  | .bool b => .bool b
  | .int i => .int i
  | .float x => .float x
  | .str s => .str s
  | .url k s => .url k s
  | .proc n => .proc n
  | .list l => .list .none (newItems l)
  | .dict d => .dict .none (newEntries d)
  | .inst c fs ex set => .inst .none c (newEntries fs) (newEntries ex) set
def newItems : List V → List Ob
  | [] => []
  | x :: l => Ob.new x :: newItems l
def newEntries : List (Str × V) → List (Str × Ob)
  | [] => []
  | (k, x) :: d => (k, Ob.new x) :: newEntries d
end

/-- Which object it is: `none` for new ones, and for those that cannot be changed. -/
def Ob.id : Ob → Option Nat
  | .list id _ | .dict id _ | .inst id _ _ _ _ => id
  | _ => .none

/-- `x is None`. -/
def Ob.isNone : Ob → Bool
  | .none => true
  | _ => false

/-- `__pydantic_extra__`. -/
def Ob.extras : Ob → List (Str × Ob)
  | .inst _ _ _ ex _ => ex
  | _ => []

/-- Declared attribute `name` of an instance. -/
def Ob.attr : Ob → Str → Option Ob
  | .inst _ _ fs _ _, name => lookup name fs
  | _, _ => .none

end Verif
