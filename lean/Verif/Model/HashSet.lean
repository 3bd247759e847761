import Verif.Model.Equal
import Verif.Py.Ops
/-!
# Model of `Reference.__hash__` and of Python sets

models/base.py:34-40 "This method is required for deduplication in object managers". A Python set keeps, for every element,
the hash it had when it was added; an element is found if that hash is the one looked for and it is the same object or equal
to it. Simplified: the order of elements and the probing of the table are left out.
-/
namespace Verif.HashSet
open Verif Verif.Gen Verif.Pyd

/-- `hash(x)`: models/base.py:34-40 for a Reference; `none` for the other classes, which are unhashable (`__eq__` without
`__hash__`, models/base_models.py:17, 57, 74). `h` is Python's hash of strings, which differs from process to process. -/
def hashOf (h : Str → Int) : V → Option Int
  | .inst .Reference fs _ _ => match lookup p!"ref" fs with
    | some (.str s) => some (h s)
    | _ => none
  | _ => none

/-- The element of the set that is taken for `x`, with hash `hx`. Python's `set`, which calls models/base.py:34-40. -/
def find (store : Nat → V) (S : List (Int × Nat)) (hx : Int) (x : Nat) : Option (Int × Nat) :=
  S.find? fun e => e.1 == hx && (e.2 == x || pyEq (store e.2) (store x))

/-- One operation on the set `S` (pairs of a hash and an object) and the objects. Python's `set`, which calls
models/base.py:34-40; `assign` stands for anything that changes a Reference, such as `reference.ref = …`. -/
def setStep (h : Str → Int) (store : Nat → V) (S : List (Int × Nat)) : SetOp → (Nat → V) × List (Int × Nat) × SetOut
  | .add x => match hashOf h (store x) with
    | none => (store, S, .typeError)
    | some hx => match find store S hx x with
      | some _ => (store, S, .unit)
      | none => (store, S ++ [(hx, x)], .unit)
  | .discard x => match hashOf h (store x) with
    | none => (store, S, .typeError)
    | some hx => match find store S hx x with
      | some e => (store, S.erase e, .unit)
      | none => (store, S, .unit)
  | .contains x => match hashOf h (store x) with
    | none => (store, S, .typeError)
    | some hx => (store, S, .bool (find store S hx x).isSome)
  | .len => (store, S, .nat S.length)
  | .assign x v => (fun y => if y = x then v else store y, S, .unit)

/-- A history of operations. Python's `set`, which calls models/base.py:34-40. -/
def setRun (h : Str → Int) (store : Nat → V) (S : List (Int × Nat)) : List SetOp → (Nat → V) × List (Int × Nat) × List SetOut
  | [] => (store, S, [])
  | op :: ops =>
    let r := setStep h store S op
    let r' := setRun h r.1 r.2.1 ops
    (r'.1, r'.2.1, r.2.2 :: r'.2.2)

end Verif.HashSet
