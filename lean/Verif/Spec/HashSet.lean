import Verif.Py.Ops
/-!
# Sets of References

A set of References is a set of strings. Nothing here refers to `Verif/Model`.
-/
namespace Verif.Spec
open Verif

/-- The same operations on a list of strings without repetition, where `text` gives each object's string. -/
def onStrings (text : Nat → Str) (L : List Str) : SetOp → List Str × SetOut
  | .add x => (if text x ∈ L then L else L ++ [text x], .unit)
  | .discard x => (L.filter (· ≠ text x), .unit)
  | .contains x => (L, .bool (text x ∈ L))
  | .len => (L, .nat L.length)
  | .assign _ _ => (L, .unit)

/-- The string of a Reference. -/
def refText (v : V) : Str :=
  match v.attr p!"ref" with
  | .str s => s
  | _ => []

/-- The objects after an operation. -/
def objectsAfter (store : Nat → V) : SetOp → Nat → V
  | .assign x v => fun y => if y = x then v else store y
  | _ => store

/-- A history of such operations; an assignment changes the string of an object. -/
def historyOnStrings (store : Nat → V) (L : List Str) : List SetOp → List Str × List SetOut
  | [] => (L, [])
  | op :: ops =>
    let r := onStrings (fun x => refText (store x)) L op
    let r' := historyOnStrings (objectsAfter store op) r.1 ops
    (r'.1, r.2 :: r'.2)

end Verif.Spec
