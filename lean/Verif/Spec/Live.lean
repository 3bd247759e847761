import Verif.Spec.Fields
/-!
# Specification of processors that change the list of processors

Python's `for x in l` takes the item at position 0 of `l` as it is then, at position 1 of `l` as it is then, and so on, and
ends when `l` is not that long. Nothing here refers to `Verif/Model`.
-/
namespace Verif.Spec
open Verif Verif.Gen

/-- The classes in a field of the document. (A field that is null has none.) -/
def listedIn (doc : V) (field : Str) : List V := match doc.attr field with | .list l => l | _ => []

/-- `Iterates call field i doc log r`: the loop over the list `field` of the document goes on at position `i` with the document
`doc`, makes the calls `log` and ends with the document `r`, or raises (`none`). -/
inductive Iterates (call : Nat → V → Option V) (field : Str) : Nat → V → List (Nat × V) → Option V → Prop
  | done {i doc} : (listedIn doc field).length ≤ i → Iterates call field i doc [] (some doc)
  | step {i doc n doc' log r} : (listedIn doc field)[i]? = some (.proc n) → call n doc = some doc' →
      Iterates call field (i + 1) doc' log r → Iterates call field i doc ((n, doc) :: log) r
  | fail {i doc n} : (listedIn doc field)[i]? = some (.proc n) → call n doc = none → Iterates call field i doc [(n, doc)] none
  | notCallable {i doc p} : (listedIn doc field)[i]? = some p → (∀ n, p ≠ .proc n) → Iterates call field i doc [] none

/-- First the converters, then the validators of what they leave. -/
inductive LiveProcessed (call : Nat → V → Option V) (doc : V) : List (Nat × V) → Option V → Prop
  | converterFailed {log} : Iterates call p!"extra_converters" 0 doc log none → LiveProcessed call doc log none
  | ran {log mid log' r} : Iterates call p!"extra_converters" 0 doc log (some mid) →
      Iterates call p!"extra_validators" 0 mid log' r → LiveProcessed call doc (log ++ log') r

/-- The items at positions 0, 2, 4, … -/
def evens {α : Type} : List α → List α
  | [] => []
  | [a] => [a]
  | a :: _ :: l => a :: evens l

/-- The items at positions 1, 3, 5, … -/
def odds {α : Type} : List α → List α
  | [] => []
  | [_] => []
  | _ :: b :: l => b :: odds l

end Verif.Spec
