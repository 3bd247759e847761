import Verif.Py.Program
import Verif.Spec.Fields
/-!
# Specification of processors that assign to the document

What happens, step by step, when a processor of a document assigns to an attribute of that document.
Nothing here refers to `Verif/Model`.
-/
namespace Verif.Spec
open Verif Verif.Gen

/-- The items of a list; what is no list has none. -/
def Listed (v : V) (l : List V) : Prop := v = .list l ∨ (∀ l', v ≠ .list l') ∧ l = []

/-- `Ends takes good P t doc log d ok`: the execution of `t` on `doc` comes to an end, having called the
processors in `log` (with the documents they were called on), leaving the document `d`, and without
raising iff `ok`. `takes doc name x` is the document with the new value, if the value is right for the attribute;
`good` says that a document is right apart from its processors. -/
inductive Ends (takes : V → Str → V → Option V) (good : V → Prop) (P : Programs) :
    Task P.State → V → List (Nat × V) → V → Bool → Prop
  /-- A processor returns or raises. -/
  | stop {s doc d ok} : P.act s doc = .stop d ok → Ends takes good P (.body s) doc [] d ok
  /-- It assigns, and goes on with the document the assignment leaves, knowing whether it raised. -/
  | assigns {s doc d name x next l d1 ok l' d2 ok'} : P.act s doc = .assign d name x next →
      Ends takes good P (.assign name x) d l d1 ok → Ends takes good P (.body (next ok)) d1 l' d2 ok' →
      Ends takes good P (.body s) doc (l ++ l') d2 ok'
  /-- A wrong value changes nothing. -/
  | refused {doc name x} : takes doc name x = none → Ends takes good P (.assign name x) doc [] doc false
  /-- With a right value, the whole document is checked and processed again. -/
  | taken {doc name x new l d ok} : takes doc name x = some new → Ends takes good P .after new l d ok →
      Ends takes good P (.assign name x) doc l d ok
  /-- A document that is not right is not processed. -/
  | bad {doc} : ¬ good doc → Ends takes good P .after doc [] doc false
  /-- The converters of the document come first … -/
  | converterFailed {doc cs l d} : good doc → Listed (doc.attr p!"extra_converters") cs →
      Ends takes good P (.calls cs) doc l d false → Ends takes good P .after doc l d false
  /-- … and then the validators of the document they leave. -/
  | ran {doc cs l d vs l' d' ok} : good doc → Listed (doc.attr p!"extra_converters") cs →
      Ends takes good P (.calls cs) doc l d true → Listed (d.attr p!"extra_validators") vs →
      Ends takes good P (.calls vs) d l' d' ok → Ends takes good P .after doc (l ++ l') d' ok
  /-- Processor classes are called in order, each on the document left by the one before … -/
  | none {doc} : Ends takes good P (.calls []) doc [] doc true
  | next {n ps doc l d l' d' ok} : Ends takes good P (.body (P.start n)) doc l d true →
      Ends takes good P (.calls ps) d l' d' ok →
      Ends takes good P (.calls (.proc n :: ps)) doc ((n, doc) :: (l ++ l')) d' ok
  /-- … up to the first failure. -/
  | failed {n ps doc l d} : Ends takes good P (.body (P.start n)) doc l d false →
      Ends takes good P (.calls (.proc n :: ps)) doc ((n, doc) :: l) d false
  | notCallable {p ps doc} : (∀ n, p ≠ .proc n) → Ends takes good P (.calls (p :: ps)) doc [] doc false

/-- No processor assigns to the document. -/
def Quiet (P : Programs) : Prop := ∀ n doc, ∃ d ok, P.act (P.start n) doc = .stop d ok

/-- Processor `n` only looks at the document: it neither changes it nor assigns to it, and raises
exactly if not `accepts`. -/
def Looks (P : Programs) (n : Nat) (accepts : V → Prop) : Prop :=
  ∀ doc, ∃ ok, P.act (P.start n) doc = .stop doc ok ∧ (ok = true ↔ accepts doc)

/-- How often processor `n` was called. -/
def timesCalled (n : Nat) (log : List (Nat × V)) : Nat := (log.filter (·.1 = n)).length

/-- `new` is `doc` but for the attribute `name`, declared or not. -/
structure OnlyAttr (doc : V) (name : Str) (v new : V) : Prop where
  this : new.attr name = v ∨ lookup name new.extras = some v
  others : ∀ k, k ≠ name → new.attr k = doc.attr k
  extras : ∀ k, k ≠ name → lookup k new.extras = lookup k doc.extras

end Verif.Spec
