import Verif.Py.Objects
import Verif.Py.Program
import Verif.Spec.Fields
/-!
# Specification of processors that assign to the document and change its lists

Python's `for x in l` takes the item at position 0 of the object `l` as it is then, at position 1 of it as it is then, and so
on, and ends when `l` is not that long; it holds on to the object, not to the variable or attribute it was found in.
Nothing here refers to `Verif/Model`.
-/
namespace Verif.Spec
open Verif Verif.Gen

/-- `document.name = x` has been carried out, making the document `new`: nothing else is different; but a new value of
`extra_converters` or `extra_validators` is a new list object, and the old one lives on with its contents. -/
structure Assigned {M : Type} (w : World M) (name : Str) (new : V) (w' : World M) : Prop where
  doc : w'.doc = new
  memory : w'.memory = w.memory
  converters : w'.converters = if name = p!"extra_converters" then w.made else w.converters
  validators : w'.validators = if name = p!"extra_validators" then w.made else w.validators
  made : w'.made = if name = p!"extra_converters" ∨ name = p!"extra_validators" then w.made + 1 else w.made
  others : ∀ j, w'.others j = if name = p!"extra_converters" ∧ j = w.converters ∨ name = p!"extra_validators" ∧ j = w.validators
    then w.items j else w.others j

/-- `Plays takes good P t w log w' ok`: the execution of `t` in `w` comes to an end, having called the processors in `log`
(with the documents they were called on), leaving the world `w'`, and without raising iff `ok`.
`takes doc name x` is the document with the new value, if the value is right for the attribute; `good` says that a
document is right apart from its processors. -/
inductive Plays (takes : V → Str → V → Option V) (good : V → Prop) (P : Actors) :
    Job P.State → World P.Memory → List (Nat × V) → World P.Memory → Bool → Prop
  /-- A processor returns or raises. -/
  | stop {s w st ok} : P.act s w = .stop st ok → Plays takes good P (.body s) w [] (w.changed st) ok
  /-- It assigns, and goes on in the world the assignment leaves, knowing whether it raised. -/
  | assigns {s w st name x next l w1 ok l' w2 ok'} : P.act s w = .assign st name x next →
      Plays takes good P (.assign name x) (w.changed st) l w1 ok → Plays takes good P (.body (next ok)) w1 l' w2 ok' →
      Plays takes good P (.body s) w (l ++ l') w2 ok'
  /-- A wrong value changes nothing. -/
  | refused {w : World P.Memory} {name x} : takes w.doc name x = none → Plays takes good P (.assign name x) w [] w false
  /-- With a right value, the whole document is checked and processed again. -/
  | taken {w : World P.Memory} {name x new w1 l w2 ok} : takes w.doc name x = some new → Assigned w name new w1 →
      Plays takes good P .after w1 l w2 ok → Plays takes good P (.assign name x) w l w2 ok
  /-- A document that is not right is not processed. -/
  | bad {w : World P.Memory} : ¬ good w.doc → Plays takes good P .after w [] w false
  /-- The converters come first … -/
  | converterFailed {w : World P.Memory} {l w1} : good w.doc → Plays takes good P (.loop w.converters 0) w l w1 false →
      Plays takes good P .after w l w1 false
  /-- … and then the validators, those that are in the document then. -/
  | ran {w : World P.Memory} {l w1 l' w2 ok} : good w.doc → Plays takes good P (.loop w.converters 0) w l w1 true →
      Plays takes good P (.loop w1.validators 0) w1 l' w2 ok → Plays takes good P .after w (l ++ l') w2 ok
  /-- The loop ends at the end of the list, … -/
  | done {w : World P.Memory} {j i} : (w.items j).length ≤ i → Plays takes good P (.loop j i) w [] w true
  /-- calls the class at its position and goes on to the next position, … -/
  | next {w : World P.Memory} {j i n l w1 l' w2 ok} : (w.items j)[i]? = some (.proc n) →
      Plays takes good P (.body (P.start n)) w l w1 true → Plays takes good P (.loop j (i + 1)) w1 l' w2 ok →
      Plays takes good P (.loop j i) w ((n, w.doc) :: (l ++ l')) w2 ok
  /-- up to the first failure. -/
  | failed {w : World P.Memory} {j i n l w1} : (w.items j)[i]? = some (.proc n) →
      Plays takes good P (.body (P.start n)) w l w1 false → Plays takes good P (.loop j i) w ((n, w.doc) :: l) w1 false
  | notCallable {w : World P.Memory} {j i p} : (w.items j)[i]? = some p → (∀ n, p ≠ .proc n) →
      Plays takes good P (.loop j i) w [] w false

/-- Two different list objects are the attributes, and the objects yet to be made are different from them. -/
structure Proper {M : Type} (w : World M) : Prop where
  apart : w.converters ≠ w.validators
  converters : w.converters < w.made
  validators : w.validators < w.made

/-- Processor `n` only looks: it neither changes the document nor assigns to it, and raises exactly if not
`accepts`. It may remember things, and change lists that are not in the document. -/
def OnlyLooks (P : Actors) (n : Nat) (accepts : V → Prop) : Prop :=
  ∀ w, ∃ st ok, P.act (P.start n) w = .stop st ok ∧ st.doc = w.doc ∧ (ok = true ↔ accepts w.doc)

/-- The processors of `Verif/Py/Program.lean`: they remember nothing, and know no lists but those of the document. -/
def plainly (P : Programs) : Actors where
  State := P.State
  Memory := Unit
  start := P.start
  act s w := match P.act s w.doc with
    | .stop d ok => .stop ⟨d, w.others, ()⟩ ok
    | .assign d name x next => .assign ⟨d, w.others, ()⟩ name x next

/-- `doc` is a document with these two lists (or nulls), and no extra field of the same names. -/
def ListsOf (cs vs doc : V) : Prop := ∃ fs ex set, doc = .inst .AsyncAPI3 fs ex set ∧
  doc.attr p!"extra_converters" = cs ∧ doc.attr p!"extra_validators" = vs ∧
  lookup p!"extra_converters" ex = none ∧ lookup p!"extra_validators" ex = none

/-- No processor changes the two lists in place. (It may assign other ones.) -/
def KeepsLists (P : Programs) : Prop := ∀ cs vs s doc, ListsOf cs vs doc → match P.act s doc with
  | .stop d _ => ListsOf cs vs d
  | .assign d _ _ _ => ListsOf cs vs d

/-- No processor changes a list that is not in the document (any more). -/
def DropsLists (P : Actors) : Prop := ∀ s w, match P.act s w with
  | .stop st _ => st.others = w.others
  | .assign st _ _ _ => st.others = w.others

/-- No processor changes the list of validators, in place or by assignment. What it does with the converters is left open. -/
def KeepsValidators (P : Actors) : Prop := ∀ vs s w, (∃ cs, ListsOf cs vs w.doc) → match P.act s w with
  | .stop st _ => ∃ cs, ListsOf cs vs st.doc
  | .assign st name _ _ => (∃ cs, ListsOf cs vs st.doc) ∧ name ≠ p!"extra_validators"

end Verif.Spec
