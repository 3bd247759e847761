import Verif.Model.Reenter
import Verif.Py.Objects
/-!
# Model of processors that assign to the document and change its lists in place

`Model/Reenter.lean` and `Model/Live.lean` in one: the loops of models/asyncapi.py:283-296 run over list objects. Assigning to
`extra_converters` or `extra_validators` makes a new list object (pydantic's list validation copies), and a loop that is running
goes on over the old one; assigning to any other attribute leaves both list objects where they are. The interpreter is
given a number of steps, and is `none` if they do not suffice. Python's recursion limit is not modelled.
-/
namespace Verif.Objects
open Verif Verif.Gen Verif.Pyd Verif.Reenter

/-- The world once the value of an attribute has been replaced, `new` being the document with it. models/base_models.py:29:
pydantic validates the value, which for a list makes a new list object; the object it replaces lives on as long as
somebody holds it. -/
def install {M : Type} (w : World M) (name : Str) (new : V) : World M :=
  let keep (j : Nat) : Nat → List V := fun i => if i = j then w.items j else w.others i
  if name = p!"extra_converters" then
    { doc := new, others := keep w.converters, memory := w.memory, converters := w.made, validators := w.validators,
      made := w.made + 1 }
  else if name = p!"extra_validators" then
    { doc := new, others := keep w.validators, memory := w.memory, converters := w.converters, validators := w.made,
      made := w.made + 1 }
  else { w with doc := new }

/-- What an execution did: the calls, the world at the end, and whether it came to an end without raising. -/
abbrev Outcome (M : Type) := List (Nat × V) × World M × Bool

/-- Execute a job, in a number of steps. models/asyncapi.py:277-296, models/base_models.py:29. -/
def exec (E : Env) (P : Actors) : Nat → Job P.State → World P.Memory → Option (Outcome P.Memory)
  | 0, _, _ => none
  | k + 1, .body s, w => match P.act s w with
    | .stop st ok => some ([], w.changed st, ok)
    | .assign st name x next => match exec E P k (.assign name x) (w.changed st) with
      | none => none
      | some (l, w1, ok) => match exec E P k (.body (next ok)) w1 with
        | none => none
        | some (l', w2, ok') => some (l ++ l', w2, ok')
  -- models/base_models.py:29; if a validator raises, the new value stays (see `Mutate.finish`)
  | k + 1, .assign name x, w => match prepared E w.doc name x with
    | none => some ([], w, false)
    | some new => exec E P k .after (install w name new)
  -- models/base_models.py:35-54, then models/asyncapi.py:277-281
  | k + 1, .after, w =>
    if baseCheck E .AsyncAPI3 w.doc && modelCheck .AsyncAPI3 w.doc then
      match exec E P k (.loop w.converters 0) w with
      | none => none
      | some (l, w1, false) => some (l, w1, false)
      | some (l, w1, true) => match exec E P k (.loop w1.validators 0) w1 with
        | none => none
        | some (l', w2, ok) => some (l ++ l', w2, ok)
    else some ([], w, false)
  -- models/asyncapi.py:283-296
  | k + 1, .loop j i, w => match (w.items j)[i]? with
    | none => some ([], w, true)
    | some (.proc n) => match exec E P k (.body (P.start n)) w with
      | none => none
      | some (l, w1, false) => some ((n, w.doc) :: l, w1, false)
      | some (l, w1, true) => match exec E P k (.loop j (i + 1)) w1 with
        | none => none
        | some (l', w2, ok) => some ((n, w.doc) :: (l ++ l'), w2, ok)
    | some _ => some ([], w, false)

/-- The world in which a document has just been made, with two new lists. models/asyncapi.py:277-281. -/
def newWorld {M : Type} (i : V) (m : M) : World M :=
  { doc := i, others := fun _ => [], memory := m, converters := 0, validators := 1, made := 2 }

/-- `AsyncAPI3.model_validate(x)`: the fields are validated (`Reenter.build`), then `run_extra_processors` runs.
models/asyncapi.py:277-281. -/
def build (E : Env) (P : Actors) (k : Nat) (m : P.Memory) (x : V) : Option (List (Nat × V) × Option V) :=
  match validate (idle E) .AsyncAPI3 x with
  | none => some ([], none)
  | some i => (exec E P k .after (newWorld i m)).map fun r => (r.1, if r.2.2 then some r.2.1.doc else none)

end Verif.Objects
