import Verif.Model.Mutate
import Verif.Py.Program
/-!
# Model of processors that assign to the document

`AsyncAPI3` validates assignments (models/base_models.py:29) and runs its processors in a `mode="after"`
validator (models/asyncapi.py:277-296). pydantic runs these validators again after each assignment to an
attribute, also if it is a processor that assigns. The interpreter below is given a number of steps, and is
`none` if they do not suffice. Python's recursion limit is not modelled.
-/
namespace Verif.Reenter
open Verif Verif.Gen Verif.Pyd Verif.Mutate

/-- The document that `i.name = x` makes, before the `mode="after"` validators run; `none` if it raises
before. models/base_models.py:29: the same code as `Mutate.assign`. -/
def prepared (E : Env) (i : V) (name : Str) (x : V) : Option V :=
  match i with
  | .inst c fs ex set =>
    match fieldOf c name with
    | some f => match parse E x f.ty with
      | some (v, _) =>
        if lengthOk f.maxLen v && fieldCheck E c f.name v then
          some (rebuild c (dictSet (update fs ex) name v) (addSet set name))
        else none
      | none => none
    | none => match (classDef c).kind with
      | .extendable | .openExtra => some (rebuild c (dictSet (update fs ex) name x) (addSet set name))
      | _ => none
  | _ => none

/-- Execute a task on a document, in a number of steps. models/asyncapi.py:277-296, models/base_models.py:29.
The list of processor classes is read once, when the loop starts (287, 294); return values are ignored (289, 296).
Simplification: the list itself is not changed in place while it is being iterated. -/
def exec (E : Env) (P : Programs) : Nat → Task P.State → V → Option Effect
  | 0, _, _ => none
  | k + 1, .body s, doc => match P.act s doc with
    | .stop doc' ok => some ([], doc', ok)
    | .assign doc' name x next => match exec E P k (.assign name x) doc' with
      | none => none
      | some (l, d, ok) => match exec E P k (.body (next ok)) d with
        | none => none
        | some (l', d', ok') => some (l ++ l', d', ok')
  -- models/base_models.py:29; if a validator raises, the new value stays (see `Mutate.finish`)
  | k + 1, .assign name x, doc => match prepared E doc name x with
    | none => some ([], doc, false)
    | some new => exec E P k .after new
  -- models/base_models.py:35-54, then models/asyncapi.py:277-281
  | k + 1, .after, doc =>
    if baseCheck E .AsyncAPI3 doc && modelCheck .AsyncAPI3 doc then
      match exec E P k (.calls (processorsOf (doc.attr p!"extra_converters"))) doc with
      | none => none
      | some (l, d, false) => some (l, d, false)
      | some (l, d, true) => match exec E P k (.calls (processorsOf (d.attr p!"extra_validators"))) d with
        | none => none
        | some (l', d', ok) => some (l ++ l', d', ok)
    else some ([], doc, false)
  -- models/asyncapi.py:283-296
  | _ + 1, .calls [], doc => some ([], doc, true)
  | k + 1, .calls (.proc n :: ps), doc => match exec E P k (.body (P.start n)) doc with
    | none => none
    | some (l, d, false) => some ((n, doc) :: l, d, false)
    | some (l, d, true) => match exec E P k (.calls ps) d with
      | none => none
      | some (l', d', ok) => some ((n, doc) :: (l ++ l'), d', ok)
  | _ + 1, .calls (_ :: _), doc => some ([], doc, false)

/-- `E` with processors that do nothing. -/
def idle (E : Env) : Env := { E with call := fun _ d => some d }

/-- `AsyncAPI3.model_validate(x)`: the fields are validated, then `run_extra_processors` runs.
models/asyncapi.py:277-281; no document results if validating the fields or the extension names fails. The validation of
the fields is that of `Pyd.validate`, with processors that do nothing. -/
def build (E : Env) (P : Programs) (k : Nat) (x : V) : Option (List (Nat × V) × Option V) :=
  match validate (idle E) .AsyncAPI3 x with
  | none => some ([], none)
  | some i => (exec E P k .after i).map fun r => (r.1, if r.2.2 then some r.2.1 else none)

end Verif.Reenter
