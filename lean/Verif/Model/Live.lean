import Verif.Model.Reenter
/-!
# Model of processors that change the list of processors in place

`doc.extra_converters.append(X)`, `doc.extra_validators.remove(X)`, … in a processor. Such a change is no assignment to the
document and runs nothing again (`Model/Reenter.lean`), but it changes the very list that `for … in self.extra_converters`
(models/asyncapi.py:287, 294) is iterating over. A list iterator of Python keeps a position only, and compares it with the
length of the list each time. Simplification: processors do not assign to the document, so that the attribute is the same
list object all the time (for those that do, but leave the lists alone, see `Model/Reenter.lean`).
-/
namespace Verif.Live
open Verif Verif.Gen Verif.Pyd

/-- `for cls in self.<field>: cls()(self)`, from position `i` on, in a number of steps (`none` if they do not suffice).
models/asyncapi.py:283-296. -/
def iterate (E : Env) (field : Str) : Nat → Nat → V → Option Run
  | 0, _, _ => none
  | k + 1, i, self => match (processorsOf (self.attr field))[i]? with
    | none => some ([], some self)
    | some (.proc n) => match E.call n self with
      | none => some ([(n, self)], none)
      | some self' => match iterate E field k (i + 1) self' with
        | none => none
        | some r => some ((n, self) :: r.1, r.2)
    | some _ => some ([], none)

/-- `AsyncAPI3.run_extra_processors`, models/asyncapi.py:277-281. -/
def runLive (E : Env) (k : Nat) (self : V) : Option Run :=
  match iterate E p!"extra_converters" k 0 self with
  | none => none
  | some (log, none) => some (log, none)
  | some (log, some self') => match iterate E p!"extra_validators" k 0 self' with
    | none => none
    | some r => some (log ++ r.1, r.2)

/-- `AsyncAPI3.model_validate(x)`: the fields are validated (`Reenter.build`), then `run_extra_processors` runs.
models/asyncapi.py:277-281. -/
def build (E : Env) (k : Nat) (x : V) : Option Run :=
  match validate (Reenter.idle E) .AsyncAPI3 x with
  | none => some ([], none)
  | some i => runLive E k i

end Verif.Live
