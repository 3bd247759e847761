import Verif.Model.Pyd
import Verif.Py.Ops
/-!
# Model of modifying instances

Attribute assignment under `validate_assignment=True` (models/base_models.py:29,67,84;
models/schema.py:69,117; models/bindings/kafka.py:77), and the item operations of patterned objects
(models/base_models.py:90-106).

For attribute deletion see `Verif/Model/Delete.lean`; for `model_copy` and `model_construct` see `Verif/Model/Copy.lean`.
-/
namespace Verif.Mutate
open Verif Verif.Gen Verif.Pyd

/-! ### Python dicts -/

/-- `d[k] = v`: in place if `k` is there, else at the end. The dict of models/base_models.py:96-97. -/
def dictSet (d : List (Str × V)) (k : Str) (v : V) : List (Str × V) :=
  match d with
  | [] => [(k, v)]
  | e :: d => if e.1 = k then (k, v) :: d else e :: dictSet d k v

/-- `del d[k]`; `none` if it raises KeyError. The dict of models/base_models.py:99-100. -/
def dictDel (d : List (Str × V)) (k : Str) : Option (List (Str × V)) :=
  match d with
  | [] => none
  | e :: d => if e.1 = k then some d else (dictDel d k).map (e :: ·)

/-! ### Patterned objects -/

/-- One operation on the `root` dict: models/base_models.py:90-106. -/
def step (d : List (Str × V)) : Op → List (Str × V) × Out
  -- 93-94: `return self.root[item]`
  | .get k => (d, match lookup k d with | some v => .val v | none => .keyError)
  -- 96-97: `self.root[key] = value`
  | .set k v => (dictSet d k v, .unit)
  -- 99-100: `del self.root[key]`
  | .del k => match dictDel d k with
    | some d' => (d', .unit)
    | none => (d, .keyError)
  -- 102-103: `return key in self.root`
  | .contains k => (d, .bool (lookup k d).isSome)
  -- 105-106: `return len(self.root)`
  | .len => (d, .nat d.length)
  -- 90-91: `return iter(self.root)`, consumed at once
  | .iter => (d, .keys (d.map (·.1)))

/-- A history of operations, and what they returned. Calls of the methods models/base_models.py:90-106. -/
def run (d : List (Str × V)) : List Op → List (Str × V) × List Out
  | [] => (d, [])
  | op :: ops =>
    let (d', o) := step d op
    let (d'', os) := run d' ops
    (d'', o :: os)

/-- An item operation on a patterned instance: only the dict in `root` changes; nothing is validated.
models/base_models.py:90-106. -/
def stepInst (i : V) (op : Op) : V × Out :=
  match i with
  | .inst c [(r, .dict d)] ex set => (.inst c [(r, .dict (step d op).1)] ex set, (step d op).2)
  | i => (i, .keyError)

/-! ### Attribute assignment -/

/-- The outcome of an assignment: done, or an error was raised; with the instance afterwards.
`validate_assignment=True`, models/base_models.py:29,67,84. -/
inductive Outcome where
  | done (i : V)
  | raised (i : V)

/-- The instance afterwards. `validate_assignment=True`, models/base_models.py:29,67,84. -/
def Outcome.state : Outcome → V
  | .done i => i
  | .raised i => i

/-- Add to `__pydantic_fields_set__`. Part of `assign`. -/
def addSet (set : List Str) (name : Str) : List Str := if set.contains name then set else set ++ [name]

/-- The instance with the entries of `d`: declared fields, the rest as extra fields. Part of `assign`. -/
def rebuild (c : Cls) (d : List (Str × V)) (set : List Str) : V :=
  .inst c ((classDef c).fields.map fun f => (f.name, (lookup f.name d).getD .none))
    (d.filter fun e => (fieldOf c e.1).isNone) set

/-- The instance is changed, then the `mode="after"` validators run. `rollback` says whether the
change is undone if they raise (pydantic 2.12 does not). Simplification: a processor that raises
leaves the document as it got it. Runs models/base_models.py:35-54,108-121 and the validators of the classes. -/
def finish (E : Env) (rollback : Bool) (c : Cls) (old new : V) : Outcome :=
  match after E c new with
  | some j => .done j
  | none => .raised (if rollback then old else new)

/-- `i.name = x` with `validate_assignment=True`. Fields and extra fields are merged into one dict
(extra fields win), the new value, validated if the field is declared, is put into it, and the
dict is split again. A patterned object only has `root`.
models/base_models.py:29,67,84, models/schema.py:69,117, models/bindings/kafka.py:77. -/
def assign (E : Env) (rollback : Bool) (i : V) (name : Str) (x : V) : Outcome :=
  match i with
  | .inst c fs ex set =>
    match fieldOf c name with
    | some f => match parse E x f.ty with
      | some (v, _) =>
        if lengthOk f.maxLen v && fieldCheck E c f.name v then
          finish E rollback c i (rebuild c (dictSet (update fs ex) name v) (addSet set name))
        else .raised i
      | none => .raised i
    | none => match (classDef c).kind with
      | .extendable | .openExtra =>
        finish E rollback c i (rebuild c (dictSet (update fs ex) name x) (addSet set name))
      | _ => .raised i
  | i => .raised i

/-- A history of assignments, errors being caught. models/base_models.py:29,67,84. -/
def assigns (E : Env) (rollback : Bool) (i : V) : List (Str × V) → V
  | [] => i
  | (n, x) :: rest => assigns E rollback (assign E rollback i n x).state rest

end Verif.Mutate
