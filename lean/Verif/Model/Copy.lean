import Verif.Model.Sharing
/-!
# Model of copies of instances, and of instances made without validation

`model_copy` (also `copy.copy` and `copy.deepcopy`, through `__copy__` and `__deepcopy__`) and `model_construct` of pydantic
2.12.5 (uv.lock:300-301; not in /repo), which the classes of models/** inherit (models/base_models.py:17, 57, 74;
models/schema.py:20, 103) and do not override. Which branch they take depends on `extra=` of the class:
models/base_models.py:26-33, 64-71, 82-88, models/schema.py:64-71, 112-119, models/bindings/kafka.py:74-81.
Simplifications: objects that cannot be changed have no identity, and neither have processors (a deep copy of a document
has copies of processors that are objects with a state) and `__pydantic_fields_set__` (which is copied). There are no
private attributes in models/**.
-/
namespace Verif.Copy
open Verif Verif.Gen Verif.Pyd

/-- `__copy__`: a new instance, object number `n`, with a copy of `__dict__` and of `__pydantic_extra__`; what stands in them
is not copied. Inherited by the classes of models/base_models.py:17, 57, 74. -/
def shallow (n : Nat) : Ob → Ob
  | .inst _ c fs ex set => .inst (some n) c fs ex set
  | x => x

mutual
/-- `copy.deepcopy(x)`: of object number `n` object number `memo n` is made, once (`memo`), with copies of what is in it.
The classes of models/base_models.py:17, 57, 74 inherit `__deepcopy__`. -/
def deep (memo : Nat → Nat) : Ob → Ob
  | .list id l => .list (id.map memo) (deepItems memo l)
  | .dict id d => .dict (id.map memo) (deepEntries memo d)
  | .inst id c fs ex set => .inst (id.map memo) c (deepEntries memo fs) (deepEntries memo ex) set
  | .none => .none
  | .bool b => .bool b
  | .int i => .int i
  | .float x => .float x
  | .str s => .str s
  | .url k s => .url k s
  | .proc n => .proc n
/-- The items of a list, see `deep`. models/base_models.py:17, 57, 74. -/
def deepItems (memo : Nat → Nat) : List Ob → List Ob
  | [] => []
  | x :: l => deep memo x :: deepItems memo l
/-- The entries of a dict or instance, see `deep`. models/base_models.py:17, 57, 74. -/
def deepEntries (memo : Nat → Nat) : List (Str × Ob) → List (Str × Ob)
  | [] => []
  | (k, x) :: d => (k, deep memo x) :: deepEntries memo d
end

/-- `model_copy(deep=True)` calls `__deepcopy__` without a memo: `__dict__` and `__pydantic_extra__` are copied one after the
other, each with a memo of its own. Inherited by the classes of models/base_models.py:17, 57, 74. -/
def deepModel (n : Nat) (memo memo' : Nat → Nat) : Ob → Ob
  | .inst _ c fs ex set => .inst (some n) c (deepEntries memo fs) (deepEntries memo' ex) set
  | x => x

/-- One entry of `update`: with `extra="allow"` undeclared names go to `__pydantic_extra__`, otherwise all go to `__dict__`.
models/base_models.py:26-33, 64-71, 82-88, models/schema.py:64-71, 112-119, models/bindings/kafka.py:74-81. -/
def updateOne (x : Ob) (k : Str) (v : Ob) : Ob :=
  match x with
  | .inst id c fs ex set =>
    let set' := Mutate.addSet set k
    match (classDef c).kind with
    | .extendable | .openExtra =>
      if (fieldOf c k).isSome then .inst id c (Sharing.put fs k v) ex set'
      else .inst id c fs (Sharing.put ex k v) set'
    | _ => .inst id c (Sharing.put fs k v) ex set'
  | x => x

/-- The entries of `update`, in order. models/base_models.py:26-33, 64-71, 82-88. -/
def updateAll (x : Ob) : List (Str × Ob) → Ob
  | [] => x
  | (k, v) :: u => updateAll (updateOne x k v) u

/-- `x.model_copy(update=u)`: nothing is validated. Inherited by the classes of models/base_models.py:17, 57, 74. -/
def modelCopy (n : Nat) (x : Ob) (u : List (Str × Ob)) : Ob := updateAll (shallow n x) u

/-- The declared fields of `model_construct`: the value given under the alias or the name, else the default; a required
field that is not given is not there. Given values are taken out of the arguments; no name or alias of a class of models/**
is that of another field, so that this makes no difference to other fields (C44).
`Field(default=…, alias=…)` in models/*.py; uv.lock:300-301. -/
def constructFields (d : List (Str × V)) : List (FieldDef Cls) → List (Str × V) × List Str × List Str
  | [] => ([], [], [])
  | f :: rest =>
    let r := constructFields d rest
    match findKey f d with
    | some (k, v) => ((f.name, v) :: r.1, f.name :: r.2.1, k :: r.2.2)
    | none => match dfltValue f.dflt with
      | some v => ((f.name, v) :: r.1, r.2)
      | none => r

/-- `c.model_construct(**d)`, without `_fields_set`: no value is validated, no validator runs (neither of the class nor of
its bases, and no processor). What is left of the arguments is kept with `extra="allow"`, and dropped otherwise.
models/base_models.py:26-33, 64-71, 82-88, models/schema.py:64-71, 112-119, models/bindings/kafka.py:74-81. -/
def constructUnchecked (c : Cls) (d : List (Str × V)) : V :=
  let r := constructFields d (classDef c).fields
  let extras := match (classDef c).kind with
    | .extendable | .openExtra => d.filter fun e => !(r.2.2.contains e.1)
    | _ => []
  .inst c r.1 extras r.2.1

end Verif.Copy
