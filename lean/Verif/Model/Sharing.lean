import Verif.Model.Mutate
import Verif.Py.Object
/-!
# Model of validation, with the identities of objects

The same as `Verif/Model/Pyd.lean`, on objects that have an identity: which of the lists, dicts and instances of the
result are those of the input, and which are new? pydantic (2.12.5, uv.lock:300-301; not in /repo) makes a new list for
`list[T]`, a new dict for `dict[str, T]`, a new instance for a model class (also of an instance:
`revalidate_instances="always"`, models/base_models.py:26-33,64-71,82-88, models/schema.py:64-71,112-119,
models/bindings/kafka.py:74-81), and keeps what stands at a place of type `Any` or under an extra key.
Simplifications: processors leave the document as it is, or raise; `__pydantic_fields_set__` has no identity (a
revalidated instance shares it with the original).
-/
namespace Verif.Sharing
open Verif Verif.Gen Verif.Pyd

/-- Result of validating an object: the validated object and how well it fits. `model_validate` of the classes of models/*.py. -/
abbrev Got := Option (Ob × Score)
/-- Validation of one object against types. `model_validate` of the classes of models/*.py. -/
abbrev Reader := Ty Cls → Got

/-- The parts of a composite object, each with its own validation. `model_validate` of the classes of models/*.py. -/
inductive Form where
  | scalar
  | list (l : List Reader)
  | dict (d : List (Str × Ob × Reader))
  | inst (c : Cls) (fields extras : List (Str × Ob × Reader)) (set : List Str)

/-- The best candidate of a union, see `Pyd.pick`. Annotations `A | B` in models/*.py; uv.lock:300-301. -/
def choose (E : Env) (cur : Got) : List Got → Got
  | [] => cur
  | none :: rest => choose E cur rest
  | some new :: rest => match cur with
    | none => choose E (some new) rest
    | some c => choose E (some (if better E c.2 new.2 then new else c)) rest

/-- What cannot be changed has no identity: scalars are validated as values.
Annotations `str`, `int`, `bool`, … in models/*.py. -/
def scalar (r : Res) : Got := r.map fun r => (Ob.new r.1, r.2)

/-- The result of validating the declared fields, see `Pyd.FieldsRes`.
models/base_models.py:26-33,64-71,82-88; pydantic as locked in uv.lock:300-301. -/
structure GotFields where
  fields : List (Str × Ob)
  set : List Str
  used : List Str
  score : Score

/-- Validate the declared fields in order, see `Pyd.parseFields`. Defaults cannot be changed in place.
models/base_models.py:26-33,64-71,82-88; pydantic as locked in uv.lock:300-301. -/
def readFields (E : Env) (c : Cls) (d : List (Str × Ob × Reader)) : List (FieldDef Cls) → Option GotFields
  | [] => some ⟨[], [], [], .exactly⟩
  | f :: rest =>
    match findKey f d with
    | some (k, _, p) => match p f.ty with
      | some (v, sc) =>
        if lengthOk f.maxLen v.val && fieldCheck E c f.name v.val then
          match readFields E c d rest with
          | some r => some ⟨(f.name, v) :: r.fields, f.name :: r.set, k :: r.used, sc.and (r.score.and ⟨2, some 1⟩)⟩
          | none => none
        else none
      | none => none
    | none => match dfltValue f.dflt with
      | some v => match readFields E c d rest with
        | some r => some ⟨(f.name, Ob.new v) :: r.fields, r.set, r.used, r.score⟩
        | none => none
      | none => none

/-- Entries whose keys were not used by declared fields: the very objects.
`extra=`: models/base_models.py:26-33,64-71,82-88; pydantic as locked in uv.lock:300-301. -/
def leftOver (used : List Str) (d : List (Str × Ob × Reader)) : List (Str × Ob) :=
  (d.filter fun e => !(used.contains e.1)).map fun e => (e.1, e.2.1)

/-- Build a new instance of `c` from the entries of a dict, see `Pyd.construct`.
models/base_models.py:26-33,64-71,82-88; pydantic as locked in uv.lock:300-301. -/
def build (E : Env) (c : Cls) (d : List (Str × Ob × Reader)) (set? : Option (List Str)) (floor : Nat) : Got :=
  match readFields E c d (classDef c).fields with
  | none => none
  | some r =>
    let extras := leftOver r.used d
    if (classDef c).kind = .nonExtendable ∧ extras ≠ [] then none
    else
      let self := Ob.inst none c r.fields extras (set?.getD (r.set ++ extras.map (·.1)))
      match after E c self.val with
      | none => none
      | some _ => some (self, r.score.and ⟨floor, some 0⟩)

/-- Build a new instance of a patterned class from a validated `root`. models/base_models.py:74-121. -/
def buildRoot (E : Env) (c : Cls) (root : Got) (set? : Option (List Str)) (floor : Nat) : Got :=
  match root with
  | none => none
  | some (v, sc) =>
    let self := Ob.inst none c [(p!"root", v)] [] (set?.getD [p!"root"])
    match after E c self.val with
    | none => none
    | some _ => some (self, sc.and ⟨floor, none⟩)

/-- Validate each entry of a dict against one type. Annotations `dict[str, T]` in models/*.py. -/
def readEntries (t : Ty Cls) : List (Str × Ob × Reader) → Option (List (Str × Ob) × Score)
  | [] => some ([], .exactly)
  | (k, _, p) :: rest => match p t with
    | none => none
    | some (v, sc) => match readEntries t rest with
      | none => none
      | some (r, sc') => some ((k, v) :: r, sc.and sc')

/-- Validate each item of a list against one type. Annotations `list[T]` in models/*.py. -/
def readItems (t : Ty Cls) : List Reader → Option (List Ob × Score)
  | [] => some ([], .exactly)
  | p :: rest => match p t with
    | none => none
    | some (v, sc) => match readItems t rest with
      | none => none
      | some (r, sc') => some (v :: r, sc.and sc')

/-- Validation against a model class, see `Pyd.parseModel`.
`revalidate_instances="always"`: models/base_models.py:26-33,64-71,82-88; pydantic as locked in uv.lock:300-301. -/
def readModel (E : Env) (c : Cls) : Form → (Ty Cls → Got) → Got
  | .inst c' fs ex set, _ =>
    if c' = c then
      match (classDef c).kind, (classDef c).fields with
      | .patterned, [f] => match lookup f.name fs with
        | some (_, p) => buildRoot E c (p f.ty) (some set) 2
        | none => none
      | .patterned, _ => none
      | _, _ => build E c (update fs ex) (some set) 2
    else none
  | .dict d, root =>
    match (classDef c).kind, (classDef c).fields with
    | .patterned, [f] => buildRoot E c (root f.ty) none E.built
    | .patterned, _ => none
    | _, _ => build E c d none E.built
  | _, _ => none

/-- `dict[str, t]` on the entries: a new dict. E.g. models/security.py:98-106. -/
def readDict (t : Ty Cls) : Form → Got
  | .dict d => (readEntries t d).map fun r => (.dict none r.1, r.2)
  | _ => none

/-- The type `dict[str, t]` of the `root` of a patterned class. models/base_models.py:74-88. -/
def readRootTy (s : Form) : Ty Cls → Got
  | .dict t => readDict t s
  | _ => none

mutual
/-- Validation of an object of known form against a type, see `Pyd.parseAs`. At `Any` the object itself is kept;
a list is a new list. Annotations in models/*.py; uv.lock:300-301. -/
def readAs (E : Env) (x : Ob) (s : Form) : Ty Cls → Got
  | .any => some (x, ⟨1, none⟩)
  | .none => if x.isNone then some (.none, .exactly) else none
  | .str => scalar (parseStr x.val)
  | .int => scalar (parseInt E x.val)
  | .bool => scalar (parseBool E x.val)
  | .anyUrl => scalar (parseUrl E .any x.val)
  | .httpUrl => scalar (parseUrl E .http x.val)
  | .email => scalar (parseEmail x.val)
  | .processors => scalar (parseProc x.val)
  | .lit vs => scalar (parseLit vs x.val)
  | .list t => match s with
    | .list l => (readItems t l).map fun r => (.list none r.1, r.2)
    | _ => none
  | .dict t => readDict t s
  | .model c => readModel E c s (readRootTy s)
  | .union ts => if x.isNone && hasNone ts then some (.none, .exactly) else choose E none (readEach E x s ts)
/-- Each member of an annotation `A | B` in models/*.py. -/
def readEach (E : Env) (x : Ob) (s : Form) : List (Ty Cls) → List Got
  | [] => []
  | t :: ts => readAs E x s t :: readEach E x s ts
end

mutual
/-- Validation of an object against a type, `TypeAdapter(t).validate_python(x)`.
Annotations in models/*.py; uv.lock:300-301. -/
def read (E : Env) : Ob → Reader
  | .list id l => readAs E (.list id l) (.list (readers E l))
  | .dict id d => readAs E (.dict id d) (.dict (readings E d))
  | .inst id c fs ex set => readAs E (.inst id c fs ex set) (.inst c (readings E fs) (readings E ex) set)
  | .none => readAs E .none .scalar
  | .bool b => readAs E (.bool b) .scalar
  | .int i => readAs E (.int i) .scalar
  | .float x => readAs E (.float x) .scalar
  | .str s => readAs E (.str s) .scalar
  | .url k s => readAs E (.url k s) .scalar
  | .proc n => readAs E (.proc n) .scalar
/-- The items of a list; annotations `list[T]` in models/*.py. -/
def readers (E : Env) : List Ob → List Reader
  | [] => []
  | x :: l => read E x :: readers E l
/-- The entries of a dict or instance; models/*.py. -/
def readings (E : Env) : List (Str × Ob) → List (Str × Ob × Reader)
  | [] => []
  | (k, x) :: d => (k, x, read E x) :: readings E d
end

/-- `c.model_validate(x)`, or the constructor with keyword arguments, of the classes of models/*.py. -/
def validate (E : Env) (c : Cls) (x : Ob) : Option Ob := (read E x (.model c)).map (·.1)

/-! ### Changes -/

/-- `d[k] = x`, see `Mutate.dictSet`. The dict of models/base_models.py:96-97. -/
def put (d : List (Str × Ob)) (k : Str) (x : Ob) : List (Str × Ob) :=
  match d with
  | [] => [(k, x)]
  | e :: d => if e.1 = k then (k, x) :: d else e :: put d k x

/-- `i[k] = x` of a patterned object: `self.root[key] = value`, the object itself, in the same dict.
models/base_models.py:96-97. -/
def setItem (i : Ob) (k : Str) (x : Ob) : Ob :=
  match i with
  | .inst id c [(r, .dict id' d)] ex set => .inst id c [(r, .dict id' (put d k x))] ex set
  | i => i

/-- The same instance with the entries of `d`, see `Mutate.rebuild`. Part of `assign`. -/
def refill (id : Option Nat) (c : Cls) (d : List (Str × Ob)) (set : List Str) : Ob :=
  .inst id c ((classDef c).fields.map fun f => (f.name, (lookup f.name d).getD .none))
    (d.filter fun e => (fieldOf c e.1).isNone) set

/-- `i.name = x` with `validate_assignment=True`, if it does not raise, see `Mutate.assign`: the validated value is
put in, the other fields are not validated again.
models/base_models.py:29,67,84, models/schema.py:69,117, models/bindings/kafka.py:77. -/
def assign (E : Env) (i : Ob) (name : Str) (x : Ob) : Option Ob :=
  match i with
  | .inst id c fs ex set =>
    match fieldOf c name with
    | some f => match read E x f.ty with
      | some (v, _) =>
        if lengthOk f.maxLen v.val && fieldCheck E c f.name v.val then
          let j := refill id c (put (update fs ex) name v) (Mutate.addSet set name)
          (after E c j.val).map fun _ => j
        else none
      | none => none
    | none => match (classDef c).kind with
      | .extendable | .openExtra =>
        let j := refill id c (put (update fs ex) name x) (Mutate.addSet set name)
        (after E c j.val).map fun _ => j
      | _ => none
  | _ => none

end Verif.Sharing
