import Verif.Py.Report
import Verif.Model.Pyd
import Verif.Model.Messages
/-!
# Model of validation with the entries of its `ValidationError`

The same as `Verif/Model/Pyd.lean`, except that a failure carries what `e.errors()` of the
`ValidationError` lists: for each entry where (`loc`) and, coarsely, why. pydantic goes on after
a failing item, entry or field (`fail_fast` is not set anywhere in models/*.py), and runs the `mode="after"`
validators of a class only if all its fields are right. pydantic is not in /repo (uv.lock:300-301);
`loc_by_alias` has its default. Of the texts of entries, those of the package's validators are modelled; `input` is not.
Simplification: a processor that raises something other than `ValueError` or `AssertionError`
ends the validation with that exception and not with a `ValidationError`.
-/
namespace Verif.Pyd
open Verif Verif.Gen

/-- Result of validating a value: the entries of the error, or the validated value.
`model_validate` of the classes of models/*.py. -/
abbrev Out := Except (List Fault) (V × Score)
/-- Validation of one value against types. `model_validate` of the classes of models/*.py. -/
abbrev Checker := Ty Cls → Out

/-- The parts of a composite value, each with its own validation. `model_validate` of the classes of models/*.py. -/
inductive CShape where
  | scalar
  | list (l : List Checker)
  | dict (d : List (Str × V × Checker))
  | inst (c : Cls) (fields extras : List (Str × V × Checker)) (set : List Str)

/-- One entry, about the value itself, with the text of a validator, if there is one.
pydantic as locked in uv.lock:300-301. -/
def saying (text : Option Str) : List Fault := [⟨[], .wrong text⟩]

/-- One entry, about the value itself. pydantic as locked in uv.lock:300-301. -/
def itself : List Fault := saying none

/-- Entries about a part, seen from the whole. pydantic as locked in uv.lock:300-301. -/
def under (s : Step) (l : List Fault) : List Fault := l.map fun f => ⟨s :: f.loc, f.why⟩

/-- A result without entries fails with one about the value itself, with the text.
pydantic as locked in uv.lock:300-301. -/
def orSaying (text : Option Str) : Res → Out
  | some r => .ok r
  | none => .error (saying text)

/-- A result without entries fails with one about the value itself. pydantic as locked in uv.lock:300-301. -/
def orItself (r : Res) : Out := orSaying none r

/-- The best candidate of a union. Annotations `A | B` in models/*.py; uv.lock:300-301. -/
def pickOut (E : Env) (l : List Out) : Res := pick E none (l.map Except.toOption)

/-- Entries of the members of a union, each under its label.
Annotations `A | B` in models/*.py; uv.lock:300-301. -/
def labelled : List (Ty Cls) → List Out → List Fault
  | t :: ts, .error l :: rs => under (.member t) l ++ labelled ts rs
  | _ :: ts, .ok _ :: rs => labelled ts rs
  | _, _ => []

/-- What is wrong with the fields, and what was read of them.
models/base_models.py:26-33,64-71,82-88; pydantic as locked in uv.lock:300-301. -/
structure FieldsOut where
  errors : List Fault
  res : FieldsRes

/-- The entry about a field whose value has the right type, but is too long or refused by the validator of the field.
models/base_models.py:26-33,64-71,82-88; pydantic as locked in uv.lock:300-301. -/
def refusal (E : Env) (c : Cls) (f : FieldDef Cls) (v : V) : Why :=
  .wrong (if lengthOk f.maxLen v then Messages.field E c f.name v else none)

/-- Validate the declared fields in order, going on after a failure. An entry about a field that is given has the
key under which it is given as its location, one about a field that is missing has its alias, if there is one.
models/base_models.py:26-33,64-71,82-88; pydantic as locked in uv.lock:300-301. -/
def checkFields (E : Env) (c : Cls) (d : List (Str × V × Checker)) : List (FieldDef Cls) → FieldsOut
  | [] => ⟨[], ⟨[], [], [], .exactly⟩⟩
  | f :: rest =>
    let r := checkFields E c d rest
    match findKey f d with
    | some (k, _, p) => match p f.ty with
      | .ok (v, sc) =>
        if lengthOk f.maxLen v && fieldCheck E c f.name v then
          ⟨r.errors, ⟨(f.name, v) :: r.res.fields, f.name :: r.res.set, k :: r.res.used,
            sc.and (r.res.score.and ⟨2, some 1⟩)⟩⟩
        else ⟨⟨[.key k], refusal E c f v⟩ :: r.errors, { r.res with used := k :: r.res.used }⟩
      | .error l => ⟨under (.key k) l ++ r.errors, { r.res with used := k :: r.res.used }⟩
    | none => match dfltValue f.dflt with
      | some v => ⟨r.errors, { r.res with fields := (f.name, v) :: r.res.fields }⟩
      | none => ⟨⟨[.key (f.alias.getD f.name)], .missing⟩ :: r.errors, r.res⟩

/-- Entries whose keys were not used by declared fields.
`extra=`: models/base_models.py:26-33,64-71,82-88; pydantic as locked in uv.lock:300-301. -/
def spare (used : List Str) (d : List (Str × V × Checker)) : List (Str × V) :=
  (d.filter fun e => !(used.contains e.1)).map fun e => (e.1, e.2.1)

/-- What `extra="forbid"` has to say. models/base_models.py:64-71. -/
def forbidden (c : Cls) (extras : List (Str × V)) : List Fault :=
  match (classDef c).kind with
  | .nonExtendable => extras.map fun e => ⟨[.key e.1], .unexpected⟩
  | _ => []

/-- Build an instance of `c` from the entries of a dict, see `construct`.
models/base_models.py:26-33,64-71,82-88; pydantic as locked in uv.lock:300-301. -/
def make (E : Env) (c : Cls) (d : List (Str × V × Checker)) (set? : Option (List Str)) (floor : Nat) : Out :=
  let r := checkFields E c d (classDef c).fields
  let extras := spare r.res.used d
  match r.errors ++ forbidden c extras with
  | [] =>
    let self := V.inst c r.res.fields extras (set?.getD (r.res.set ++ extras.map (·.1)))
    orSaying (Messages.ofObject E.U c self) ((after E c self).map fun i => (i, r.res.score.and ⟨floor, some 0⟩))
  | l => .error l

/-- Build an instance of a patterned class from a validated `root`: entries about the root are entries
about the value. models/base_models.py:74-121. -/
def makeRoot (E : Env) (c : Cls) (root : Out) (set? : Option (List Str)) (floor : Nat) : Out :=
  match root with
  | .error l => .error l
  | .ok (v, sc) =>
    let self := V.inst c [(p!"root", v)] [] (set?.getD [p!"root"])
    orSaying (Messages.ofObject E.U c self) ((after E c self).map fun i => (i, sc.and ⟨floor, none⟩))

/-- Validate each entry of a dict against one type. Annotations `dict[str, T]` in models/*.py. -/
def checkEntries (t : Ty Cls) : List (Str × V × Checker) → Except (List Fault) (List (Str × V) × Score)
  | [] => .ok ([], .exactly)
  | (k, _, p) :: rest => match p t, checkEntries t rest with
    | .ok (v, sc), .ok (r, sc') => .ok ((k, v) :: r, sc.and sc')
    | .ok _, .error l => .error l
    | .error l, .ok _ => .error (under (.key k) l)
    | .error l, .error l' => .error (under (.key k) l ++ l')

/-- Validate each item of a list against one type, counting from `n`. Annotations `list[T]` in models/*.py. -/
def checkItems (t : Ty Cls) (n : Nat) : List Checker → Except (List Fault) (List V × Score)
  | [] => .ok ([], .exactly)
  | p :: rest => match p t, checkItems t (n + 1) rest with
    | .ok (v, sc), .ok (r, sc') => .ok (v :: r, sc.and sc')
    | .ok _, .error l => .error l
    | .error l, .ok _ => .error (under (.index n) l)
    | .error l, .error l' => .error (under (.index n) l ++ l')

/-- Validation against a model class, see `parseModel`.
`revalidate_instances="always"`: models/base_models.py:26-33,64-71,82-88; pydantic as locked in uv.lock:300-301. -/
def checkModel (E : Env) (c : Cls) : CShape → (Ty Cls → Out) → Out
  | .inst c' fs ex set, _ =>
    if c' = c then
      match (classDef c).kind, (classDef c).fields with
      | .patterned, [f] => match lookup f.name fs with
        | some (_, p) => makeRoot E c (p f.ty) (some set) 2
        | none => .error itself
      | .patterned, _ => .error itself
      | _, _ => make E c (update fs ex) (some set) 2
    else .error itself
  | .dict d, root =>
    match (classDef c).kind, (classDef c).fields with
    | .patterned, [f] => makeRoot E c (root f.ty) none E.built
    | .patterned, _ => .error itself
    | _, _ => make E c d none E.built
  | _, _ => .error itself

/-- `dict[str, t]` on the entries. E.g. models/security.py:98-106. -/
def checkDict (t : Ty Cls) : CShape → Out
  | .dict d => (checkEntries t d).map fun r => (.dict r.1, r.2)
  | _ => .error itself

/-- The type `dict[str, t]` of the `root` of a patterned class, on the shape of the input.
models/base_models.py:74-88. -/
def checkRootTy (s : CShape) : Ty Cls → Out
  | .dict t => checkDict t s
  | _ => .error itself

/-- The members of a union apart from `None`. Annotations `T | None` in models/*.py. -/
def nonNull : List (Ty Cls) → List (Ty Cls)
  | [] => []
  | .none :: ts => nonNull ts
  | t :: ts => t :: nonNull ts

/-- The entries when no member of a union fits: those of the only one apart from `None`, or those of each, under
labels. Annotations `A | B`, `T | None` in models/*.py; uv.lock:300-301. -/
def unionFaults (ts : List (Ty Cls)) (rs : List Out) : List Fault :=
  match ts, rs with
  | [], _ => itself
  | [_], [.error l] => l
  | ts, rs => labelled ts rs

mutual
/-- Validation of a value of known shape against a type, see `parseAs`.
Annotations in models/*.py; uv.lock:300-301. -/
def checkAs (E : Env) (v : V) (s : CShape) : Ty Cls → Out
  | .any => .ok (v, ⟨1, none⟩)
  | .none => if v.isNone then .ok (.none, .exactly) else .error itself
  | .str => orItself (parseStr v)
  | .int => orItself (parseInt E v)
  | .bool => orItself (parseBool E v)
  | .anyUrl => orItself (parseUrl E .any v)
  | .httpUrl => orItself (parseUrl E .http v)
  | .email => orSaying (Messages.email v) (parseEmail v)
  | .processors => orItself (parseProc v)
  | .lit vs => orItself (parseLit vs v)
  | .list t => match s with
    | .list l => (checkItems t 0 l).map fun r => (.list r.1, r.2)
    | _ => .error itself
  | .dict t => checkDict t s
  | .model c => checkModel E c s (checkRootTy s)
  | .union ts =>
    if v.isNone && hasNone ts then .ok (.none, .exactly)
    else match pickOut E (checkEach E v s ts) with
      | some r => .ok r
      | none => .error (unionFaults (nonNull ts) (checkEach E v s ts))
/-- Each member of an annotation `A | B` in models/*.py, apart from `None`. -/
def checkEach (E : Env) (v : V) (s : CShape) : List (Ty Cls) → List Out
  | [] => []
  | .none :: ts => checkEach E v s ts
  | t :: ts => checkAs E v s t :: checkEach E v s ts
end

mutual
/-- Validation of a value against a type. Annotations in models/*.py; uv.lock:300-301. -/
def check (E : Env) : V → Checker
  | .list l => checkAs E (.list l) (.list (checkers E l))
  | .dict d => checkAs E (.dict d) (.dict (checks E d))
  | .inst c fs ex set => checkAs E (.inst c fs ex set) (.inst c (checks E fs) (checks E ex) set)
  | .none => checkAs E .none .scalar
  | .bool b => checkAs E (.bool b) .scalar
  | .int i => checkAs E (.int i) .scalar
  | .float x => checkAs E (.float x) .scalar
  | .str s => checkAs E (.str s) .scalar
  | .url k s => checkAs E (.url k s) .scalar
  | .proc n => checkAs E (.proc n) .scalar
/-- The items of a list; annotations `list[T]` in models/*.py. -/
def checkers (E : Env) : List V → List Checker
  | [] => []
  | v :: l => check E v :: checkers E l
/-- The entries of a dict or instance; models/*.py. -/
def checks (E : Env) : List (Str × V) → List (Str × V × Checker)
  | [] => []
  | (k, v) :: d => (k, v, check E v) :: checks E d
end

/-- The entries of the error of `c.model_validate(v)`: none if it succeeds.
`model_validate`, or the constructor with keyword arguments, of the classes of models/*.py. -/
def faults (E : Env) (c : Cls) (v : V) : List Fault :=
  match check E v (.model c) with
  | .ok _ => []
  | .error l => l

end Verif.Pyd
