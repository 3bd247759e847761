import Verif.Gen.ClassNames
import Verif.Model.Pyd
/-!
# Model of `model_json_schema`

What `GenerateJsonSchema` of pydantic 2.12 (uv.lock:300-301, not in /repo) makes of the declarations in models/*.py, with
the default arguments (`by_alias=True`, references `#/$defs/{model}`). Simplification: the keywords that check nothing (`title`, `description`,
`default`, `examples`) are left out, except `format`.
-/
namespace Verif.JsonSchema
open Verif Verif.Gen

/-- The argument `mode` of `model_json_schema`. tests/models/test_asyncapi.py:535-550; pydantic as locked in uv.lock:300-301. -/
inductive Mode where
  | validation
  | serialization
  deriving DecidableEq, Repr

/-- `{"type": t}`. pydantic as locked in uv.lock:300-301. -/
def typed (t : Str) : List (Str × V) := [(p!"type", .str t)]

/-- A member of a `Literal`, as JSON. E.g. models/operation.py:181. -/
def litValue : Lit → V
  | .s x => .str x
  | .i x => .int x

/-- Is it a string? E.g. models/operation.py:181; pydantic as locked in uv.lock:300-301. -/
def litIsStr : Lit → Bool
  | .s _ => true
  | .i _ => false

/-- `Literal[...]`: `const` if there is one member, else `enum`; with the type, if all members have the same.
E.g. models/operation.py:181, models/security.py:205; pydantic as locked in uv.lock:300-301. -/
def litSchema (vs : List Lit) : List (Str × V) :=
  (match vs with
  | [v] => [(p!"const", litValue v)]
  | _ => [(p!"enum", .list (vs.map litValue))]) ++
  if vs.all litIsStr then typed p!"string"
  else if vs.all (fun v => !litIsStr v) then typed p!"integer"
  else []

/-- `{"$ref": "#/$defs/C"}`. pydantic as locked in uv.lock:300-301. -/
def refTo (c : Cls) : List (Str × V) := [(p!"$ref", .str (p!"#/$defs/" ++ className c))]

mutual
/-- The schema of a type. Annotations in models/*.py; `EmailStr`: models/helpers.py:75-86; `AnyUrl`, `HttpUrl`: pydantic as
locked in uv.lock:300-301. The processors of a document have none (`SkipJsonSchema`: models/asyncapi.py:137-155), see `omitted`. -/
def tySchema : Ty Cls → V
  | .any => .dict []
  | .none => .dict (typed p!"null")
  | .str => .dict (typed p!"string")
  | .int => .dict (typed p!"integer")
  | .bool => .dict (typed p!"boolean")
  | .anyUrl => .dict ([(p!"format", .str p!"uri"), (p!"minLength", .int 1)] ++ typed p!"string")
  | .httpUrl => .dict ([(p!"format", .str p!"uri"), (p!"maxLength", .int 2083), (p!"minLength", .int 1)] ++ typed p!"string")
  | .email => .dict (typed p!"string" ++ [(p!"format", .str p!"email")])
  | .processors => .bool false
  | .lit vs => .dict (litSchema vs)
  | .list t => .dict ([(p!"items", tySchema t)] ++ typed p!"array")
  | .dict .any => .dict ([(p!"additionalProperties", .bool true)] ++ typed p!"object")
  | .dict t => .dict ([(p!"additionalProperties", tySchema t)] ++ typed p!"object")
  | .model c => .dict (refTo c)
  | .union ts => .dict [(p!"anyOf", .list (tySchemas ts))]
/-- The schemas of several types. Annotations `A | B` in models/*.py. -/
def tySchemas : List (Ty Cls) → List V
  | [] => []
  | t :: ts => tySchema t :: tySchemas ts
end

/-- The schema of a type of strings, with `max_length`. `Field(max_length=...)`, models/bindings/ibmmq.py:120,159,171, models/bindings/nats.py:42;
pydantic as locked in uv.lock:300-301. -/
def limited (m : Nat) : Ty Cls → V
  | .str => .dict ([(p!"maxLength", .int m)] ++ typed p!"string")
  | t => tySchema t

/-- The schema of a field. models/*.py; of an optional field, `max_length` is about the type that is not `None`. -/
def fieldSchema (f : FieldDef Cls) : V :=
  match f.maxLen, f.ty with
  | none, t => tySchema t
  | some m, .union ts => .dict [(p!"anyOf", .list (ts.map (limited m)))]
  | some m, t => limited m t

mutual
/-- Is it a type of processors, which is annotated `SkipJsonSchema`? models/asyncapi.py:137-155. -/
def skips : Ty Cls → Bool
  | .processors => true
  | .list t => skips t
  | .dict t => skips t
  | .union ts => skipsAny ts
  | _ => false
/-- Is one of them? models/asyncapi.py:137-155. -/
def skipsAny : List (Ty Cls) → Bool
  | [] => false
  | t :: ts => skips t || skipsAny ts
end

/-- Fields that are not in the schema. `exclude=True`, `SkipJsonSchema`: models/asyncapi.py:137-155. -/
def omitted (mode : Mode) (f : FieldDef Cls) : Bool := (mode == .serialization && f.exclude) || skips f.ty

/-- The fields that are in the schema. pydantic as locked in uv.lock:300-301. -/
def shown (mode : Mode) (c : Cls) : List (FieldDef Cls) := (classDef c).fields.filter fun f => !omitted mode f

/-- The fields that are required: those without default, and when written those that are never left out. Defaults and
`exclude_if`: models/*.py; pydantic as locked in uv.lock:300-301. -/
def isRequired (mode : Mode) (f : FieldDef Cls) : Bool :=
  f.dflt == .required && !(mode == .serialization && f.excludeNull)

/-- The schema of a class. `extra=`: models/base_models.py:26-33,64-71, schema.py:64,112, bindings/kafka.py:74; `RootModel`:
models/base_models.py:74-88; pydantic as locked in uv.lock:300-301. -/
def classSchema (mode : Mode) (c : Cls) : List (Str × V) :=
  match (classDef c).kind, (classDef c).fields with
  | .patterned, f :: _ => match tySchema f.ty with
    | .dict kw => kw
    | _ => []
  | .patterned, [] => []
  | kind, _ =>
    [(p!"additionalProperties", .bool (kind != .nonExtendable)),
     (p!"properties", .dict ((shown mode c).map fun f => (f.alias.getD f.name, fieldSchema f)))] ++
    (match (shown mode c).filter (isRequired mode) with
    | [] => []
    | l => [(p!"required", .list (l.map fun f => .str (f.alias.getD f.name)))]) ++
    typed p!"object"

mutual
/-- The classes a type refers to. Annotations in models/*.py. -/
def refsOf : Ty Cls → List Cls
  | .model c => [c]
  | .list t => refsOf t
  | .dict t => refsOf t
  | .union ts => refsOfAll ts
  | _ => []
/-- The classes several types refer to. Annotations `A | B` in models/*.py. -/
def refsOfAll : List (Ty Cls) → List Cls
  | [] => []
  | t :: ts => refsOf t ++ refsOfAll ts
end

/-- The classes a class refers to. models/*.py. -/
def usesOf (mode : Mode) (c : Cls) : List Cls := (shown mode c).flatMap fun f => refsOf f.ty

/-- All classes referred to from those in the first list, directly or not, that are not in `seen`, together with `seen`.
pydantic as locked in uv.lock:300-301. -/
def collect (mode : Mode) : Nat → List Cls → List Cls → List Cls
  | 0, _, seen => seen
  | _, [], seen => seen
  | n + 1, c :: todo, seen =>
    if seen.contains c then collect mode n todo seen
    else collect mode n (usesOf mode c ++ todo) (c :: seen)

/-- The classes in `$defs`: those that are referred to, directly or not. The number of steps is enough for the classes of the package.
pydantic as locked in uv.lock:300-301. -/
def defsOf (mode : Mode) (c : Cls) : List Cls := collect mode 2000 (usesOf mode c) []

/-- `$defs`. pydantic as locked in uv.lock:300-301. -/
def definitions (mode : Mode) (cs : List Cls) : List (Str × V) :=
  match cs with
  | [] => []
  | cs => [(p!"$defs", .dict (cs.map fun c => (className c, .dict (classSchema mode c))))]

/-- `C.model_json_schema(mode=mode)`: the schema of the class, and definitions of the classes it refers to. If it refers to itself, it is
one of these. tests/models/test_asyncapi.py:535-550; pydantic as locked in uv.lock:300-301. -/
def modelJsonSchema (mode : Mode) (c : Cls) : V :=
  let cs := defsOf mode c
  .dict (definitions mode cs ++ if cs.contains c then refTo c else classSchema mode c)

end Verif.JsonSchema
