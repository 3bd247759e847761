import Verif.Model.Fields
/-!
# Model of validation and serialization of the model classes

What pydantic 2.12 does with the class declarations of `asyncapi3/models`
(`Verif/Gen/Classes.lean`) under their configuration
(`extra`, `revalidate_instances="always"`, `validate_by_name`,
`validate_by_alias`, `serialize_by_alias`: models/base_models.py:26-33,64-71,81-87,
models/schema.py:64-71,112-119, models/bindings/kafka.py:74-81). pydantic itself
is not in /repo; its behaviour is stated here and is part of the trusted base.
Lax conversions between scalars, URL parsing and the comparison of a plain value
with a model in a union are parameters.

Only success and result are modelled here; for the entries of a ValidationError see `Verif/Model/Errors.lean`.
-/
namespace Verif.Pyd
open Verif Verif.Gen

/-- How well a value fits a type: exactness (2 exact, 1 strict, 0 lax) and the number of declared
model fields that were given, if models took part. Used to choose among the members of a union.
Smart-mode unions of the field annotations `A | B` in models/*.py; uv.lock:300-301. -/
structure Score where
  exact : Nat
  count : Option Nat
  deriving DecidableEq, Repr

/-- What the model leaves open.
Not in /repo: Unicode tables, pydantic (uv.lock:300-301), URLs, user processors (protocols.py:13-28). -/
structure Env where
  U : Uni
  /-- `sys.get_int_max_str_digits()` -/
  digits : Option Nat
  /-- lax conversions of pydantic; those between `bool` and `int` are fixed below -/
  floatToInt : Str → Option Int
  strToInt : Str → Option Int
  floatToBool : Str → Option Bool
  strToBool : Str → Option Bool
  /-- the normal form of a URL, if it is one -/
  url : UrlKind → Str → Option Str
  /-- a normal form is its own normal form -/
  url_idem : ∀ k s u, url k s = some u → url k u = some u
  /-- Does the second candidate of a union replace the first, when one of them is a model and the
  other is not? -/
  mixed : Score → Score → Bool
  /-- How well a dict fits a model class that is built from it: laxly (0) or strictly (1), never exactly
  (an instance of the class fits exactly). This decides some choices among the members of a union. -/
  built : Nat
  built_le : built ≤ 1
  /-- What processor class `n` does when instantiated and called on a document: the document it
  leaves, or `none` if it raises. -/
  call : Nat → V → Option V

/-- What pydantic-core 2.41 does when a model is compared with something else: it looks at exactness
alone. Most theorems do not need this. uv.lock:300-301. -/
def ByExactness (mixed : Score → Score → Bool) : Prop := ∀ a b, mixed a b = decide (a.exact < b.exact)

/-- Result of validating a value: the validated value and how well it fits.
`model_validate` of the classes of models/*.py. -/
abbrev Res := Option (V × Score)
/-- Validation of one value against types. `model_validate` of the classes of models/*.py. -/
abbrev Parser := Ty Cls → Res

/-- The parts of a composite value, each with its own validation. `model_validate` of the classes of models/*.py. -/
inductive Shape where
  | scalar
  | list (l : List Parser)
  | dict (d : List (Str × V × Parser))
  | inst (c : Cls) (fields extras : List (Str × V × Parser)) (set : List Str)

/-- An exact fit; see `Score`: annotations `A | B` in models/*.py. -/
def Score.exactly : Score := ⟨2, none⟩

/-- Both parts count. Annotations `A | B` in models/*.py; uv.lock:300-301. -/
def Score.and (a b : Score) : Score :=
  ⟨min a.exact b.exact, match a.count, b.count with
    | some m, some n => some (m + n)
    | some m, none => some m
    | none, n => n⟩

/-- In a union, does `new` replace `cur`? pydantic compares the numbers of fields given if both
have one, then exactness. Annotations `A | B` in models/*.py; uv.lock:300-301. -/
def better (E : Env) (cur new : Score) : Bool :=
  match cur.count, new.count with
  | some m, some n => if m = n then decide (cur.exact < new.exact) else decide (m < n)
  | none, none => decide (cur.exact < new.exact)
  | _, _ => E.mixed cur new

/-- The best candidate of a union, left to right. (pydantic stops at an exact candidate without
models; nothing replaces it here either, unless `mixed` says so.)
Annotations `A | B` in models/*.py; uv.lock:300-301. -/
def pick (E : Env) (cur : Res) : List Res → Res
  | [] => cur
  | none :: rest => pick E cur rest
  | some new :: rest => match cur with
    | none => pick E (some new) rest
    | some c => pick E (some (if better E c.2 new.2 then new else c)) rest

/-- `max_length`, in characters.
`Field(max_length=…)`: models/bindings/ibmmq.py:120,159,171, nats.py:42, solace.py:46, amqp.py:37,77. -/
def lengthOk (max : Option Nat) (v : V) : Bool :=
  match max, v with
  | some m, .str s => decide (s.length ≤ m)
  | _, _ => true

/-- The field validators (`@field_validator`) of a class.
models/asyncapi.py:255-275, security.py:46-59, bindings/amqp.py:229-237, solace.py:239-245, ibmmq.py:100-109,248-255,332-339, kafka.py:196-210. -/
def fieldCheck (E : Env) (c : Cls) (name : Str) (v : V) : Bool :=
  match c with
  | .AsyncAPI3 => if name = p!"asyncapi" then
      match v with
      | .str s => Patterns.validateVersion E.U E.digits s
      | _ => false
    else true
  | .CorrelationID => if name = p!"location" then Fields.runtimeExpression v else true
  | .AMQPOperationBindings => if name = p!"expiration" then Fields.notNegative v else true
  | .SolaceOperationBindings => if name = p!"priority" then Fields.solacePriority v else true
  | .IBMMQServerBindings => if name = p!"heart_beat_interval" then Fields.heartBeat v else true
  | .IBMMQChannelBindings => if name = p!"max_msg_length" then Fields.maxMsgLength v else true
  | .IBMMQMessageBindings => if name = p!"expiry" then Fields.notNegative v else true
  | .KafkaChannelBindings =>
    if name = p!"partitions" then Fields.positive v
    else if name = p!"replicas" then Fields.positive v else true
  | _ => true

/-- The model validators (`@model_validator(mode="after")`) of a class, apart from those of its
base class and `run_extra_processors`.
models/channel.py:173-198, message.py:59-68, security.py:143-183,308-375, bindings/amqp.py:137-157, solace.py:178-191, ibmmq.py:257-269,341-351, kafka.py:55-64. -/
def modelCheck (c : Cls) (self : V) : Bool :=
  match c with
  | .Channel => Fields.channelParameters self
  | .MessageExample => Fields.headersOrPayload self
  | .OAuthFlows => Fields.oauthFlows self
  | .SecurityScheme => Fields.securityScheme self
  | .AMQPChannelBindings => Fields.amqpChannel self
  | .SolaceDestination => Fields.solaceDestination self
  | .IBMMQChannelBindings => Fields.ibmmqChannel self
  | .IBMMQMessageBindings => Fields.ibmmqMessage self
  | .KafkaServerBindings => Fields.kafkaServer self
  | _ => true

/-- The model validators of the base classes: `validate_extensions`
(models/base_models.py:35-54) and `validate_patterned_keys` (models/base_models.py:108-122). -/
def baseCheck (E : Env) (c : Cls) (self : V) : Bool :=
  match (classDef c).kind with
  | .extendable => Patterns.validateExtensions E.U (self.extras.map (·.1))
  | .patterned => match self.attr p!"root" with
    | .dict d => Patterns.patternedKeys (d.map (·.1))
    | _ => true
  | _ => true

/-- `if self.extra_converters: for converter_cls in self.extra_converters`, models/asyncapi.py:285-286,
292-293: `None` is skipped. Simplification: the field holds `None` or a list, as its type says. -/
def processorsOf : V → List V
  | .list l => l
  | _ => []

/-- The outcome of running processors: the calls made, in order (which class, on which document), and
the document at the end, or `none` if one of them raised. models/asyncapi.py:277-296. -/
abbrev Run := List (Nat × V) × Option V

/-- `for cls in …: processor = cls(); processor(self)`, models/asyncapi.py:283-296: each processor gets the
document as the previous one left it; return values are ignored. What is not a processor class
cannot be called, and raises. Simplification: the list is not changed in place by the
processors while it is being iterated. -/
def callAll (E : Env) : List V → V → Run
  | [], doc => ([], some doc)
  | .proc n :: ns, doc => match E.call n doc with
    | none => ([(n, doc)], none)
    | some doc' => ((n, doc) :: (callAll E ns doc').1, (callAll E ns doc').2)
  | _ :: _, _ => ([], none)

/-- `AsyncAPI3.run_extra_processors`, models/asyncapi.py:277-281: converters, then the validators of
the document the converters leave. -/
def runProcessors (E : Env) (self : V) : Run :=
  match callAll E (processorsOf (self.attr p!"extra_converters")) self with
  | (log, none) => (log, none)
  | (log, some self') =>
    let r := callAll E (processorsOf (self'.attr p!"extra_validators")) self'
    (log ++ r.1, r.2)

/-- All `mode="after"` validators of a class, in order.
models/base_models.py:35-54,108-121, models/asyncapi.py:277-296, and those of `modelCheck`. -/
def after (E : Env) (c : Cls) (self : V) : Option V :=
  if baseCheck E c self && modelCheck c self then
    match c with
    | .AsyncAPI3 => (runProcessors E self).2
    | _ => some self
  else none

/-- The default of a field (`none`: the field is required). `Field(default=…)` in models/*.py. -/
def dfltValue : Dflt → Option V
  | .required => none
  | .null => some .none
  | .bool b => some (.bool b)
  | .str s => some (.str s)
  | .int i => some (.int i)

/-- The key under which a field is given: its alias if that is present, else its name.
`validate_by_name`, `validate_by_alias`: models/base_models.py:26-33,64-71,82-88; pydantic as locked in uv.lock:300-301. -/
def findKey {β : Type} (f : FieldDef Cls) (d : List (Str × β)) : Option (Str × β) :=
  match f.alias with
  | none => (lookup f.name d).map (f.name, ·)
  | some a => match lookup a d with
    | some x => some (a, x)
    | none => (lookup f.name d).map (f.name, ·)

/-- The result of validating the declared fields.
models/base_models.py:26-33,64-71,82-88; pydantic as locked in uv.lock:300-301. -/
structure FieldsRes where
  fields : List (Str × V)
  set : List Str
  used : List Str
  score : Score

/-- Validate the declared fields in order.
models/base_models.py:26-33,64-71,82-88; pydantic as locked in uv.lock:300-301. -/
def parseFields (E : Env) (c : Cls) (d : List (Str × V × Parser)) : List (FieldDef Cls) → Option FieldsRes
  | [] => some ⟨[], [], [], .exactly⟩
  | f :: rest =>
    match findKey f d with
    | some (k, _, p) => match p f.ty with
      | some (v, sc) =>
        if lengthOk f.maxLen v && fieldCheck E c f.name v then
          match parseFields E c d rest with
          | some r => some ⟨(f.name, v) :: r.fields, f.name :: r.set, k :: r.used, sc.and (r.score.and ⟨2, some 1⟩)⟩
          | none => none
        else none
      | none => none
    | none => match dfltValue f.dflt with
      | some v => match parseFields E c d rest with
        | some r => some ⟨(f.name, v) :: r.fields, r.set, r.used, r.score⟩
        | none => none
      | none => none

/-- Entries whose keys were not used by declared fields.
`extra=`: models/base_models.py:26-33,64-71,82-88; pydantic as locked in uv.lock:300-301. -/
def unused (used : List Str) (d : List (Str × V × Parser)) : List (Str × V) :=
  (d.filter fun e => !(used.contains e.1)).map fun e => (e.1, e.2.1)

/-- Build an instance of `c` from the entries of a dict: fields, extras, `after` validators.
`set?` is the set of given fields if it is inherited from an instance. Extra fields are kept as
they are. `extra=`: models/base_models.py:26-33,64-71,82-88; pydantic as locked in uv.lock:300-301. -/
def construct (E : Env) (c : Cls) (d : List (Str × V × Parser)) (set? : Option (List Str)) (floor : Nat) : Res :=
  match parseFields E c d (classDef c).fields with
  | none => none
  | some r =>
    let extras := unused r.used d
    if (classDef c).kind = .nonExtendable ∧ extras ≠ [] then none
    else match after E c (.inst c r.fields extras (set?.getD (r.set ++ extras.map (·.1)))) with
      | none => none
      | some i => some (i, r.score.and ⟨floor, some 0⟩)

/-- Build an instance of a patterned class from a validated `root`. models/base_models.py:74-121. -/
def constructRoot (E : Env) (c : Cls) (root : Res) (set? : Option (List Str)) (floor : Nat) : Res :=
  match root with
  | none => none
  | some (v, sc) => match after E c (.inst c [(p!"root", v)] [] (set?.getD [p!"root"])) with
    | none => none
    | some i => some (i, sc.and ⟨floor, none⟩)

/-- `dict.update`: values of the second replace those of the first.
`revalidate_instances="always"` merges fields and extras; also `dict(**kwargs)`, models/asyncapi.py:157-253. models/base_models.py:26-33,64-71,82-88; pydantic as locked in uv.lock:300-301. -/
def update {β : Type} (d e : List (Str × β)) : List (Str × β) :=
  d.map (fun x => (x.1, (lookup x.1 e).getD x.2)) ++ e.filter (fun x => (lookup x.1 d).isNone)

/-- Validate each entry of a dict against one type. Annotations `dict[str, T]` in models/*.py. -/
def parseEntries (t : Ty Cls) : List (Str × V × Parser) → Option (List (Str × V) × Score)
  | [] => some ([], .exactly)
  | (k, _, p) :: rest => match p t with
    | none => none
    | some (v, sc) => match parseEntries t rest with
      | none => none
      | some (r, sc') => some ((k, v) :: r, sc.and sc')

/-- Validate each item of a list against one type. Annotations `list[T]` in models/*.py. -/
def parseItems (t : Ty Cls) : List Parser → Option (List V × Score)
  | [] => some ([], .exactly)
  | p :: rest => match p t with
    | none => none
    | some (v, sc) => match parseItems t rest with
      | none => none
      | some (r, sc') => some (v :: r, sc.and sc')

/-- Scalars against `str`, `int`, `bool`. Annotations `str` in models/*.py. -/
def parseStr : V → Res
  | .str s => some (.str s, .exactly)
  | _ => none
/-- Lax mode: a `bool`, an integral float and a numeral are integers too. Annotations `int` in models/*.py. -/
def parseInt (E : Env) : V → Res
  | .int i => some (.int i, .exactly)
  | .bool b => some (.int (if b then 1 else 0), ⟨0, none⟩)
  | .float x => (E.floatToInt x).map fun i => (.int i, ⟨0, none⟩)
  | .str s => (E.strToInt s).map fun i => (.int i, ⟨0, none⟩)
  | _ => none
/-- Lax mode: 0, 1 and some strings are booleans too. Annotations `bool` in models/*.py. -/
def parseBool (E : Env) : V → Res
  | .bool b => some (.bool b, .exactly)
  | .int i => if i = 0 then some (.bool false, ⟨0, none⟩) else if i = 1 then some (.bool true, ⟨0, none⟩) else none
  | .float x => (E.floatToBool x).map fun i => (.bool i, ⟨0, none⟩)
  | .str s => (E.strToBool s).map fun i => (.bool i, ⟨0, none⟩)
  | _ => none
/-- `AnyUrl`, `HttpUrl` (a subclass of the former).
models/info.py:24,52,87, models/base.py:154, models/asyncapi.py:83, models/security.py:71-97,290. -/
def parseUrl (E : Env) (k : UrlKind) : V → Res
  | .str s => (E.url k s).map fun u => (.url k u, ⟨0, none⟩)
  | .url k' s =>
    if k = .any ∨ k = k' then some (.url k' s, .exactly)
    else (E.url k s).map fun u => (.url k u, ⟨0, none⟩)
  | _ => none
/-- `helpers.EmailStr`, models/helpers.py:63-74. -/
def parseEmail : V → Res
  | .str s => if Patterns.validateEmail s then some (.str s, .exactly) else none
  | _ => none
/-- `Literal[...]`. E.g. models/operation.py:181, models/security.py:205. -/
def parseLit (vs : List Lit) : V → Res
  | .str s => if vs.contains (.s s) then some (.str s, .exactly) else none
  | .int i => if vs.contains (.i i) then some (.int i, .exactly) else none
  | _ => none
/-- `type[ProcessorProtocol]`. models/asyncapi.py:134-155, protocols.py:13-28. -/
def parseProc : V → Res
  | .proc n => some (.proc n, .exactly)
  | _ => none

/-- Validation against a model class.
`revalidate_instances="always"`: models/base_models.py:26-33,64-71,82-88; pydantic as locked in uv.lock:300-301. -/
def parseModel (E : Env) (c : Cls) : Shape → (Ty Cls → Res) → Res
  | .inst c' fs ex set, _ =>
    if c' = c then
      match (classDef c).kind, (classDef c).fields with
      | .patterned, [f] => match lookup f.name fs with
        | some (_, p) => constructRoot E c (p f.ty) (some set) 2
        | none => none
      | .patterned, _ => none
      | _, _ => construct E c (update fs ex) (some set) 2
    else none
  | .dict d, root =>
    match (classDef c).kind, (classDef c).fields with
    | .patterned, [f] => constructRoot E c (root f.ty) none E.built
    | .patterned, _ => none
    | _, _ => construct E c d none E.built
  | _, _ => none

/-- `dict[str, t]` on the entries. E.g. models/security.py:98-106. -/
def parseDict (t : Ty Cls) : Shape → Res
  | .dict d => (parseEntries t d).map fun r => (.dict r.1, r.2)
  | _ => none

/-- The type `dict[str, t]` of the `root` of a patterned class, on the shape of the input.
models/base_models.py:74-88. -/
def parseRootTy (s : Shape) : Ty Cls → Res
  | .dict t => parseDict t s
  | _ => none

mutual
/-- Validation of a value of known shape against a type. A union containing `None` takes `None`
first (pydantic's nullable schema). Annotations in models/*.py; uv.lock:300-301. -/
def parseAs (E : Env) (v : V) (s : Shape) : Ty Cls → Res
  | .any => some (v, ⟨1, none⟩)
  | .none => if v.isNone then some (.none, .exactly) else none
  | .str => parseStr v
  | .int => parseInt E v
  | .bool => parseBool E v
  | .anyUrl => parseUrl E .any v
  | .httpUrl => parseUrl E .http v
  | .email => parseEmail v
  | .processors => parseProc v
  | .lit vs => parseLit vs v
  | .list t => match s with
    | .list l => (parseItems t l).map fun r => (.list r.1, r.2)
    | _ => none
  | .dict t => parseDict t s
  | .model c => parseModel E c s (parseRootTy s)
  | .union ts => if v.isNone && hasNone ts then some (.none, .exactly) else pick E none (parseEach E v s ts)
/-- Each member of an annotation `A | B` in models/*.py. -/
def parseEach (E : Env) (v : V) (s : Shape) : List (Ty Cls) → List Res
  | [] => []
  | t :: ts => parseAs E v s t :: parseEach E v s ts
/-- Is `None` a member? Annotations `T | None` in models/*.py. -/
def hasNone : List (Ty Cls) → Bool
  | [] => false
  | .none :: _ => true
  | _ :: ts => hasNone ts
end

mutual
/-- Validation of a value against a type, `TypeAdapter(t).validate_python(v)`.
Annotations in models/*.py; uv.lock:300-301. -/
def parse (E : Env) : V → Parser
  | .list l => parseAs E (.list l) (.list (parsers E l))
  | .dict d => parseAs E (.dict d) (.dict (entries E d))
  | .inst c fs ex set => parseAs E (.inst c fs ex set) (.inst c (entries E fs) (entries E ex) set)
  | .none => parseAs E .none .scalar
  | .bool b => parseAs E (.bool b) .scalar
  | .int i => parseAs E (.int i) .scalar
  | .float x => parseAs E (.float x) .scalar
  | .str s => parseAs E (.str s) .scalar
  | .url k s => parseAs E (.url k s) .scalar
  | .proc n => parseAs E (.proc n) .scalar
/-- The items of a list; annotations `list[T]` in models/*.py. -/
def parsers (E : Env) : List V → List Parser
  | [] => []
  | v :: l => parse E v :: parsers E l
/-- The entries of a dict or instance; models/*.py. -/
def entries (E : Env) : List (Str × V) → List (Str × V × Parser)
  | [] => []
  | (k, v) :: d => (k, v, parse E v) :: entries E d
end

/-- `c.model_validate(v)`.
`model_validate`, or the constructor with keyword arguments, of the classes of models/*.py. -/
def validate (E : Env) (c : Cls) (v : V) : Option V := (parse E v (.model c)).map (·.1)

/-! ### Serialization -/

/-- The declared field of that name. Declarations in models/*.py. -/
def fieldOf (c : Cls) (name : Str) : Option (FieldDef Cls) := (classDef c).fields.find? (·.name == name)

mutual
/-- `model_dump(mode="json")`, on values: fields in order under their aliases, without `exclude`d ones
and without nulls of fields with `exclude_if=is_null`, then the extra fields.
`serialize_by_alias`, models/base_models.py:30,68,85; `exclude_if=is_null`, models/helpers.py:11-16. -/
def dump : V → V
  | .url _ s => .str s
  | .list l => .list (dumpList l)
  | .dict d => .dict (dumpDict d)
  | .inst c fs ex _ => match (classDef c).kind with
    | .patterned => (lookup p!"root" (dumpDict fs)).getD .none
    | _ => .dict (dumpFields c fs ++ dumpDict ex)
  | .none => .none
  | .bool b => .bool b
  | .int i => .int i
  | .float x => .float x
  | .str s => .str s
  | .proc n => .proc n
/-- Items of a list; see `dump`, models/base_models.py:30,68,85. -/
def dumpList : List V → List V
  | [] => []
  | v :: l => dump v :: dumpList l
/-- Entries of a dict; see `dump`, models/base_models.py:30,68,85. -/
def dumpDict : List (Str × V) → List (Str × V)
  | [] => []
  | (k, v) :: d => (k, dump v) :: dumpDict d
/-- Declared fields; see `dump`, models/base_models.py:30,68,85, models/helpers.py:11-16. -/
def dumpFields (c : Cls) : List (Str × V) → List (Str × V)
  | [] => []
  | (k, v) :: d => match fieldOf c k with
    | none => dumpFields c d
    | some f =>
      if f.exclude then dumpFields c d
      else if f.excludeNull && v.isNone then dumpFields c d
      else (f.alias.getD f.name, dump v) :: dumpFields c d
end

end Verif.Pyd
