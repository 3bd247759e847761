import Verif.Py.Report
import Verif.Spec.Messages
/-!
# Specification of what a `ValidationError` lists

Given which values the types accept, and as what (`accept`): where the entries of the error are, and why, and what the
messages of the package's validators among them say. Nothing here refers to `Verif/Model`.
-/
namespace Verif.Spec
open Verif Verif.Gen

/-- `v` can be read as an object of class `c`: a dict, or an instance of `c`. -/
def ObjectLike (c : Cls) (v : V) : Prop := (∃ d, v = .dict d) ∨ ∃ fs ex set, v = .inst c fs ex set

/-- Read as an object of class `c`, `v` has `x` under `k`. -/
def HasKey (c : Cls) (v : V) (k : Str) (x : V) : Prop :=
  (∃ d, v = .dict d ∧ lookup k d = some x) ∨
  ∃ fs ex set, v = .inst c fs ex set ∧ (lookup k ex = some x ∨ (lookup k ex = none ∧ lookup k fs = some x))

/-- `v` gives field `f` as `x`, under key `k`: the alias if there, else the Python name. -/
def GivenIn (c : Cls) (v : V) (f : FieldDef Cls) (k : Str) (x : V) : Prop :=
  HasKey c v k x ∧ (f.alias = some k ∨ (k = f.name ∧ ∀ a y, f.alias = some a → ¬ HasKey c v a y))

/-- The members of a union apart from `None`. -/
def others (ts : List (Ty Cls)) : List (Ty Cls) :=
  ts.filter fun t => match t with
    | .none => false
    | _ => true

/-- To validate `v` against `t`, `v'` is validated against `t'`, and entries about it have `pre` before their location.
Labels are only used when there is a choice. -/
inductive Portion : V → Ty Cls → List Step → V → Ty Cls → Prop
  | item {l n x t} : l[n]? = some x → Portion (.list l) (.list t) [.index n] x t
  | entry {d k x t} : (k, x) ∈ d → Portion (.dict d) (.dict t) [.key k] x t
  | field {c v f k x} : (classDef c).kind ≠ .patterned → f ∈ (classDef c).fields → GivenIn c v f k x →
      Portion v (.model c) [.key k] x f.ty
  | root {c d f} : (classDef c).kind = .patterned → f ∈ (classDef c).fields →
      Portion (.dict d) (.model c) [] (.dict d) f.ty
  | rootOf {c fs ex set f x} : (classDef c).kind = .patterned → f ∈ (classDef c).fields →
      lookup f.name fs = some x → Portion (.inst c fs ex set) (.model c) [] x f.ty
  | only {v ts t} : others ts = [t] → Portion v (.union ts) [] v t
  | one {v ts t} : 2 ≤ (others ts).length → t ∈ others ts → Portion v (.union ts) [.member t] v t

/-- The validators of single fields, and what they ask for. `version` is what a version string has to be. -/
structure FieldRule (version : Str → Prop) (c : Cls) (name : Str) (v : V) : Prop where
  asyncapi : c = .AsyncAPI3 → name = p!"asyncapi" → ∃ s, v = .str s ∧ version s
  correlation : c = .CorrelationID → name = p!"location" → ∃ rest, v = .str (p!"$message." ++ rest)
  expiration : c = .AMQPOperationBindings → name = p!"expiration" → IfInt v (0 ≤ ·)
  priority : c = .SolaceOperationBindings → name = p!"priority" → IfInt v fun n => 0 ≤ n ∧ n ≤ 255
  heartBeat : c = .IBMMQServerBindings → name = p!"heart_beat_interval" → IfInt v fun n => 0 ≤ n ∧ n ≤ 999999
  msgLength : c = .IBMMQChannelBindings → name = p!"max_msg_length" → IfInt v fun n => 0 ≤ n ∧ n ≤ 104857600
  expiry : c = .IBMMQMessageBindings → name = p!"expiry" → IfInt v (0 ≤ ·)
  kafka : c = .KafkaChannelBindings → name = p!"partitions" ∨ name = p!"replicas" → IfInt v (1 ≤ ·)

/-- The text of an entry: that of the message there is, if there is one. -/
def Tells (says : Str → Prop) : Option Str → Prop
  | some text => says text
  | none => ∀ text, ¬ says text

/-- Entries that are about `v` as a `t`, and not about a part of it: a required field that is missing (named by its
alias if it has one), a key that a closed class does not have, a field whose value has the right type
but is too long or refused by the validator of the field. -/
inductive Own (accept : V → Ty Cls → V → Prop) (U : Uni) (limit : Option Nat) : V → Ty Cls → List Step → Why → Prop
  | missing {c v f} : (classDef c).kind ≠ .patterned → ObjectLike c v → f ∈ (classDef c).fields →
      f.dflt = .required → (∀ k x, ¬ GivenIn c v f k x) →
      Own accept U limit v (.model c) [.key (f.alias.getD f.name)] .missing
  | unexpected {c v k x} : (classDef c).kind = .nonExtendable → HasKey c v k x →
      (∀ f ∈ (classDef c).fields, ∀ y, ¬ GivenIn c v f k y) → Own accept U limit v (.model c) [.key k] .unexpected
  | tooLong {c v f k x s m} : (classDef c).kind ≠ .patterned → f ∈ (classDef c).fields → GivenIn c v f k x →
      accept x f.ty (.str s) → f.maxLen = some m → m < s.length → Own accept U limit v (.model c) [.key k] (.wrong none)
  | refused {c v f k x y text} : (classDef c).kind ≠ .patterned → f ∈ (classDef c).fields → GivenIn c v f k x →
      accept x f.ty y → (∀ m s, f.maxLen = some m → y = .str s → s.length ≤ m) →
      ¬ FieldRule (VersionOk U limit) c f.name y → Tells (FieldSays U limit c f.name y) text →
      Own accept U limit v (.model c) [.key k] (.wrong text)

/-- `v` gives the object `i` of class `c`, each field on its own being right. -/
inductive Assembled (accept : V → Ty Cls → V → Prop) (c : Cls) : V → V → Prop
  | dict {d i} : (classDef c).kind ≠ .patterned → Fieldwise accept c d i → Assembled accept c (.dict d) i
  | inst {fs ex set i} : (classDef c).kind ≠ .patterned →
      Fieldwise accept c (fs.map (fun e => (e.1, (lookup e.1 ex).getD e.2)) ++ ex.filter fun e => (lookup e.1 fs).isNone) i →
      Assembled accept c (.inst c fs ex set) i
  | root {v v' t' y set} : (classDef c).kind = .patterned → Portion v (.model c) [] v' t' → accept v' t' y →
      Assembled accept c v (.inst c [(p!"root", y)] [] set)

/-- The message about `v` as a `t`, and not about a part of it. -/
inductive WholeSays (accept : V → Ty Cls → V → Prop) (U : Uni) : V → Ty Cls → Str → Prop
  | email {s} : WholeSays accept U (.str s) .email p!"Invalid email format"
  | object {c v i text} : Assembled accept c v i → ObjectSays U c i text → WholeSays accept U v (.model c) text

/-- The error of validating `v` against `t` has an entry at `loc`. Every part that is wrong is reported
on, and so is what is missing or not allowed. Only a value all of whose parts are right is itself reported as wrong. -/
inductive Faulty (accept : V → Ty Cls → V → Prop) (U : Uni) (limit : Option Nat) : V → Ty Cls → List Step → Why → Prop
  | deeper {v t pre v' t' loc why} : (∀ y, ¬ accept v t y) → Portion v t pre v' t' → Faulty accept U limit v' t' loc why →
      Faulty accept U limit v t (pre ++ loc) why
  | own {v t loc why} : Own accept U limit v t loc why → Faulty accept U limit v t loc why
  | whole {v t text} : (∀ y, ¬ accept v t y) → (∀ pre v' t', Portion v t pre v' t' → ∃ y, accept v' t' y) →
      (∀ loc why, ¬ Own accept U limit v t loc why) → Tells (WholeSays accept U v t) text →
      Faulty accept U limit v t [] (.wrong text)

/-- Following a location from `v` leads to `w`. A label of a union member leads nowhere else. -/
inductive LeadsTo : V → List Step → V → Prop
  | here {v} : LeadsTo v [] v
  | item {l n x loc w} : l[n]? = some x → LeadsTo x loc w → LeadsTo (.list l) (.index n :: loc) w
  | entry {d k x loc w} : (k, x) ∈ d → LeadsTo x loc w → LeadsTo (.dict d) (.key k :: loc) w
  | field {c fs ex set k x loc w} : (k, x) ∈ fs ∨ (k, x) ∈ ex → LeadsTo x loc w →
      LeadsTo (.inst c fs ex set) (.key k :: loc) w
  | root {c fs ex set k x loc w} : (k, x) ∈ fs → LeadsTo x loc w → LeadsTo (.inst c fs ex set) loc w
  | member {v t loc w} : LeadsTo v loc w → LeadsTo v (.member t :: loc) w

end Verif.Spec
