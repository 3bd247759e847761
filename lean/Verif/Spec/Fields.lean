import Verif.Py.Value
import Verif.Spec.Patterns
/-!
# Specification of the constraints on the fields of model instances

What the AsyncAPI documentation (and the descriptions of the fields) demand of
instances, class by class, beyond the declared types of the fields. Nothing
here refers to `Verif/Model`.
-/
namespace Verif.Spec
open Verif Verif.Gen

/-- `v` is the string `s`. -/
def Is (v : V) (s : Str) : Prop := v = .str s
/-- `v` is not null. -/
def Present (v : V) : Prop := v ≠ .none
/-- `v`, if it is an integer, lies in the set. -/
def IfInt (v : V) (P : Int → Prop) : Prop := ∀ n, v = .int n → P n

/-- An address contains `{`, one or more characters other than `}`, and then `}`. -/
def HasExpression (a : Str) : Prop :=
  ∃ before inside rest, a = before ++ '{' :: (inside ++ '}' :: rest) ∧ inside ≠ [] ∧ '}' ∉ inside

/-- C24 -/
def ChannelRule (i : V) : Prop :=
  Present (i.attr p!"parameters") → ∃ a, i.attr p!"address" = .str a ∧ HasExpression a

/-- C25 -/
def MessageExampleRule (i : V) : Prop := Present (i.attr p!"headers") ∨ Present (i.attr p!"payload")

/-- C26 -/
structure SecuritySchemeRule (i : V) : Prop where
  apiKey : Is (i.attr p!"type_") p!"apiKey" → Is (i.attr p!"in_") p!"user" ∨ Is (i.attr p!"in_") p!"password"
  httpApiKey : Is (i.attr p!"type_") p!"httpApiKey" → Present (i.attr p!"name") ∧
    (Is (i.attr p!"in_") p!"query" ∨ Is (i.attr p!"in_") p!"header" ∨ Is (i.attr p!"in_") p!"cookie")
  http : Is (i.attr p!"type_") p!"http" → Present (i.attr p!"scheme")
  oauth2 : Is (i.attr p!"type_") p!"oauth2" → Present (i.attr p!"flows")
  openIdConnect : Is (i.attr p!"type_") p!"openIdConnect" → Present (i.attr p!"open_id_connect_url")
  bearerFormat : Present (i.attr p!"bearer_format") →
    Is (i.attr p!"type_") p!"http" ∧ Is (i.attr p!"scheme") p!"bearer"
  scopes : Present (i.attr p!"scopes") →
    Is (i.attr p!"type_") p!"oauth2" ∨ Is (i.attr p!"type_") p!"openIdConnect"

/-- C27: each flow that is present has the URLs its kind needs. -/
def OAuthFlowsRule (i : V) : Prop :=
  (∀ flow ∈ [p!"implicit", p!"authorization_code"],
    Present (i.attr flow) → Present ((i.attr flow).attr p!"authorization_url")) ∧
  (∀ flow ∈ [p!"password", p!"client_credentials", p!"authorization_code"],
    Present (i.attr flow) → Present ((i.attr flow).attr p!"token_url"))

/-- C28 -/
def CorrelationIDRule (i : V) : Prop := ∃ rest, i.attr p!"location" = .str (p!"$message." ++ rest)

/-- C29: exactly one of two fields, the one the selector names. -/
def OneOf (i : V) (selector : Str) (cases : List (Str × Str × Str)) : Prop :=
  ∀ value yes no, (value, yes, no) ∈ cases → Is (i.attr selector) value →
    Present (i.attr yes) ∧ ¬ Present (i.attr no)
/-- C29 -/
def AMQPChannelRule (i : V) : Prop :=
  OneOf i p!"is_" [(p!"routingKey", p!"exchange", p!"queue"), (p!"queue", p!"queue", p!"exchange")]
/-- C29 -/
def SolaceDestinationRule (i : V) : Prop :=
  OneOf i p!"destination_type" [(p!"queue", p!"queue", p!"topic"), (p!"topic", p!"topic", p!"queue")]
/-- C29, C30 -/
def IBMMQChannelRule (i : V) : Prop :=
  ¬ (Present (i.attr p!"queue") ∧ Present (i.attr p!"topic")) ∧
  (Is (i.attr p!"destination_type") p!"queue" → Present (i.attr p!"queue")) ∧
  IfInt (i.attr p!"max_msg_length") fun n => 0 ≤ n ∧ n ≤ 104857600

/-- C31, C30 -/
def IBMMQMessageRule (i : V) : Prop :=
  (Present (i.attr p!"headers") → ¬ Is (i.attr p!"type") p!"string" ∧ ¬ Is (i.attr p!"type") p!"jms") ∧
  IfInt (i.attr p!"expiry") (0 ≤ ·)

/-- C31 -/
def KafkaServerRule (i : V) : Prop :=
  Present (i.attr p!"schema_registry_vendor") → Present (i.attr p!"schema_registry_url")

/-- C30 -/
def KafkaChannelRule (i : V) : Prop :=
  IfInt (i.attr p!"partitions") (1 ≤ ·) ∧ IfInt (i.attr p!"replicas") (1 ≤ ·)

/-- All constraints between and on fields, beyond their types. (`AsyncAPI3` is the subject of C23
and C32.) -/
def Rule (c : Cls) (i : V) : Prop :=
  match c with
  | .Channel => ChannelRule i
  | .MessageExample => MessageExampleRule i
  | .SecurityScheme => SecuritySchemeRule i
  | .OAuthFlows => OAuthFlowsRule i
  | .CorrelationID => CorrelationIDRule i
  | .AMQPChannelBindings => AMQPChannelRule i
  | .AMQPOperationBindings => IfInt (i.attr p!"expiration") (0 ≤ ·)
  | .SolaceDestination => SolaceDestinationRule i
  | .SolaceOperationBindings => IfInt (i.attr p!"priority") fun n => 0 ≤ n ∧ n ≤ 255
  | .IBMMQServerBindings => IfInt (i.attr p!"heart_beat_interval") fun n => 0 ≤ n ∧ n ≤ 999999
  | .IBMMQChannelBindings => IBMMQChannelRule i
  | .IBMMQMessageBindings => IBMMQMessageRule i
  | .KafkaServerBindings => KafkaServerRule i
  | .KafkaChannelBindings => KafkaChannelRule i
  | _ => True

/-! ### Fields on their own -/

/-- The input `d` gives field `f` as `x`, under key `k`: the alias if there, else the Python name. -/
def GivenAs (f : FieldDef Cls) (d : List (Str × V)) (k : Str) (x : V) : Prop :=
  lookup k d = some x ∧ (f.alias = some k ∨ (k = f.name ∧ ∀ a, f.alias = some a → lookup a d = none))

/-- The value of a field that is not given. -/
def HasDefault : Dflt → V → Prop
  | .required, _ => False
  | .null, v => v = .none
  | .bool b, v => v = .bool b
  | .str s, v => v = .str s
  | .int n, v => v = .int n

/-- `v` is right for field `f` of an instance made from `d`: what is given, accepted by the declared
type, or else the default; and not too long. -/
def FieldOk (accept : V → Ty Cls → V → Prop) (d : List (Str × V)) (f : FieldDef Cls) (v : V) : Prop :=
  ((∃ k x, GivenAs f d k x ∧ accept x f.ty v) ∨ ((∀ k x, ¬ GivenAs f d k x) ∧ HasDefault f.dflt v)) ∧
  ∀ m s, f.maxLen = some m → v = .str s → s.length ≤ m

open Classical in
/-- `i` is the instance of `c` made from `d`, each field on its own being right: declared fields in
order, the rest of the input as extra fields, and the record of what was given. -/
noncomputable def Fieldwise (accept : V → Ty Cls → V → Prop) (c : Cls) (d : List (Str × V)) (i : V) : Prop :=
  ∃ fs, fs.map (·.1) = (classDef c).fields.map (·.name) ∧
    (∀ f ∈ (classDef c).fields, FieldOk accept d f (i.attr f.name)) ∧
    let ex := d.filter fun e => ∀ f ∈ (classDef c).fields, ∀ x, ¬ GivenAs f d e.1 x
    i = .inst c fs ex
      (((classDef c).fields.filter fun f => ∃ k x, GivenAs f d k x).map (·.name) ++ ex.map (·.1)) ∧
    ((classDef c).kind = .nonExtendable → ex = [])

/-- The names of the extra fields of an extendable class are extension names (C21). -/
def ExtensionRule (U : Uni) (c : Cls) (i : V) : Prop :=
  (classDef c).kind = .extendable → ∀ e ∈ i.extras, OrNewline (ExtensionForm U) e.1

/-! ### Processors -/

/-- The items of an optional list. -/
def Items (v : V) (l : List V) : Prop := (v = .none ∧ l = []) ∨ v = .list l

/-- Running processor classes in order: which were called, on which document, and the document at the
end, or `none` if one failed. A failure ends the run. -/
inductive Runs (call : Nat → V → Option V) : List V → V → List (Nat × V) → Option V → Prop
  | done {doc} : Runs call [] doc [] (some doc)
  | step {n ps doc doc' log r} : call n doc = some doc' → Runs call ps doc' log r →
      Runs call (.proc n :: ps) doc ((n, doc) :: log) r
  | fail {n ps doc} : call n doc = none → Runs call (.proc n :: ps) doc [(n, doc)] none
  | notCallable {p ps doc} : (∀ n, p ≠ .proc n) → Runs call (p :: ps) doc [] none

/-- C32: first the converters of `doc`, then the validators of the document they leave. -/
inductive Processed (call : Nat → V → Option V) (doc : V) : List (Nat × V) → Option V → Prop
  | converterFailed {cs log} : Items (doc.attr p!"extra_converters") cs → Runs call cs doc log none →
      Processed call doc log none
  | ran {cs log mid vs log' r} : Items (doc.attr p!"extra_converters") cs → Runs call cs doc log (some mid) →
      Items (mid.attr p!"extra_validators") vs → Runs call vs mid log' r →
      Processed call doc (log ++ log') r

end Verif.Spec
