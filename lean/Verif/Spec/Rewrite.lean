import Verif.Spec.Conform
/-!
# What reading and writing does to JSON

`Rewritten R j w t`: `j`, read as type `t` of the grammar and written again, is `w`. Nothing here refers to `Verif/Model` or to
the class table.
-/
namespace Verif.Spec
open Verif Verif.Gen

/-- The version of a binding that is written if none was read. -/
def bindingVersions : List (List Cls × Str) := [
  ([.AMQPChannelBindings, .AMQPOperationBindings, .AMQPMessageBindings], p!"0.3.0"),
  ([.AnypointMQChannelBindings, .AnypointMQMessageBindings], p!"0.1.0"),
  ([.GooglePubSubChannelBindings, .GooglePubSubMessageBindings], p!"0.2.0"),
  ([.HTTPOperationBindings, .HTTPMessageBindings], p!"0.3.0"),
  ([.IBMMQServerBindings, .IBMMQChannelBindings, .IBMMQMessageBindings], p!"0.1.0"),
  ([.JMSServerBindings, .JMSChannelBindings, .JMSMessageBindings], p!"0.0.1"),
  ([.KafkaServerBindings, .KafkaChannelBindings, .KafkaOperationBindings, .KafkaMessageBindings], p!"0.5.0"),
  ([.MQTTServerBindings, .MQTTOperationBindings, .MQTTMessageBindings, .MQTT5ServerBindings], p!"0.2.0"),
  ([.NATSOperationBindings], p!"0.1.0"),
  ([.PulsarServerBindings, .PulsarChannelBindings], p!"0.1.0"),
  ([.SNSChannelBindings, .SNSOperationBindings], p!"1.0.0"),
  ([.SolaceServerBindings, .SolaceOperationBindings, .SolaceDestination], p!"0.4.0"),
  ([.SQSChannelBindings, .SQSOperationBindings], p!"0.3.0"),
  ([.WebSocketsChannelBindings], p!"0.1.0")]

/-- The other fields that are written although they were not read: object, field, value. (For `schemaFormat`, the text of
the specification would fill in `application/vnd.aai.asyncapi+json;version=3.0.0`.) -/
def otherDefaults : List (Cls × Str × V) := [
  (.AsyncAPI3, p!"asyncapi", .str p!"3.0.0"),
  (.Channel, p!"address", .none),
  (.MultiFormatSchema, p!"schemaFormat", .str p!"application/vnd.aai.asyncapi;version=3.0.0"),
  (.AnypointMQChannelBindings, p!"destinationType", .str p!"queue"),
  (.IBMMQQueue, p!"isPartitioned", .bool false),
  (.IBMMQQueue, p!"exclusive", .bool false),
  (.IBMMQTopic, p!"durablePermitted", .bool true),
  (.IBMMQTopic, p!"lastMsgRetained", .bool false),
  (.IBMMQChannelBindings, p!"destinationType", .str p!"topic"),
  (.IBMMQMessageBindings, p!"type", .str p!"string"),
  (.PulsarServerBindings, p!"tenant", .str p!"public"),
  (.PulsarRetention, p!"time", .int 0),
  (.PulsarRetention, p!"size", .int 0),
  (.SNSOrdering, p!"contentBasedDeduplication", .bool false),
  (.SolaceDestination, p!"deliveryMode", .str p!"persistent")]

/-- What is written for a field that was not read, if anything. -/
def filledIn (c : Cls) (k : Str) : Option V :=
  match otherDefaults.find? fun e => e.1 == c && e.2.1 == k with
  | some e => some e.2.2
  | none => if k = p!"bindingVersion" then (bindingVersions.find? fun e => e.1.contains c).map fun e => .str e.2 else none

/-- Fields whose null is written: a channel without address, a schema that is null. -/
def keepsNull : List (Cls × Str) := [(.Channel, p!"address"), (.MultiFormatSchema, p!"schema")]

/-- How scalars are read, and which names besides the JSON name stand for a field. -/
structure Reader where
  U : Uni
  /-- The normal form of a URL. -/
  url : UrlKind → Str → Str → Prop
  /-- Other values that are read as an integer. -/
  toInt : V → Int → Prop
  /-- Other values that are read as a boolean. -/
  toBool : V → Bool → Prop
  /-- The Python name of a field. -/
  attr : Cls → Str → Str
  /-- Whether a document may give lists of processors. -/
  processors : Prop

/-- The value that object `d` gives for field `k`: under its JSON name, else under its Python name. -/
def valueFor (R : Reader) (c : Cls) (d : List (Str × V)) (k : Str) : Option V :=
  match lookup k d with
  | some x => some x
  | none => lookup (R.attr c k) d

/-- The key stands for a field that is not given under its JSON name, or for a list of processors. -/
def Taken (R : Reader) (c : Cls) (rs : List Row) (d : List (Str × V)) (k : Str) : Prop :=
  (∃ r ∈ rs, k = R.attr c r.name ∧ lookup r.name d = none) ∨
  (R.processors ∧ c = .AsyncAPI3 ∧ (k = p!"extra_converters" ∨ k = p!"extra_validators"))

/-- A key that an object may have: a fixed field under one of its names, or whatever else is allowed there. -/
def KeyFor (R : Reader) (c : Cls) (rs : List Row) (k : Str) : Prop :=
  (∃ r ∈ rs, k = r.name ∨ k = R.attr c r.name) ∨ c ∈ anyFields ∨ (c ∈ extensible ∧ OrNewline (ExtensionForm R.U) k) ∨
  (R.processors ∧ c = .AsyncAPI3 ∧ (k = p!"extra_converters" ∨ k = p!"extra_validators"))

/-- `j`, read as `t` and written, is `w`. -/
inductive Rewritten (R : Reader) : V → V → STy → Prop
  | any {v} : Rewritten R v v .any
  | null : Rewritten R .none .none .null
  | string {s} : Rewritten R (.str s) (.str s) .string
  | integer {n} : Rewritten R (.int n) (.int n) .integer
  | asInteger {v n} : R.toInt v n → Rewritten R v (.int n) .integer
  | boolean {b} : Rewritten R (.bool b) (.bool b) .boolean
  | asBoolean {v b} : R.toBool v b → Rewritten R v (.bool b) .boolean
  | email {s} : Rewritten R (.str s) (.str s) .email
  | url {k s u} : R.url k s u → Rewritten R (.str s) (.str u) (.url k)
  | enum {v vs} : Rewritten R v v (.enum vs)
  | list {l : List (V × V)} {t} : (∀ p ∈ l, Rewritten R p.1 p.2 t) →
      Rewritten R (.list (l.map (·.1))) (.list (l.map (·.2))) (.list t)
  | map {l : List (Str × V × V)} {t} : (∀ p ∈ l, Rewritten R p.2.1 p.2.2 t) →
      Rewritten R (.dict (l.map fun p => (p.1, p.2.1))) (.dict (l.map fun p => (p.1, p.2.2))) (.map t)
  | keyed {l : List (Str × V × V)} {t} : (∀ p ∈ l, Rewritten R p.2.1 p.2.2 t) →
      Rewritten R (.dict (l.map fun p => (p.1, p.2.1))) (.dict (l.map fun p => (p.1, p.2.2))) (.keyed t)
  /-- As one of several types. -/
  | either {v w t ts} : t ∈ ts → Rewritten R v w t → Rewritten R v w (.either ts)
  /-- An object. A fixed field that was given, and not as null, is written under its JSON name, rewritten; one given as
  null is left out (but for the two of `keepsNull`); one not given is left out or filled in. All else stays as it is. It has
  only keys that it may have, and required fields are given or filled in. -/
  | object {c rs d d'} : (c, rs) ∈ grammar →
      (∀ e ∈ d, KeyFor R c rs e.1) →
      (∀ r ∈ rs, r.required = true → valueFor R c d r.name ≠ none ∨ filledIn c r.name ≠ none) →
      (∀ r ∈ rs, ∀ x w, valueFor R c d r.name = some x → lookup r.name d' = some w → Rewritten R x w r.ty) →
      (∀ r ∈ rs, ∀ x, valueFor R c d r.name = some x →
        ((∃ w, lookup r.name d' = some w) ↔ x ≠ .none ∨ (c, r.name) ∈ keepsNull)) →
      (∀ r ∈ rs, valueFor R c d r.name = none → lookup r.name d' = filledIn c r.name) →
      (∀ k, (∀ r ∈ rs, k ≠ r.name) → Taken R c rs d k → lookup k d' = none) →
      (∀ k, (∀ r ∈ rs, k ≠ r.name) → ¬ Taken R c rs d k → lookup k d' = lookup k d) →
      Rewritten R (.dict d) (.dict d') (.object c)

/-! ### Without conversions -/

/-- Fields under their JSON names only, integers and booleans only as such. -/
def exactReader (U : Uni) (url : UrlKind → Str → Str → Prop) : Reader where
  U := U
  url := url
  toInt _ _ := False
  toBool _ _ := False
  attr _ k := k
  processors := False

/-- Keys with which a schema can be taken for something else: for a Reference (`ref`), for a schema of the other kind, or for
a fixed field by its Python name. -/
def ambiguousKeys : List (Cls × List Str) := [
  (.Schema, [p!"ref", p!"schema"]),
  (.MultiFormatSchema, [p!"discriminator", p!"deprecated", p!"externalDocs", p!"external_docs"])]

/-- The object may not have the key. -/
def ambiguousNames (c : Cls) (k : Str) : Prop := pythonNames c k ∨ ∃ l, (c, l) ∈ ambiguousKeys ∧ k ∈ l

/-- All of `j` is in `w`, and what else is in `w` was filled in: an object of `w` has each field of that of `j` that is not
null; strings may be URLs that were brought to normal form. -/
inductive Retained (url : Str → Str → Prop) : V → V → Prop
  | same {v} : Retained url v v
  | url {s u} : url s u → Retained url (.str s) (.str u)
  | list {l : List (V × V)} : (∀ p ∈ l, Retained url p.1 p.2) → Retained url (.list (l.map (·.1))) (.list (l.map (·.2)))
  | object {d d' : List (Str × V)} :
      (∀ k x, lookup k d = some x → x ≠ .none → ∃ w, lookup k d' = some w) →
      (∀ k x w, lookup k d = some x → lookup k d' = some w → Retained url x w) →
      (∀ k w, lookup k d = none → lookup k d' = some w → ∃ c, filledIn c k = some w) → Retained url (.dict d) (.dict d')

end Verif.Spec
