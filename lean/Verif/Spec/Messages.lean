import Verif.Spec.Fields
/-!
# Specification of what the messages of the package's validators say

For each class, its messages in the order in which they are considered, each with the situation it is about. Nothing
here refers to `Verif/Model`.
-/
namespace Verif.Spec
open Verif Verif.Gen

/-- A message, and when it is the case. -/
abbrev Message := Str × (V → Prop)

/-- `field` is there, and `needed` is not there in it. -/
def Lacks (field needed : Str) (i : V) : Prop := Present (i.attr field) ∧ ¬ Present ((i.attr field).attr needed)

/-- The messages about objects of a class as a whole. -/
def messages : Cls → List Message
  | .Channel => [
    (p!"parameters must not be provided when address is null or absent",
      fun i => Present (i.attr p!"parameters") ∧ ¬ Present (i.attr p!"address")),
    (p!"parameters must not be provided when address does not contain Channel Address Expressions",
      fun i => Present (i.attr p!"parameters") ∧ ∃ a, i.attr p!"address" = .str a ∧ ¬ HasExpression a)]
  | .MessageExample => [
    (p!"MessageExample MUST contain either headers and/or payload fields",
      fun i => ¬ Present (i.attr p!"headers") ∧ ¬ Present (i.attr p!"payload"))]
  | .OAuthFlows => [
    (p!"authorizationUrl is required for implicit flow", Lacks p!"implicit" p!"authorization_url"),
    (p!"tokenUrl is required for password flow", Lacks p!"password" p!"token_url"),
    (p!"tokenUrl is required for clientCredentials flow", Lacks p!"client_credentials" p!"token_url"),
    (p!"authorizationUrl is required for authorizationCode flow", Lacks p!"authorization_code" p!"authorization_url"),
    (p!"tokenUrl is required for authorizationCode flow", Lacks p!"authorization_code" p!"token_url")]
  | .SecurityScheme => [
    (p!"in is required for apiKey type", fun i => Is (i.attr p!"type_") p!"apiKey" ∧ ¬ Present (i.attr p!"in_")),
    (p!"in must be 'user' or 'password' for apiKey type",
      fun i => Is (i.attr p!"type_") p!"apiKey" ∧ ¬ Is (i.attr p!"in_") p!"user" ∧ ¬ Is (i.attr p!"in_") p!"password"),
    (p!"bearerFormat can only be used with http type and bearer scheme",
      fun i => Present (i.attr p!"bearer_format") ∧ ¬ (Is (i.attr p!"type_") p!"http" ∧ Is (i.attr p!"scheme") p!"bearer")),
    (p!"name is required for httpApiKey type",
      fun i => Is (i.attr p!"type_") p!"httpApiKey" ∧ ¬ Present (i.attr p!"name")),
    (p!"in is required for httpApiKey type",
      fun i => Is (i.attr p!"type_") p!"httpApiKey" ∧ ¬ Present (i.attr p!"in_")),
    (p!"in must be 'query', 'header', or 'cookie' for httpApiKey type",
      fun i => Is (i.attr p!"type_") p!"httpApiKey" ∧ ¬ Is (i.attr p!"in_") p!"query" ∧
        ¬ Is (i.attr p!"in_") p!"header" ∧ ¬ Is (i.attr p!"in_") p!"cookie"),
    (p!"scheme is required for http type", fun i => Is (i.attr p!"type_") p!"http" ∧ ¬ Present (i.attr p!"scheme")),
    (p!"flows is required for oauth2 type", fun i => Is (i.attr p!"type_") p!"oauth2" ∧ ¬ Present (i.attr p!"flows")),
    (p!"openIdConnectUrl is required for openIdConnect type",
      fun i => Is (i.attr p!"type_") p!"openIdConnect" ∧ ¬ Present (i.attr p!"open_id_connect_url")),
    (p!"scopes can only be used with oauth2 or openIdConnect type",
      fun i => Present (i.attr p!"scopes") ∧ ¬ Is (i.attr p!"type_") p!"oauth2" ∧ ¬ Is (i.attr p!"type_") p!"openIdConnect")]
  | .AMQPChannelBindings => [
    (p!"exchange must be provided when is='routingKey'",
      fun i => Is (i.attr p!"is_") p!"routingKey" ∧ ¬ Present (i.attr p!"exchange")),
    (p!"queue must not be provided when is='routingKey'",
      fun i => Is (i.attr p!"is_") p!"routingKey" ∧ Present (i.attr p!"queue")),
    (p!"queue must be provided when is='queue'",
      fun i => Is (i.attr p!"is_") p!"queue" ∧ ¬ Present (i.attr p!"queue")),
    (p!"exchange must not be provided when is='queue'",
      fun i => Is (i.attr p!"is_") p!"queue" ∧ Present (i.attr p!"exchange"))]
  | .SolaceDestination => [
    (p!"queue required for destinationType 'queue'",
      fun i => Is (i.attr p!"destination_type") p!"queue" ∧ ¬ Present (i.attr p!"queue")),
    (p!"topic not allowed for destinationType 'queue'",
      fun i => Is (i.attr p!"destination_type") p!"queue" ∧ Present (i.attr p!"topic")),
    (p!"topic required for destinationType 'topic'",
      fun i => Is (i.attr p!"destination_type") p!"topic" ∧ ¬ Present (i.attr p!"topic")),
    (p!"queue not allowed for destinationType 'topic'",
      fun i => Is (i.attr p!"destination_type") p!"topic" ∧ Present (i.attr p!"queue"))]
  | .IBMMQChannelBindings => [
    (p!"queue and topic fields MUST NOT coexist within a channel binding",
      fun i => Present (i.attr p!"queue") ∧ Present (i.attr p!"topic")),
    (p!"queue must be provided when destinationType='queue'",
      fun i => Is (i.attr p!"destination_type") p!"queue" ∧ ¬ Present (i.attr p!"queue"))]
  | .IBMMQMessageBindings => [
    (p!"headers MUST NOT be specified if type = 'string' or 'jms'",
      fun i => (Is (i.attr p!"type") p!"string" ∨ Is (i.attr p!"type") p!"jms") ∧ Present (i.attr p!"headers"))]
  | .KafkaServerBindings => [
    (p!"schemaRegistryVendor requires schemaRegistryUrl",
      fun i => Present (i.attr p!"schema_registry_vendor") ∧ ¬ Present (i.attr p!"schema_registry_url"))]
  | _ => []

/-- `text` is the first message that is the case. -/
def First (l : List Message) (i : V) (text : Str) : Prop :=
  ∃ before sit rest, l = before ++ (text, sit) :: rest ∧ sit i ∧ ∀ m ∈ before, ¬ m.2 i

/-- `key` is the first of the keys that has not the form. -/
def FirstBad (good : Str → Prop) (keys : List Str) (key : Str) : Prop :=
  ∃ before rest, keys = before ++ key :: rest ∧ ¬ good key ∧ ∀ k ∈ before, good k

/-- A message about the name of a key: extra fields of an extendable class (C21), keys of a patterned one (C20). -/
inductive KeySays (U : Uni) (c : Cls) (i : V) : Str → Prop
  | extension {key} : (classDef c).kind = .extendable →
      FirstBad (OrNewline (ExtensionForm U)) (i.extras.map (·.1)) key →
      KeySays U c i (p!"Field '" ++ key ++ p!"' does not match specification extension pattern. Extensions must start with 'x-' and contain only word characters, digits, dots, hyphens, and underscores.")
  | patterned {key d} : (classDef c).kind = .patterned → i.attr p!"root" = .dict d →
      FirstBad (OrNewline KeyForm) (d.map (·.1)) key →
      KeySays U c i (p!"Field '" ++ key ++ p!"' does not match patterned object key pattern. Keys must contain letters, digits, hyphens, and underscores.")

/-- The message about the object `i` of class `c`: about the names of keys first, and then the first of the rest. -/
def ObjectSays (U : Uni) (c : Cls) (i : V) (text : Str) : Prop :=
  KeySays U c i text ∨ ((∀ text', ¬ KeySays U c i text') ∧ First (messages c) i text)

/-- The message about the value of one field. `int()` may have its own about a version. -/
inductive FieldSays (U : Uni) (limit : Option Nat) : Cls → Str → V → Str → Prop
  | form {s} : (∀ major, ¬ OrNewline (fun s => VersionForm U s major) s) →
      FieldSays U limit .AsyncAPI3 p!"asyncapi" (.str s)
        p!"asyncapi must be in semantic versioning format: major.minor.patch[-suffix]"
  | major {s major} : OrNewline (fun s => VersionForm U s major) s → WithinLimit limit major → numberValue U major ≠ 3 →
      FieldSays U limit .AsyncAPI3 p!"asyncapi" (.str s)
        (p!"asyncapi version " ++ s ++ p!" is not supported. This application only supports AsyncAPI 3.x.x versions")
  | location {v} : (∀ rest, v ≠ .str (p!"$message." ++ rest)) →
      FieldSays U limit .CorrelationID p!"location" v p!"location must be a runtime expression starting with '$message.'"
  | expiration {n} : n < 0 →
      FieldSays U limit .AMQPOperationBindings p!"expiration" (.int n) p!"expiration must be greater than or equal to zero"
  | priority {n} : n < 0 ∨ 255 < n →
      FieldSays U limit .SolaceOperationBindings p!"priority" (.int n) p!"priority must be between 0 and 255"
  | heartBeat {n} : n < 0 ∨ 999999 < n →
      FieldSays U limit .IBMMQServerBindings p!"heart_beat_interval" (.int n) p!"heartBeatInterval MUST be 0-999999"
  | msgLength {n} : n < 0 ∨ 104857600 < n →
      FieldSays U limit .IBMMQChannelBindings p!"max_msg_length" (.int n)
        p!"maxMsgLength MUST be 0-104,857,600 bytes (100 MB)"
  | expiry {n} : n < 0 →
      FieldSays U limit .IBMMQMessageBindings p!"expiry" (.int n)
        p!"expiry value MUST be either zero (unlimited) or greater than zero"
  | partitions {n} : n < 1 →
      FieldSays U limit .KafkaChannelBindings p!"partitions" (.int n) p!"partitions must be positive"
  | replicas {n} : n < 1 →
      FieldSays U limit .KafkaChannelBindings p!"replicas" (.int n) p!"replicas must be positive"

end Verif.Spec
