import Verif.Spec.Dump
/-!
# Names of fields in JSON, and the fields that AsyncAPI 3.0.0 defines

Written from the AsyncAPI 3.0.0 specification and the binding specifications, not from the class table. Nothing here
refers to `Verif/Model`.
-/
namespace Verif.Spec
open Verif Verif.Gen

/-- The parts of a Python name between its underscores. -/
def words : Str → List Str
  | [] => [[]]
  | '_' :: s => [] :: words s
  | x :: s => match words s with
    | w :: ws => (x :: w) :: ws
    | [] => [[x]]

/-- With an upper case first letter. -/
def capital : Str → Str
  | [] => []
  | x :: s => x.toUpper :: s

/-- Lower camel case: `default_content_type` is `defaultContentType`, `in_` is `in`. -/
def camelCase (s : Str) : Str := match words s with
  | w :: ws => w ++ (ws.map capital).flatten
  | [] => []

/-- Fields named in JSON in another way: class, Python name, JSON name. -/
def specialNames : List (Cls × Str × Str) := [
  (.Reference, p!"ref", p!"$ref"),
  (.JMSServerBindings, p!"client_id", p!"clientID"),
  (.KafkaTopicConfiguration, p!"cleanup_policy", p!"cleanup.policy"),
  (.KafkaTopicConfiguration, p!"retention_ms", p!"retention.ms"),
  (.KafkaTopicConfiguration, p!"retention_bytes", p!"retention.bytes"),
  (.KafkaTopicConfiguration, p!"delete_retention_ms", p!"delete.retention.ms"),
  (.KafkaTopicConfiguration, p!"max_message_bytes", p!"max.message.bytes"),
  (.KafkaTopicConfiguration, p!"confluent_key_schema_validation", p!"confluent.key.schema.validation"),
  (.KafkaTopicConfiguration, p!"confluent_key_subject_name_strategy", p!"confluent.key.subject.name.strategy"),
  (.KafkaTopicConfiguration, p!"confluent_value_schema_validation", p!"confluent.value.schema.validation"),
  (.KafkaTopicConfiguration, p!"confluent_value_subject_name_strategy", p!"confluent.value.subject.name.strategy"),
  (.PulsarChannelBindings, p!"geo_replication", p!"geo-replication"),
  (.SQSPolicy, p!"statements", p!"Statements"),
  (.AsyncAPI3, p!"extra_converters", p!"extra_converters"),
  (.AsyncAPI3, p!"extra_validators", p!"extra_validators")]

/-- The JSON name of the attribute `name` of class `c`. -/
def JsonName (c : Cls) (name json : Str) : Prop :=
  (c, name, json) ∈ specialNames ∨ ((∀ j, (c, name, j) ∉ specialNames) ∧ json = camelCase name)

/-- The protocols that bindings may be given for. -/
def protocols : List (Str × Bool) := [(p!"http", false), (p!"ws", false), (p!"kafka", false), (p!"anypointmq", false), (p!"amqp", false), (p!"amqp1", false),
  (p!"mqtt", false), (p!"mqtt5", false), (p!"nats", false), (p!"jms", false), (p!"sns", false), (p!"solace", false),
  (p!"sqs", false), (p!"stomp", false), (p!"redis", false), (p!"mercure", false), (p!"ibmmq", false),
  (p!"googlepubsub", false), (p!"pulsar", false)]

/-- An object of the specification: its class, and its fixed fields, each with `true` if it is required. -/
def coreObjects : List (Cls × List (Str × Bool)) := [
  (.AsyncAPI3, [(p!"asyncapi", true), (p!"id", false), (p!"info", true), (p!"servers", false), (p!"defaultContentType", false),
    (p!"channels", false), (p!"operations", false), (p!"components", false)]),
  (.Info, [(p!"title", true), (p!"version", true), (p!"description", false), (p!"termsOfService", false), (p!"contact", false),
    (p!"license", false), (p!"tags", false), (p!"externalDocs", false)]),
  (.Contact, [(p!"name", false), (p!"url", false), (p!"email", false)]),
  (.License, [(p!"name", true), (p!"url", false)]),
  (.Server, [(p!"host", true), (p!"protocol", true), (p!"protocolVersion", false), (p!"pathname", false), (p!"description", false),
    (p!"title", false), (p!"summary", false), (p!"variables", false), (p!"security", false), (p!"tags", false),
    (p!"externalDocs", false), (p!"bindings", false)]),
  (.ServerVariable, [(p!"enum", false), (p!"default", false), (p!"description", false), (p!"examples", false)]),
  (.Channel, [(p!"address", false), (p!"messages", false), (p!"title", false), (p!"summary", false), (p!"description", false),
    (p!"servers", false), (p!"parameters", false), (p!"tags", false), (p!"externalDocs", false), (p!"bindings", false)]),
  (.Operation, [(p!"action", true), (p!"channel", true), (p!"title", false), (p!"summary", false), (p!"description", false),
    (p!"security", false), (p!"tags", false), (p!"externalDocs", false), (p!"bindings", false), (p!"traits", false),
    (p!"messages", false), (p!"reply", false)]),
  (.OperationTrait, [(p!"title", false), (p!"summary", false), (p!"description", false), (p!"security", false), (p!"tags", false),
    (p!"externalDocs", false), (p!"bindings", false)]),
  (.OperationReply, [(p!"address", false), (p!"channel", false), (p!"messages", false)]),
  (.OperationReplyAddress, [(p!"description", false), (p!"location", true)]),
  (.Parameter, [(p!"enum", false), (p!"default", false), (p!"description", false), (p!"examples", false), (p!"location", false)]),
  (.Message, [(p!"headers", false), (p!"payload", false), (p!"correlationId", false), (p!"contentType", false), (p!"name", false),
    (p!"title", false), (p!"summary", false), (p!"description", false), (p!"tags", false), (p!"externalDocs", false),
    (p!"bindings", false), (p!"examples", false), (p!"traits", false)]),
  (.MessageTrait, [(p!"headers", false), (p!"correlationId", false), (p!"contentType", false), (p!"name", false), (p!"title", false),
    (p!"summary", false), (p!"description", false), (p!"tags", false), (p!"externalDocs", false), (p!"bindings", false),
    (p!"examples", false)]),
  (.MessageExample, [(p!"headers", false), (p!"payload", false), (p!"name", false), (p!"summary", false)]),
  (.Tag, [(p!"name", true), (p!"description", false), (p!"externalDocs", false)]),
  (.ExternalDocumentation, [(p!"description", false), (p!"url", true)]),
  (.Reference, [(p!"$ref", true)]),
  (.Components, [(p!"schemas", false), (p!"servers", false), (p!"channels", false), (p!"operations", false), (p!"messages", false),
    (p!"securitySchemes", false), (p!"serverVariables", false), (p!"parameters", false), (p!"correlationIds", false),
    (p!"replies", false), (p!"replyAddresses", false), (p!"externalDocs", false), (p!"tags", false),
    (p!"operationTraits", false), (p!"messageTraits", false), (p!"serverBindings", false), (p!"channelBindings", false),
    (p!"operationBindings", false), (p!"messageBindings", false)]),
  (.Schema, [(p!"discriminator", false), (p!"externalDocs", false), (p!"deprecated", false)]),
  (.MultiFormatSchema, [(p!"schemaFormat", true), (p!"schema", true)]),
  (.CorrelationID, [(p!"description", false), (p!"location", true)]),
  (.SecurityScheme, [(p!"type", true), (p!"description", false), (p!"name", false), (p!"in", false), (p!"scheme", false),
    (p!"bearerFormat", false), (p!"flows", false), (p!"openIdConnectUrl", false), (p!"scopes", false)]),
  (.OAuthFlows, [(p!"implicit", false), (p!"password", false), (p!"clientCredentials", false), (p!"authorizationCode", false)]),
  (.OAuthFlow, [(p!"authorizationUrl", false), (p!"tokenUrl", false), (p!"refreshUrl", false), (p!"availableScopes", true)]),
  (.ServerBindingsObject, protocols), (.ChannelBindingsObject, protocols), (.OperationBindingsObject, protocols),
  (.MessageBindingsObject, protocols)]

/-- Fields required by the specification that need not be given, since they have a default. -/
def defaulted (c : Cls) (k : Str) : Prop :=
  (c = .AsyncAPI3 ∧ k = p!"asyncapi") ∨ (c = .MultiFormatSchema ∧ k = p!"schemaFormat")

/-- Attributes of the document that are no part of it: lists of processors. -/
def processorLists : List Str := [p!"extra_converters", p!"extra_validators"]

/-- Objects that may have any fields besides the fixed ones: a schema has the keywords of JSON Schema. -/
def openObjects : List Cls := [.Schema, .MultiFormatSchema]

/-- The object that may have no fields besides the fixed ones. -/
def closedObjects : List Cls := [.Reference]

end Verif.Spec
