import Verif.Spec.Fields
/-!
# JSON that conforms to AsyncAPI 3.0.0

A grammar of AsyncAPI documents, as JSON. The core objects are written from the AsyncAPI 3.0.0 specification; the binding
objects from the binding specifications, with the required fields, lengths and lists of values that the descriptions
of the package state. Nothing here refers to `Verif/Model`, nor to the class table: only the names of classes are used, as
names of objects.
-/
namespace Verif.Spec
open Verif Verif.Gen

/-- Types of JSON values. `keyed` is a map whose keys have the form C20; `either` is one of several. -/
inductive STy where
  | any | null | string | integer | boolean | email
  | url (k : UrlKind)
  | enum (vs : List Lit)
  | object (c : Cls)
  | list (t : STy)
  | map (t : STy)
  | keyed (t : STy)
  | either (ts : List STy)

/-- A fixed field of an object: JSON name, whether it is required, type, maximal length. -/
structure Row where
  name : Str
  required : Bool
  ty : STy
  max : Option Nat := none

/-- A required field. -/
def req (n : Str) (t : STy) : Row := { name := n, required := true, ty := t }
/-- An optional field. -/
def opt (n : Str) (t : STy) : Row := { name := n, required := false, ty := t }
/-- With a maximal length. -/
def Row.upTo (r : Row) (m : Nat) : Row := { r with max := some m }

/-- An object, or a Reference to one. -/
def orRef (c : Cls) : STy := .either [.object c, .object .Reference]
/-- Where any kind of schema may stand. -/
def anySchema : STy := .either [.object .MultiFormatSchema, .object .Schema, .object .Reference]
/-- One of these strings. -/
def oneOf (l : List Str) : STy := .enum (l.map Lit.s)
/-- One of these integers. -/
def oneOfInt (l : List Int) : STy := .enum (l.map Lit.i)
/-- A string or several. -/
def strings : STy := .either [.string, .list .string]
/-- An object without prescribed fields. -/
def freeMap : STy := .map .any

/-! ### Core objects -/

def documentRows : List Row := [req p!"asyncapi" .string, opt p!"id" (.url .any), req p!"info" (.object .Info),
  opt p!"servers" (.keyed (orRef .Server)), opt p!"defaultContentType" .string, opt p!"channels" (.keyed (orRef .Channel)),
  opt p!"operations" (.keyed (orRef .Operation)), opt p!"components" (.object .Components)]

def infoRows : List Row := [req p!"title" .string, req p!"version" .string, opt p!"description" .string,
  opt p!"termsOfService" (.url .http), opt p!"contact" (.object .Contact), opt p!"license" (.object .License),
  opt p!"tags" (.list (orRef .Tag)), opt p!"externalDocs" (orRef .ExternalDocumentation)]

def serverRows : List Row := [req p!"host" .string, req p!"protocol" .string, opt p!"protocolVersion" .string,
  opt p!"pathname" .string, opt p!"description" .string, opt p!"title" .string, opt p!"summary" .string,
  opt p!"variables" (.map (orRef .ServerVariable)), opt p!"security" (.list (orRef .SecurityScheme)),
  opt p!"tags" (.list (orRef .Tag)), opt p!"externalDocs" (orRef .ExternalDocumentation),
  opt p!"bindings" (orRef .ServerBindingsObject)]

def channelRows : List Row := [opt p!"address" (.either [.string, .null]), opt p!"messages" (.keyed (orRef .Message)),
  opt p!"title" .string, opt p!"summary" .string, opt p!"description" .string, opt p!"servers" (.list (.object .Reference)),
  opt p!"parameters" (.keyed (orRef .Parameter)), opt p!"tags" (.list (orRef .Tag)),
  opt p!"externalDocs" (orRef .ExternalDocumentation), opt p!"bindings" (orRef .ChannelBindingsObject)]

/-- Common to operations and operation traits. -/
def operationTraitRows : List Row := [opt p!"title" .string, opt p!"summary" .string, opt p!"description" .string,
  opt p!"security" (.list (orRef .SecurityScheme)), opt p!"tags" (.list (orRef .Tag)),
  opt p!"externalDocs" (orRef .ExternalDocumentation), opt p!"bindings" (orRef .OperationBindingsObject)]

/-- Common to messages and message traits. -/
def messageTraitRows : List Row := [opt p!"headers" anySchema, opt p!"correlationId" (orRef .CorrelationID),
  opt p!"contentType" .string, opt p!"name" .string, opt p!"title" .string, opt p!"summary" .string,
  opt p!"description" .string, opt p!"tags" (.list (orRef .Tag)), opt p!"externalDocs" (orRef .ExternalDocumentation),
  opt p!"bindings" (orRef .MessageBindingsObject), opt p!"examples" (.list (.object .MessageExample))]

def componentsRows : List Row := [opt p!"schemas" (.keyed anySchema), opt p!"servers" (.keyed (orRef .Server)),
  opt p!"channels" (.keyed (orRef .Channel)), opt p!"operations" (.keyed (orRef .Operation)),
  opt p!"messages" (.keyed (orRef .Message)), opt p!"securitySchemes" (.keyed (orRef .SecurityScheme)),
  opt p!"serverVariables" (.keyed (orRef .ServerVariable)), opt p!"parameters" (.keyed (orRef .Parameter)),
  opt p!"correlationIds" (.keyed (orRef .CorrelationID)), opt p!"replies" (.keyed (orRef .OperationReply)),
  opt p!"replyAddresses" (.keyed (orRef .OperationReplyAddress)), opt p!"externalDocs" (.keyed (orRef .ExternalDocumentation)),
  opt p!"tags" (.keyed (orRef .Tag)), opt p!"operationTraits" (.keyed (orRef .OperationTrait)),
  opt p!"messageTraits" (.keyed (orRef .MessageTrait)), opt p!"serverBindings" (.keyed (orRef .ServerBindingsObject)),
  opt p!"channelBindings" (.keyed (orRef .ChannelBindingsObject)),
  opt p!"operationBindings" (.keyed (orRef .OperationBindingsObject)),
  opt p!"messageBindings" (.keyed (orRef .MessageBindingsObject))]

def securitySchemeRows : List Row := [
  req p!"type" (oneOf [p!"userPassword", p!"apiKey", p!"X509", p!"symmetricEncryption", p!"asymmetricEncryption",
    p!"httpApiKey", p!"http", p!"oauth2", p!"openIdConnect", p!"plain", p!"scramSha256", p!"scramSha512", p!"gssapi"]),
  opt p!"description" .string, opt p!"name" .string,
  opt p!"in" (oneOf [p!"user", p!"password", p!"query", p!"header", p!"cookie"]),
  opt p!"scheme" .string, opt p!"bearerFormat" .string, opt p!"flows" (.object .OAuthFlows),
  opt p!"openIdConnectUrl" (.url .any), opt p!"scopes" (.list .string)]

/-- The core objects with their fixed fields. -/
def coreGrammar : List (Cls × List Row) := [
  (.AsyncAPI3, documentRows), (.Info, infoRows),
  (.Contact, [opt p!"name" .string, opt p!"url" (.url .http), opt p!"email" .email]),
  (.License, [req p!"name" .string, opt p!"url" (.url .http)]),
  (.Server, serverRows),
  (.ServerVariable, [opt p!"enum" (.list .string), opt p!"default" .string, opt p!"description" .string,
    opt p!"examples" (.list .string)]),
  (.Channel, channelRows),
  (.Parameter, [opt p!"enum" (.list .string), opt p!"default" .string, opt p!"description" .string,
    opt p!"examples" (.list .string), opt p!"location" .string]),
  (.Operation, operationTraitRows ++ [req p!"action" (oneOf [p!"send", p!"receive"]), req p!"channel" (.object .Reference),
    opt p!"traits" (.list (orRef .OperationTrait)), opt p!"messages" (.list (.object .Reference)),
    opt p!"reply" (orRef .OperationReply)]),
  (.OperationTrait, operationTraitRows),
  (.OperationReply, [opt p!"address" (orRef .OperationReplyAddress), opt p!"channel" (.object .Reference),
    opt p!"messages" (.list (.object .Reference))]),
  (.OperationReplyAddress, [opt p!"description" .string, req p!"location" .string]),
  (.Message, messageTraitRows ++ [opt p!"payload" anySchema, opt p!"traits" (.list (orRef .MessageTrait))]),
  (.MessageTrait, messageTraitRows),
  (.MessageExample, [opt p!"headers" freeMap, opt p!"payload" .any, opt p!"name" .string, opt p!"summary" .string]),
  (.Tag, [req p!"name" .string, opt p!"description" .string, opt p!"externalDocs" (orRef .ExternalDocumentation)]),
  (.ExternalDocumentation, [opt p!"description" .string, req p!"url" (.url .any)]),
  (.Reference, [req p!"$ref" .string]),
  (.Components, componentsRows),
  (.Schema, [opt p!"discriminator" .string, opt p!"externalDocs" (orRef .ExternalDocumentation),
    opt p!"deprecated" .boolean]),
  (.MultiFormatSchema, [req p!"schemaFormat" .string, req p!"schema" .any]),
  (.CorrelationID, [opt p!"description" .string, req p!"location" .string]),
  (.SecurityScheme, securitySchemeRows),
  (.OAuthFlows, [opt p!"implicit" (.object .OAuthFlow), opt p!"password" (.object .OAuthFlow),
    opt p!"clientCredentials" (.object .OAuthFlow), opt p!"authorizationCode" (.object .OAuthFlow)]),
  (.OAuthFlow, [opt p!"authorizationUrl" (.url .any), opt p!"tokenUrl" (.url .any), opt p!"refreshUrl" (.url .any),
    req p!"availableScopes" (.map .string)])]

/-! ### Bindings -/

/-- The bindings of one protocol: server, channel, operation, message. -/
def protocolObjects : List (Str × Cls × Cls × Cls × Cls) := [
  (p!"http", .HTTPServerBindings, .HTTPChannelBindings, .HTTPOperationBindings, .HTTPMessageBindings),
  (p!"ws", .WebSocketsServerBindings, .WebSocketsChannelBindings, .WebSocketsOperationBindings, .WebSocketsMessageBindings),
  (p!"kafka", .KafkaServerBindings, .KafkaChannelBindings, .KafkaOperationBindings, .KafkaMessageBindings),
  (p!"anypointmq", .AnypointMQServerBindings, .AnypointMQChannelBindings, .AnypointMQOperationBindings, .AnypointMQMessageBindings),
  (p!"amqp", .AMQPServerBindings, .AMQPChannelBindings, .AMQPOperationBindings, .AMQPMessageBindings),
  (p!"amqp1", .AMQP1ServerBindings, .AMQP1ChannelBindings, .AMQP1OperationBindings, .AMQP1MessageBindings),
  (p!"mqtt", .MQTTServerBindings, .MQTTChannelBindings, .MQTTOperationBindings, .MQTTMessageBindings),
  (p!"mqtt5", .MQTT5ServerBindings, .MQTT5ChannelBindings, .MQTT5OperationBindings, .MQTT5MessageBindings),
  (p!"nats", .NATSServerBindings, .NATSChannelBindings, .NATSOperationBindings, .NATSMessageBindings),
  (p!"jms", .JMSServerBindings, .JMSChannelBindings, .JMSOperationBindings, .JMSMessageBindings),
  (p!"sns", .SNSServerBindings, .SNSChannelBindings, .SNSOperationBindings, .SNSMessageBindings),
  (p!"solace", .SolaceServerBindings, .SolaceChannelBindings, .SolaceOperationBindings, .SolaceMessageBindings),
  (p!"sqs", .SQSServerBindings, .SQSChannelBindings, .SQSOperationBindings, .SQSMessageBindings),
  (p!"stomp", .STOMPServerBindings, .STOMPChannelBindings, .STOMPOperationBindings, .STOMPMessageBindings),
  (p!"redis", .RedisServerBindings, .RedisChannelBindings, .RedisOperationBindings, .RedisMessageBindings),
  (p!"mercure", .MercureServerBindings, .MercureChannelBindings, .MercureOperationBindings, .MercureMessageBindings),
  (p!"ibmmq", .IBMMQServerBindings, .IBMMQChannelBindings, .IBMMQOperationBindings, .IBMMQMessageBindings),
  (p!"googlepubsub", .GooglePubSubServerBindings, .GooglePubSubChannelBindings, .GooglePubSubOperationBindings,
    .GooglePubSubMessageBindings),
  (p!"pulsar", .PulsarServerBindings, .PulsarChannelBindings, .PulsarOperationBindings, .PulsarMessageBindings)]

/-- The four objects that hold the bindings of all protocols. -/
def bindingMaps : List (Cls × List Row) := [
  (.ServerBindingsObject, protocolObjects.map fun p => opt p.1 (.object p.2.1)),
  (.ChannelBindingsObject, protocolObjects.map fun p => opt p.1 (.object p.2.2.1)),
  (.OperationBindingsObject, protocolObjects.map fun p => opt p.1 (.object p.2.2.2.1)),
  (.MessageBindingsObject, protocolObjects.map fun p => opt p.1 (.object p.2.2.2.2))]

/-- Every binding with fields has a version. -/
def version : Row := opt p!"bindingVersion" .string
/-- A number, or a schema that describes it. -/
def integerOrSchema : STy := .either [.integer, .object .Schema, .object .Reference]

/-- Objects without fixed fields. -/
def emptyObjects : List Cls := [
  .AMQPServerBindings, .AMQP1ServerBindings, .AMQP1ChannelBindings, .AMQP1OperationBindings, .AMQP1MessageBindings,
  .AnypointMQServerBindings, .AnypointMQOperationBindings, .GooglePubSubServerBindings, .GooglePubSubOperationBindings,
  .HTTPServerBindings, .HTTPChannelBindings, .IBMMQOperationBindings, .JMSOperationBindings,
  .MercureServerBindings, .MercureChannelBindings, .MercureOperationBindings, .MercureMessageBindings,
  .MQTTChannelBindings, .MQTT5ChannelBindings, .MQTT5OperationBindings, .MQTT5MessageBindings,
  .NATSServerBindings, .NATSChannelBindings, .NATSMessageBindings, .PulsarOperationBindings, .PulsarMessageBindings,
  .RedisServerBindings, .RedisChannelBindings, .RedisOperationBindings, .RedisMessageBindings,
  .SNSServerBindings, .SNSMessageBindings, .SolaceChannelBindings, .SolaceMessageBindings,
  .SQSServerBindings, .SQSMessageBindings,
  .STOMPServerBindings, .STOMPChannelBindings, .STOMPOperationBindings, .STOMPMessageBindings,
  .WebSocketsServerBindings, .WebSocketsOperationBindings, .WebSocketsMessageBindings]

/-- A statement of an AWS access policy. -/
def statementRows : List Row := [req p!"effect" (oneOf [p!"Allow", p!"Deny"]),
  req p!"principal" (.either [.string, .map strings]), req p!"action" strings,
  opt p!"resource" strings, opt p!"condition" (.either [freeMap, .list freeMap])]

/-- The objects of the bindings with fixed fields. -/
def bindingGrammar : List (Cls × List Row) := [
  (.AMQPChannelBindings, [req p!"is" (oneOf [p!"routingKey", p!"queue"]), opt p!"exchange" (.object .AMQPExchange),
    opt p!"queue" (.object .AMQPQueue), version]),
  (.AMQPExchange, [(req p!"name" .string).upTo 255,
    req p!"type" (oneOf [p!"topic", p!"direct", p!"fanout", p!"default", p!"headers"]),
    opt p!"durable" .boolean, opt p!"autoDelete" .boolean, opt p!"vhost" .string]),
  (.AMQPQueue, [(opt p!"name" .string).upTo 255, opt p!"durable" .boolean, opt p!"exclusive" .boolean,
    opt p!"autoDelete" .boolean, opt p!"vhost" .string]),
  (.AMQPOperationBindings, [opt p!"expiration" .integer, opt p!"userId" .string, opt p!"cc" (.list .string),
    opt p!"priority" .integer, opt p!"deliveryMode" (oneOfInt [1, 2]), opt p!"mandatory" .boolean,
    opt p!"bcc" (.list .string), opt p!"timestamp" .boolean, opt p!"ack" .boolean, version]),
  (.AMQPMessageBindings, [opt p!"contentEncoding" .string, opt p!"messageType" .string, version]),
  (.AnypointMQChannelBindings, [opt p!"destination" .string,
    opt p!"destinationType" (oneOf [p!"exchange", p!"queue", p!"fifo-queue"]), version]),
  (.AnypointMQMessageBindings, [opt p!"headers" (orRef .Schema), version]),
  (.GooglePubSubChannelBindings, [version, opt p!"labels" freeMap, opt p!"messageRetentionDuration" .string,
    opt p!"messageStoragePolicy" (.object .GooglePubSubMessageStoragePolicy),
    opt p!"schemaSettings" (.object .GooglePubSubSchemaSettings)]),
  (.GooglePubSubMessageStoragePolicy, [opt p!"allowedPersistenceRegions" (.list .string)]),
  (.GooglePubSubSchemaSettings, [opt p!"encoding" (oneOf [p!"ENCODING_UNSPECIFIED", p!"JSON", p!"BINARY"]),
    opt p!"firstRevisionId" .string, opt p!"lastRevisionId" .string, opt p!"name" .string]),
  (.GooglePubSubMessageBindings, [version, opt p!"attributes" freeMap, opt p!"orderingKey" .string,
    opt p!"schema" (.object .GooglePubSubSchemaDefinition)]),
  (.GooglePubSubSchemaDefinition, [opt p!"name" .string]),
  (.HTTPOperationBindings, [
    req p!"method" (oneOf [p!"GET", p!"POST", p!"PUT", p!"PATCH", p!"DELETE", p!"HEAD", p!"OPTIONS", p!"CONNECT", p!"TRACE"]),
    opt p!"query" (orRef .Schema), version]),
  (.HTTPMessageBindings, [opt p!"headers" (orRef .Schema), opt p!"statusCode" .integer, version]),
  (.IBMMQServerBindings, [opt p!"groupId" .string, opt p!"ccdtQueueManagerName" .string, opt p!"cipherSpec" .string,
    opt p!"multiEndpointServer" .boolean, opt p!"heartBeatInterval" .integer, version]),
  (.IBMMQChannelBindings, [opt p!"destinationType" (oneOf [p!"topic", p!"queue"]), opt p!"queue" (.object .IBMMQQueue),
    opt p!"topic" (.object .IBMMQTopic), opt p!"maxMsgLength" .integer, version]),
  (.IBMMQQueue, [(req p!"objectName" .string).upTo 48, opt p!"isPartitioned" .boolean, opt p!"exclusive" .boolean]),
  (.IBMMQTopic, [(opt p!"string" .string).upTo 10240, (opt p!"objectName" .string).upTo 48,
    opt p!"durablePermitted" .boolean, opt p!"lastMsgRetained" .boolean]),
  (.IBMMQMessageBindings, [opt p!"type" (oneOf [p!"string", p!"jms", p!"binary"]), opt p!"headers" .string,
    opt p!"description" .string, opt p!"expiry" .integer, version]),
  (.JMSServerBindings, [req p!"jmsConnectionFactory" .string, opt p!"properties" (.list (.object .Schema)),
    opt p!"clientID" .string, version]),
  (.JMSChannelBindings, [opt p!"destination" .string, opt p!"destinationType" (oneOf [p!"queue", p!"fifo-queue"]), version]),
  (.JMSMessageBindings, [opt p!"headers" (orRef .Schema), version]),
  (.KafkaServerBindings, [opt p!"schemaRegistryUrl" .string, opt p!"schemaRegistryVendor" .string, version]),
  (.KafkaChannelBindings, [opt p!"topic" .string, opt p!"partitions" .integer, opt p!"replicas" .integer,
    opt p!"topicConfiguration" (.object .KafkaTopicConfiguration), version]),
  (.KafkaTopicConfiguration, [opt p!"cleanup.policy" (.list (oneOf [p!"delete", p!"compact"])),
    opt p!"retention.ms" .integer, opt p!"retention.bytes" .integer, opt p!"delete.retention.ms" .integer,
    opt p!"max.message.bytes" .integer, opt p!"confluent.key.schema.validation" .boolean,
    opt p!"confluent.key.subject.name.strategy" .string, opt p!"confluent.value.schema.validation" .boolean,
    opt p!"confluent.value.subject.name.strategy" .string]),
  (.KafkaOperationBindings, [opt p!"groupId" (orRef .Schema), opt p!"clientId" (orRef .Schema), version]),
  (.KafkaMessageBindings, [opt p!"key" (.either [.object .Schema, .object .Reference, freeMap]),
    opt p!"schemaIdLocation" .string, opt p!"schemaIdPayloadEncoding" .string, opt p!"schemaLookupStrategy" .string, version]),
  (.MQTTServerBindings, [opt p!"clientId" .string, opt p!"cleanSession" .boolean, opt p!"lastWill" (.object .MQTTLastWill),
    opt p!"keepAlive" .integer, opt p!"sessionExpiryInterval" integerOrSchema, opt p!"maximumPacketSize" integerOrSchema,
    version]),
  (.MQTTLastWill, [req p!"topic" .string, req p!"qos" (oneOfInt [0, 1, 2]), req p!"message" .string,
    req p!"retain" .boolean]),
  (.MQTTOperationBindings, [opt p!"qos" (oneOfInt [0, 1, 2]), opt p!"retain" .boolean,
    opt p!"messageExpiryInterval" integerOrSchema, version]),
  (.MQTTMessageBindings, [opt p!"payloadFormatIndicator" (oneOfInt [0, 1]), opt p!"correlationData" (orRef .Schema),
    opt p!"contentType" .string, opt p!"responseTopic" (.either [.string, .object .Schema, .object .Reference]), version]),
  (.MQTT5ServerBindings, [opt p!"sessionExpiryInterval" integerOrSchema, version]),
  (.NATSOperationBindings, [(opt p!"queue" .string).upTo 255, version]),
  (.PulsarServerBindings, [opt p!"tenant" .string, version]),
  (.PulsarChannelBindings, [req p!"namespace" .string, req p!"persistence" (oneOf [p!"persistent", p!"non-persistent"]),
    opt p!"compaction" .integer, opt p!"geo-replication" (.list .string), opt p!"retention" (.object .PulsarRetention),
    opt p!"ttl" .integer, opt p!"deduplication" .boolean, version]),
  (.PulsarRetention, [opt p!"time" .integer, opt p!"size" .integer]),
  (.SNSChannelBindings, [req p!"name" .string, opt p!"ordering" (.object .SNSOrdering), opt p!"policy" (.object .SNSPolicy),
    opt p!"tags" freeMap, version]),
  (.SNSOrdering, [req p!"type" (oneOf [p!"standard", p!"FIFO"]), opt p!"contentBasedDeduplication" .boolean]),
  (.SNSPolicy, [req p!"statements" (.list (.object .SNSStatement))]),
  (.SNSStatement, statementRows),
  (.SNSOperationBindings, [opt p!"topic" (.object .SNSIdentifier), req p!"consumers" (.list (.object .SNSConsumer)),
    opt p!"deliveryPolicy" (.object .SNSDeliveryPolicy), version]),
  (.SNSIdentifier, [opt p!"url" .string, opt p!"email" .string, opt p!"phone" .string, opt p!"arn" .string,
    opt p!"name" .string]),
  (.SNSConsumer, [req p!"protocol" (oneOf [p!"http", p!"https", p!"email", p!"email-json", p!"sms", p!"sqs",
      p!"application", p!"lambda", p!"firehose"]),
    req p!"endpoint" (.object .SNSIdentifier), opt p!"filterPolicy" freeMap,
    opt p!"filterPolicyScope" (oneOf [p!"MessageAttributes", p!"MessageBody"]), req p!"rawMessageDelivery" .boolean,
    opt p!"redrivePolicy" (.object .SNSRedrivePolicy), opt p!"deliveryPolicy" (.object .SNSDeliveryPolicy),
    opt p!"displayName" .string]),
  (.SNSDeliveryPolicy, [opt p!"minDelayTarget" .integer, opt p!"maxDelayTarget" .integer, opt p!"numRetries" .integer,
    opt p!"numNoDelayRetries" .integer, opt p!"numMinDelayRetries" .integer, opt p!"numMaxDelayRetries" .integer,
    opt p!"backoffFunction" (oneOf [p!"arithmetic", p!"exponential", p!"geometric", p!"linear"]),
    opt p!"maxReceivesPerSecond" .integer]),
  (.SNSRedrivePolicy, [req p!"deadLetterQueue" (.object .SNSIdentifier), opt p!"maxReceiveCount" .integer]),
  (.SolaceServerBindings, [version, opt p!"msgVpn" .string, (opt p!"clientName" .string).upTo 160]),
  (.SolaceOperationBindings, [version, opt p!"destinations" (.list (.object .SolaceDestination)),
    opt p!"timeToLive" integerOrSchema, opt p!"priority" integerOrSchema, opt p!"dmqEligible" .boolean]),
  (.SolaceDestination, [version, req p!"destinationType" (oneOf [p!"queue", p!"topic"]),
    opt p!"deliveryMode" (oneOf [p!"direct", p!"persistent"]), opt p!"queue" (.object .SolaceQueue),
    opt p!"topic" (.object .SolaceTopic)]),
  (.SolaceQueue, [opt p!"name" .string, opt p!"topicSubscriptions" (.list .string),
    opt p!"accessType" (oneOf [p!"exclusive", p!"nonexclusive"]), opt p!"maxMsgSpoolSize" .string, opt p!"maxTtl" .string]),
  (.SolaceTopic, [opt p!"topicSubscriptions" (.list .string)]),
  (.SQSChannelBindings, [req p!"queue" (.object .SQSQueue), opt p!"deadLetterQueue" (.object .SQSQueue), version]),
  (.SQSOperationBindings, [req p!"queues" (.list (.object .SQSQueue)), version]),
  (.SQSQueue, [req p!"name" .string, req p!"fifoQueue" .boolean,
    opt p!"deduplicationScope" (oneOf [p!"messageGroup", p!"queue"]),
    opt p!"fifoThroughputLimit" (oneOf [p!"perQueue", p!"perMessageGroupId"]), opt p!"deliveryDelay" .integer,
    opt p!"visibilityTimeout" .integer, opt p!"receiveMessageWaitTime" .integer, opt p!"messageRetentionPeriod" .integer,
    opt p!"redrivePolicy" (.object .SQSRedrivePolicy), opt p!"policy" (.object .SQSPolicy), opt p!"tags" freeMap]),
  (.SQSRedrivePolicy, [req p!"deadLetterQueue" (.object .SQSIdentifier), opt p!"maxReceiveCount" .integer]),
  (.SQSIdentifier, [opt p!"arn" .string, opt p!"name" .string]),
  (.SQSPolicy, [req p!"Statements" (.list (.object .SQSStatement))]),
  (.SQSStatement, statementRows),
  (.WebSocketsChannelBindings, [opt p!"method" (oneOf [p!"GET", p!"POST"]), opt p!"query" (orRef .Schema),
    opt p!"headers" (orRef .Schema), version])]

/-- All objects. -/
def grammar : List (Cls × List Row) :=
  coreGrammar ++ bindingMaps ++ emptyObjects.map (fun c => (c, [])) ++ bindingGrammar

/-- The classes that are maps with keys of the form C20, and what their entries are. -/
def keyedObjects : List (Cls × STy) := [
  (.Servers, orRef .Server), (.Parameters, orRef .Parameter), (.Channels, orRef .Channel), (.Messages, orRef .Message),
  (.Operations, orRef .Operation), (.Schemas, anySchema), (.SecuritySchemes, orRef .SecurityScheme),
  (.ServerVariables, orRef .ServerVariable), (.CorrelationIDs, orRef .CorrelationID), (.Replies, orRef .OperationReply),
  (.ReplyAddresses, orRef .OperationReplyAddress), (.ExternalDocs, orRef .ExternalDocumentation),
  (.ComponentsTags, orRef .Tag), (.OperationTraits, orRef .OperationTrait), (.MessageTraits, orRef .MessageTrait),
  (.ServerBindings, orRef .ServerBindingsObject), (.ChannelBindings, orRef .ChannelBindingsObject),
  (.OperationBindings, orRef .OperationBindingsObject), (.MessageBindings, orRef .MessageBindingsObject)]

/-- The type that the grammar gives to a class. -/
def TypeOf (c : Cls) (t : STy) : Prop := (∃ rs, (c, rs) ∈ grammar ∧ t = .object c) ∨ ∃ u, (c, u) ∈ keyedObjects ∧ t = .keyed u

/-! ### Rules between fields, in JSON -/

/-- The object has the field, and not as null. -/
def HasField (d : List (Str × V)) (k : Str) : Prop := ∃ x, lookup k d = some x ∧ x ≠ .none
/-- The field is this string. -/
def Says (d : List (Str × V)) (k s : Str) : Prop := lookup k d = some (.str s)
/-- The field, if it is an integer, lies in the set. -/
def Ranges (d : List (Str × V)) (k : Str) (P : Int → Prop) : Prop := ∀ n, lookup k d = some (.int n) → P n

/-- C26, in JSON. -/
structure SecuritySchemeJson (d : List (Str × V)) : Prop where
  apiKey : Says d p!"type" p!"apiKey" → Says d p!"in" p!"user" ∨ Says d p!"in" p!"password"
  httpApiKey : Says d p!"type" p!"httpApiKey" → HasField d p!"name" ∧
    (Says d p!"in" p!"query" ∨ Says d p!"in" p!"header" ∨ Says d p!"in" p!"cookie")
  http : Says d p!"type" p!"http" → HasField d p!"scheme"
  oauth2 : Says d p!"type" p!"oauth2" → HasField d p!"flows"
  openIdConnect : Says d p!"type" p!"openIdConnect" → HasField d p!"openIdConnectUrl"
  bearerFormat : HasField d p!"bearerFormat" → Says d p!"type" p!"http" ∧ Says d p!"scheme" p!"bearer"
  scopes : HasField d p!"scopes" → Says d p!"type" p!"oauth2" ∨ Says d p!"type" p!"openIdConnect"

/-- C27, in JSON. -/
def OAuthFlowsJson (d : List (Str × V)) : Prop :=
  (∀ flow ∈ [p!"implicit", p!"authorizationCode"], ∀ f, lookup flow d = some (.dict f) → HasField f p!"authorizationUrl") ∧
  (∀ flow ∈ [p!"password", p!"clientCredentials", p!"authorizationCode"], ∀ f, lookup flow d = some (.dict f) →
    HasField f p!"tokenUrl")

/-- C29, in JSON. -/
def OneOfJson (d : List (Str × V)) (selector : Str) (cases : List (Str × Str × Str)) : Prop :=
  ∀ value yes no, (value, yes, no) ∈ cases → Says d selector value → HasField d yes ∧ ¬ HasField d no

/-- The constraints between and on the fields of an object, in JSON (C23–C31). A null counts as absent. -/
def JsonRule (U : Uni) (limit : Option Nat) (c : Cls) (d : List (Str × V)) : Prop :=
  match c with
  | .AsyncAPI3 => ∃ s, Says d p!"asyncapi" s ∧ VersionOk U limit s
  | .Channel => HasField d p!"parameters" → ∃ a, Says d p!"address" a ∧ HasExpression a
  | .MessageExample => HasField d p!"headers" ∨ HasField d p!"payload"
  | .SecurityScheme => SecuritySchemeJson d
  | .OAuthFlows => OAuthFlowsJson d
  | .CorrelationID => ∃ rest, Says d p!"location" (p!"$message." ++ rest)
  | .AMQPChannelBindings =>
    OneOfJson d p!"is" [(p!"routingKey", p!"exchange", p!"queue"), (p!"queue", p!"queue", p!"exchange")]
  | .AMQPOperationBindings => Ranges d p!"expiration" (0 ≤ ·)
  | .SolaceDestination =>
    OneOfJson d p!"destinationType" [(p!"queue", p!"queue", p!"topic"), (p!"topic", p!"topic", p!"queue")]
  | .SolaceOperationBindings => Ranges d p!"priority" fun n => 0 ≤ n ∧ n ≤ 255
  | .IBMMQServerBindings => Ranges d p!"heartBeatInterval" fun n => 0 ≤ n ∧ n ≤ 999999
  | .IBMMQChannelBindings => ¬ (HasField d p!"queue" ∧ HasField d p!"topic") ∧
    (Says d p!"destinationType" p!"queue" → HasField d p!"queue") ∧
    Ranges d p!"maxMsgLength" fun n => 0 ≤ n ∧ n ≤ 104857600
  | .IBMMQMessageBindings => (HasField d p!"headers" → Says d p!"type" p!"binary") ∧ Ranges d p!"expiry" (0 ≤ ·)
  | .KafkaServerBindings => HasField d p!"schemaRegistryVendor" → HasField d p!"schemaRegistryUrl"
  | .KafkaChannelBindings => Ranges d p!"partitions" (1 ≤ ·) ∧ Ranges d p!"replicas" (1 ≤ ·)
  | _ => True

/-! ### Conforming values -/

/-- Objects that may have any other fields: JSON Schemas, and the configuration of a Kafka topic. -/
def anyFields : List Cls := [.Schema, .MultiFormatSchema, .KafkaTopicConfiguration]
/-- Objects that may have specification extensions. -/
def extensible : List Cls := [.AsyncAPI3, .Info, .Contact, .License, .Server, .ServerVariable, .Channel, .Parameter, .Operation,
  .OperationTrait, .OperationReply, .OperationReplyAddress, .Message, .MessageTrait, .MessageExample, .Tag,
  .ExternalDocumentation, .Components, .CorrelationID, .SecurityScheme, .OAuthFlows, .OAuthFlow,
  .ServerBindingsObject, .ChannelBindingsObject, .OperationBindingsObject, .MessageBindingsObject]

/-- The names, spelt as Python spells them, that objects with any fields had better not use: they are read as the
fixed fields `externalDocs`, `schemaFormat`, `cleanup.policy`, and so on (C49). -/
def snakeNames : List (Cls × List Str) := [
  (.Schema, [p!"external_docs"]),
  (.MultiFormatSchema, [p!"schema_format"]),
  (.KafkaTopicConfiguration, [p!"cleanup_policy", p!"retention_ms", p!"retention_bytes", p!"delete_retention_ms",
    p!"max_message_bytes", p!"confluent_key_schema_validation", p!"confluent_key_subject_name_strategy",
    p!"confluent_value_schema_validation", p!"confluent_value_subject_name_strategy"])]

/-- The object may not have the key. -/
def pythonNames (c : Cls) (k : Str) : Prop := ∃ l, (c, l) ∈ snakeNames ∧ k ∈ l

/-- What conformance depends on besides the grammar: Unicode tables, the limit of `int()`, which strings are URLs, the names
that objects with any fields may not use, and whether the key of a Kafka message may be any object at all (or only a Schema
or a Reference). -/
structure World where
  U : Uni
  limit : Option Nat
  isUrl : UrlKind → Str → Prop
  reserved : Cls → Str → Prop
  freeKeys : Prop

/-- A key that is not one of the fixed fields. -/
def OtherKey (W : World) (c : Cls) (k : Str) : Prop :=
  (c ∈ anyFields ∧ ¬ W.reserved c k) ∨ (c ∈ extensible ∧ OrNewline (ExtensionForm W.U) k)

/-- A JSON value conforms to a type. -/
inductive Conforms (W : World) : V → STy → Prop
  | any {v} : v.isJson = true → Conforms W v .any
  | null : Conforms W .none .null
  | string {s} : Conforms W (.str s) .string
  | integer {n} : Conforms W (.int n) .integer
  | boolean {b} : Conforms W (.bool b) .boolean
  | email {s} : OrNewline EmailForm s → Conforms W (.str s) .email
  | url {k s} : W.isUrl k s → Conforms W (.str s) (.url k)
  | enumStr {s vs} : Lit.s s ∈ vs → Conforms W (.str s) (.enum vs)
  | enumInt {n vs} : Lit.i n ∈ vs → Conforms W (.int n) (.enum vs)
  | list {l t} : (∀ v ∈ l, Conforms W v t) → Conforms W (.list l) (.list t)
  | map {d t} : (∀ e ∈ d, Conforms W e.2 t) → Conforms W (.dict d) (.map t)
  | keyed {d t} : (∀ e ∈ d, OrNewline KeyForm e.1) → (∀ e ∈ d, Conforms W e.2 t) → Conforms W (.dict d) (.keyed t)
  | either {v t ts} : t ∈ ts → (t = freeMap → STy.object .Schema ∈ ts → W.freeKeys) → Conforms W v t → Conforms W v (.either ts)
  /-- An object: its required fields are there, every fixed field that is there has its type and length, what else is there
  is allowed, and the rules between fields hold. -/
  | object {c rs d} : (c, rs) ∈ grammar →
      (∀ r ∈ rs, r.required = true → ∃ x, lookup r.name d = some x) →
      (∀ r ∈ rs, ∀ e ∈ d, e.1 = r.name → Conforms W e.2 r.ty) →
      (∀ r ∈ rs, ∀ s m, lookup r.name d = some (.str s) → r.max = some m → s.length ≤ m) →
      (∀ e ∈ d, (∃ r ∈ rs, e.1 = r.name) ∨ (OtherKey W c e.1 ∧ e.2.isJson = true)) →
      JsonRule W.U W.limit c d → Conforms W (.dict d) (.object c)

end Verif.Spec
