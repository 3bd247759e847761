import Verif.Py.Types
import Verif.Py.Heap
/-!
Generated by tools/gen_classes.py from the text of asyncapi3/models. Do not edit.
-/
namespace Verif.Gen
open Verif

/-- The model classes of asyncapi3/models (the abstract bases excepted).
`ComponentsTags` is `components.Tags` (models/components.py:108). -/
inductive Cls where
  | Reference
  | ExternalDocumentation
  | Tag
  | Schema
  | MultiFormatSchema
  | CorrelationID
  | OAuthFlow
  | OAuthFlows
  | SecurityScheme
  | AMQPServerBindings
  | AMQPExchange
  | AMQPQueue
  | AMQPChannelBindings
  | AMQPOperationBindings
  | AMQPMessageBindings
  | AMQP1ServerBindings
  | AMQP1ChannelBindings
  | AMQP1OperationBindings
  | AMQP1MessageBindings
  | AnypointMQServerBindings
  | AnypointMQChannelBindings
  | AnypointMQOperationBindings
  | AnypointMQMessageBindings
  | ServerBindingsObject
  | ChannelBindingsObject
  | OperationBindingsObject
  | MessageBindingsObject
  | GooglePubSubServerBindings
  | GooglePubSubMessageStoragePolicy
  | GooglePubSubSchemaSettings
  | GooglePubSubChannelBindings
  | GooglePubSubOperationBindings
  | GooglePubSubSchemaDefinition
  | GooglePubSubMessageBindings
  | HTTPServerBindings
  | HTTPChannelBindings
  | HTTPOperationBindings
  | HTTPMessageBindings
  | IBMMQServerBindings
  | IBMMQQueue
  | IBMMQTopic
  | IBMMQChannelBindings
  | IBMMQOperationBindings
  | IBMMQMessageBindings
  | JMSServerBindings
  | JMSChannelBindings
  | JMSOperationBindings
  | JMSMessageBindings
  | KafkaServerBindings
  | KafkaTopicConfiguration
  | KafkaChannelBindings
  | KafkaOperationBindings
  | KafkaMessageBindings
  | MercureServerBindings
  | MercureChannelBindings
  | MercureOperationBindings
  | MercureMessageBindings
  | MQTTLastWill
  | MQTTServerBindings
  | MQTTChannelBindings
  | MQTTOperationBindings
  | MQTTMessageBindings
  | MQTT5ServerBindings
  | MQTT5ChannelBindings
  | MQTT5OperationBindings
  | MQTT5MessageBindings
  | NATSServerBindings
  | NATSChannelBindings
  | NATSOperationBindings
  | NATSMessageBindings
  | PulsarServerBindings
  | PulsarRetention
  | PulsarChannelBindings
  | PulsarOperationBindings
  | PulsarMessageBindings
  | RedisServerBindings
  | RedisChannelBindings
  | RedisOperationBindings
  | RedisMessageBindings
  | SNSServerBindings
  | SNSOrdering
  | SNSStatement
  | SNSPolicy
  | SNSChannelBindings
  | SNSIdentifier
  | SNSDeliveryPolicy
  | SNSRedrivePolicy
  | SNSConsumer
  | SNSOperationBindings
  | SNSMessageBindings
  | SolaceServerBindings
  | SolaceChannelBindings
  | SolaceQueue
  | SolaceTopic
  | SolaceDestination
  | SolaceOperationBindings
  | SolaceMessageBindings
  | SQSServerBindings
  | SQSStatement
  | SQSPolicy
  | SQSIdentifier
  | SQSRedrivePolicy
  | SQSQueue
  | SQSChannelBindings
  | SQSOperationBindings
  | SQSMessageBindings
  | STOMPServerBindings
  | STOMPChannelBindings
  | STOMPOperationBindings
  | STOMPMessageBindings
  | WebSocketsServerBindings
  | WebSocketsChannelBindings
  | WebSocketsOperationBindings
  | WebSocketsMessageBindings
  | Contact
  | License
  | Info
  | ServerVariable
  | Server
  | Servers
  | Parameter
  | Parameters
  | Channel
  | Channels
  | MessageExample
  | MessageTrait
  | Message
  | Messages
  | OperationReplyAddress
  | OperationReply
  | OperationTrait
  | Operation
  | Operations
  | Schemas
  | SecuritySchemes
  | ServerVariables
  | CorrelationIDs
  | Replies
  | ReplyAddresses
  | ExternalDocs
  | ComponentsTags
  | OperationTraits
  | MessageTraits
  | ServerBindings
  | ChannelBindings
  | OperationBindings
  | MessageBindings
  | Components
  | AsyncAPI3
  deriving DecidableEq, Repr

/-- All classes. -/
def Cls.all : List Cls := [.Reference, .ExternalDocumentation, .Tag, .Schema, .MultiFormatSchema, .CorrelationID, .OAuthFlow, .OAuthFlows, .SecurityScheme, .AMQPServerBindings, .AMQPExchange, .AMQPQueue, .AMQPChannelBindings, .AMQPOperationBindings, .AMQPMessageBindings, .AMQP1ServerBindings, .AMQP1ChannelBindings, .AMQP1OperationBindings, .AMQP1MessageBindings, .AnypointMQServerBindings, .AnypointMQChannelBindings, .AnypointMQOperationBindings, .AnypointMQMessageBindings, .ServerBindingsObject, .ChannelBindingsObject, .OperationBindingsObject, .MessageBindingsObject, .GooglePubSubServerBindings, .GooglePubSubMessageStoragePolicy, .GooglePubSubSchemaSettings, .GooglePubSubChannelBindings, .GooglePubSubOperationBindings, .GooglePubSubSchemaDefinition, .GooglePubSubMessageBindings, .HTTPServerBindings, .HTTPChannelBindings, .HTTPOperationBindings, .HTTPMessageBindings, .IBMMQServerBindings, .IBMMQQueue, .IBMMQTopic, .IBMMQChannelBindings, .IBMMQOperationBindings, .IBMMQMessageBindings, .JMSServerBindings, .JMSChannelBindings, .JMSOperationBindings, .JMSMessageBindings, .KafkaServerBindings, .KafkaTopicConfiguration, .KafkaChannelBindings, .KafkaOperationBindings, .KafkaMessageBindings, .MercureServerBindings, .MercureChannelBindings, .MercureOperationBindings, .MercureMessageBindings, .MQTTLastWill, .MQTTServerBindings, .MQTTChannelBindings, .MQTTOperationBindings, .MQTTMessageBindings, .MQTT5ServerBindings, .MQTT5ChannelBindings, .MQTT5OperationBindings, .MQTT5MessageBindings, .NATSServerBindings, .NATSChannelBindings, .NATSOperationBindings, .NATSMessageBindings, .PulsarServerBindings, .PulsarRetention, .PulsarChannelBindings, .PulsarOperationBindings, .PulsarMessageBindings, .RedisServerBindings, .RedisChannelBindings, .RedisOperationBindings, .RedisMessageBindings, .SNSServerBindings, .SNSOrdering, .SNSStatement, .SNSPolicy, .SNSChannelBindings, .SNSIdentifier, .SNSDeliveryPolicy, .SNSRedrivePolicy, .SNSConsumer, .SNSOperationBindings, .SNSMessageBindings, .SolaceServerBindings, .SolaceChannelBindings, .SolaceQueue, .SolaceTopic, .SolaceDestination, .SolaceOperationBindings, .SolaceMessageBindings, .SQSServerBindings, .SQSStatement, .SQSPolicy, .SQSIdentifier, .SQSRedrivePolicy, .SQSQueue, .SQSChannelBindings, .SQSOperationBindings, .SQSMessageBindings, .STOMPServerBindings, .STOMPChannelBindings, .STOMPOperationBindings, .STOMPMessageBindings, .WebSocketsServerBindings, .WebSocketsChannelBindings, .WebSocketsOperationBindings, .WebSocketsMessageBindings, .Contact, .License, .Info, .ServerVariable, .Server, .Servers, .Parameter, .Parameters, .Channel, .Channels, .MessageExample, .MessageTrait, .Message, .Messages, .OperationReplyAddress, .OperationReply, .OperationTrait, .Operation, .Operations, .Schemas, .SecuritySchemes, .ServerVariables, .CorrelationIDs, .Replies, .ReplyAddresses, .ExternalDocs, .ComponentsTags, .OperationTraits, .MessageTraits, .ServerBindings, .ChannelBindings, .OperationBindings, .MessageBindings, .Components, .AsyncAPI3]

/-- models/base.py:11-144 -/
def defReference : ClassDef Cls := ⟨.nonExtendable, [
  ⟨p!"ref", (some p!"$ref"), .str, .required, false, false, none⟩]⟩

/-- models/base.py:147-167 -/
def defExternalDocumentation : ClassDef Cls := ⟨.extendable, [
  ⟨p!"url", none, .anyUrl, .required, false, false, none⟩,
  ⟨p!"description", none, .union [.str, .none], .null, false, true, none⟩]⟩

/-- models/base.py:170-193 -/
def defTag : ClassDef Cls := ⟨.extendable, [
  ⟨p!"name", none, .str, .required, false, false, none⟩,
  ⟨p!"description", none, .union [.str, .none], .null, false, true, none⟩,
  ⟨p!"external_docs", (some p!"externalDocs"), .union [.model .ExternalDocumentation, .model .Reference, .none], .null, false, true, none⟩]⟩

/-- models/schema.py:17-100 -/
def defSchema : ClassDef Cls := ⟨.openExtra, [
  ⟨p!"discriminator", none, .union [.str, .none], .null, false, true, none⟩,
  ⟨p!"external_docs", (some p!"externalDocs"), .union [.model .ExternalDocumentation, .model .Reference, .none], .null, false, true, none⟩,
  ⟨p!"deprecated", none, .union [.bool, .none], .null, false, true, none⟩]⟩

/-- models/schema.py:103-154 -/
def defMultiFormatSchema : ClassDef Cls := ⟨.openExtra, [
  ⟨p!"schema_format", (some p!"schemaFormat"), .str, .str p!"application/vnd.aai.asyncapi;version=3.0.0", false, false, none⟩,
  ⟨p!"schema", none, .any, .required, false, false, none⟩]⟩

/-- models/security.py:18-59 -/
def defCorrelationID : ClassDef Cls := ⟨.extendable, [
  ⟨p!"description", none, .union [.str, .none], .null, false, true, none⟩,
  ⟨p!"location", none, .str, .required, false, false, none⟩]⟩

/-- models/security.py:62-106 -/
def defOAuthFlow : ClassDef Cls := ⟨.extendable, [
  ⟨p!"authorization_url", (some p!"authorizationUrl"), .union [.anyUrl, .none], .null, false, true, none⟩,
  ⟨p!"token_url", (some p!"tokenUrl"), .union [.anyUrl, .none], .null, false, true, none⟩,
  ⟨p!"refresh_url", (some p!"refreshUrl"), .union [.anyUrl, .none], .null, false, true, none⟩,
  ⟨p!"available_scopes", (some p!"availableScopes"), .dict (.str), .required, false, false, none⟩]⟩

/-- models/security.py:109-183 -/
def defOAuthFlows : ClassDef Cls := ⟨.extendable, [
  ⟨p!"implicit", none, .union [.model .OAuthFlow, .none], .null, false, true, none⟩,
  ⟨p!"password", none, .union [.model .OAuthFlow, .none], .null, false, true, none⟩,
  ⟨p!"client_credentials", (some p!"clientCredentials"), .union [.model .OAuthFlow, .none], .null, false, true, none⟩,
  ⟨p!"authorization_code", (some p!"authorizationCode"), .union [.model .OAuthFlow, .none], .null, false, true, none⟩]⟩

/-- models/security.py:186-375 -/
def defSecurityScheme : ClassDef Cls := ⟨.extendable, [
  ⟨p!"type_", (some p!"type"), .lit [.s p!"apiKey", .s p!"asymmetricEncryption", .s p!"gssapi", .s p!"http", .s p!"httpApiKey", .s p!"oauth2", .s p!"openIdConnect", .s p!"plain", .s p!"scramSha256", .s p!"scramSha512", .s p!"symmetricEncryption", .s p!"userPassword", .s p!"X509"], .required, false, false, none⟩,
  ⟨p!"description", none, .union [.str, .none], .null, false, true, none⟩,
  ⟨p!"name", none, .union [.str, .none], .null, false, true, none⟩,
  ⟨p!"in_", (some p!"in"), .union [.lit [.s p!"user", .s p!"password", .s p!"query", .s p!"header", .s p!"cookie"], .none], .null, false, true, none⟩,
  ⟨p!"scheme", none, .union [.str, .none], .null, false, true, none⟩,
  ⟨p!"bearer_format", (some p!"bearerFormat"), .union [.str, .none], .null, false, true, none⟩,
  ⟨p!"flows", none, .union [.model .OAuthFlows, .none], .null, false, true, none⟩,
  ⟨p!"open_id_connect_url", (some p!"openIdConnectUrl"), .union [.anyUrl, .none], .null, false, true, none⟩,
  ⟨p!"scopes", none, .union [.list (.str), .none], .null, false, true, none⟩]⟩

/-- models/bindings/amqp.py:21-26 -/
def defAMQPServerBindings : ClassDef Cls := ⟨.nonExtendable, [
]⟩

/-- models/bindings/amqp.py:29-64 -/
def defAMQPExchange : ClassDef Cls := ⟨.nonExtendable, [
  ⟨p!"name", none, .str, .required, false, false, some 255⟩,
  ⟨p!"type", none, .lit [.s p!"topic", .s p!"direct", .s p!"fanout", .s p!"default", .s p!"headers"], .required, false, false, none⟩,
  ⟨p!"durable", none, .union [.bool, .none], .null, false, true, none⟩,
  ⟨p!"auto_delete", (some p!"autoDelete"), .union [.bool, .none], .null, false, true, none⟩,
  ⟨p!"vhost", none, .union [.str, .none], .null, false, true, none⟩]⟩

/-- models/bindings/amqp.py:67-102 -/
def defAMQPQueue : ClassDef Cls := ⟨.nonExtendable, [
  ⟨p!"name", none, .union [.str, .none], .null, false, true, some 255⟩,
  ⟨p!"durable", none, .union [.bool, .none], .null, false, true, none⟩,
  ⟨p!"exclusive", none, .union [.bool, .none], .null, false, true, none⟩,
  ⟨p!"auto_delete", (some p!"autoDelete"), .union [.bool, .none], .null, false, true, none⟩,
  ⟨p!"vhost", none, .union [.str, .none], .null, false, true, none⟩]⟩

/-- models/bindings/amqp.py:105-155 -/
def defAMQPChannelBindings : ClassDef Cls := ⟨.nonExtendable, [
  ⟨p!"is_", (some p!"is"), .lit [.s p!"queue", .s p!"routingKey"], .required, false, false, none⟩,
  ⟨p!"exchange", none, .union [.model .AMQPExchange, .none], .null, false, true, none⟩,
  ⟨p!"queue", none, .union [.model .AMQPQueue, .none], .null, false, true, none⟩,
  ⟨p!"binding_version", (some p!"bindingVersion"), .str, .str p!"0.3.0", false, false, none⟩]⟩

/-- models/bindings/amqp.py:158-235 -/
def defAMQPOperationBindings : ClassDef Cls := ⟨.nonExtendable, [
  ⟨p!"expiration", none, .union [.int, .none], .null, false, true, none⟩,
  ⟨p!"user_id", (some p!"userId"), .union [.str, .none], .null, false, true, none⟩,
  ⟨p!"cc", none, .union [.list (.str), .none], .null, false, true, none⟩,
  ⟨p!"priority", none, .union [.int, .none], .null, false, true, none⟩,
  ⟨p!"delivery_mode", (some p!"deliveryMode"), .union [.lit [.i 1, .i 2], .none], .null, false, true, none⟩,
  ⟨p!"mandatory", none, .union [.bool, .none], .null, false, true, none⟩,
  ⟨p!"bcc", none, .union [.list (.str), .none], .null, false, true, none⟩,
  ⟨p!"timestamp", none, .union [.bool, .none], .null, false, true, none⟩,
  ⟨p!"ack", none, .union [.bool, .none], .null, false, true, none⟩,
  ⟨p!"binding_version", (some p!"bindingVersion"), .str, .str p!"0.3.0", false, false, none⟩]⟩

/-- models/bindings/amqp.py:238-263 -/
def defAMQPMessageBindings : ClassDef Cls := ⟨.nonExtendable, [
  ⟨p!"content_encoding", (some p!"contentEncoding"), .union [.str, .none], .null, false, true, none⟩,
  ⟨p!"message_type", (some p!"messageType"), .union [.str, .none], .null, false, true, none⟩,
  ⟨p!"binding_version", (some p!"bindingVersion"), .str, .str p!"0.3.0", false, false, none⟩]⟩

/-- models/bindings/amqp1.py:13-18 -/
def defAMQP1ServerBindings : ClassDef Cls := ⟨.nonExtendable, [
]⟩

/-- models/bindings/amqp1.py:21-26 -/
def defAMQP1ChannelBindings : ClassDef Cls := ⟨.nonExtendable, [
]⟩

/-- models/bindings/amqp1.py:29-34 -/
def defAMQP1OperationBindings : ClassDef Cls := ⟨.nonExtendable, [
]⟩

/-- models/bindings/amqp1.py:37-42 -/
def defAMQP1MessageBindings : ClassDef Cls := ⟨.nonExtendable, [
]⟩

/-- models/bindings/anypointmq.py:20-25 -/
def defAnypointMQServerBindings : ClassDef Cls := ⟨.nonExtendable, [
]⟩

/-- models/bindings/anypointmq.py:28-61 -/
def defAnypointMQChannelBindings : ClassDef Cls := ⟨.nonExtendable, [
  ⟨p!"destination", none, .union [.str, .none], .null, false, true, none⟩,
  ⟨p!"destination_type", (some p!"destinationType"), .union [.lit [.s p!"exchange", .s p!"queue", .s p!"fifo-queue"], .none], .str p!"queue", false, true, none⟩,
  ⟨p!"binding_version", (some p!"bindingVersion"), .str, .str p!"0.1.0", false, false, none⟩]⟩

/-- models/bindings/anypointmq.py:64-69 -/
def defAnypointMQOperationBindings : ClassDef Cls := ⟨.nonExtendable, [
]⟩

/-- models/bindings/anypointmq.py:72-93 -/
def defAnypointMQMessageBindings : ClassDef Cls := ⟨.nonExtendable, [
  ⟨p!"headers", none, .union [.model .Schema, .model .Reference, .none], .null, false, true, none⟩,
  ⟨p!"binding_version", (some p!"bindingVersion"), .str, .str p!"0.1.0", false, false, none⟩]⟩

/-- models/bindings/core.py:130-233 -/
def defServerBindingsObject : ClassDef Cls := ⟨.extendable, [
  ⟨p!"http", none, .union [.model .HTTPServerBindings, .none], .null, false, true, none⟩,
  ⟨p!"ws", none, .union [.model .WebSocketsServerBindings, .none], .null, false, true, none⟩,
  ⟨p!"kafka", none, .union [.model .KafkaServerBindings, .none], .null, false, true, none⟩,
  ⟨p!"anypointmq", none, .union [.model .AnypointMQServerBindings, .none], .null, false, true, none⟩,
  ⟨p!"amqp", none, .union [.model .AMQPServerBindings, .none], .null, false, true, none⟩,
  ⟨p!"amqp1", none, .union [.model .AMQP1ServerBindings, .none], .null, false, true, none⟩,
  ⟨p!"mqtt", none, .union [.model .MQTTServerBindings, .none], .null, false, true, none⟩,
  ⟨p!"mqtt5", none, .union [.model .MQTT5ServerBindings, .none], .null, false, true, none⟩,
  ⟨p!"nats", none, .union [.model .NATSServerBindings, .none], .null, false, true, none⟩,
  ⟨p!"jms", none, .union [.model .JMSServerBindings, .none], .null, false, true, none⟩,
  ⟨p!"sns", none, .union [.model .SNSServerBindings, .none], .null, false, true, none⟩,
  ⟨p!"solace", none, .union [.model .SolaceServerBindings, .none], .null, false, true, none⟩,
  ⟨p!"sqs", none, .union [.model .SQSServerBindings, .none], .null, false, true, none⟩,
  ⟨p!"stomp", none, .union [.model .STOMPServerBindings, .none], .null, false, true, none⟩,
  ⟨p!"redis", none, .union [.model .RedisServerBindings, .none], .null, false, true, none⟩,
  ⟨p!"mercure", none, .union [.model .MercureServerBindings, .none], .null, false, true, none⟩,
  ⟨p!"ibmmq", none, .union [.model .IBMMQServerBindings, .none], .null, false, true, none⟩,
  ⟨p!"googlepubsub", none, .union [.model .GooglePubSubServerBindings, .none], .null, false, true, none⟩,
  ⟨p!"pulsar", none, .union [.model .PulsarServerBindings, .none], .null, false, true, none⟩]⟩

/-- models/bindings/core.py:236-339 -/
def defChannelBindingsObject : ClassDef Cls := ⟨.extendable, [
  ⟨p!"http", none, .union [.model .HTTPChannelBindings, .none], .null, false, true, none⟩,
  ⟨p!"ws", none, .union [.model .WebSocketsChannelBindings, .none], .null, false, true, none⟩,
  ⟨p!"kafka", none, .union [.model .KafkaChannelBindings, .none], .null, false, true, none⟩,
  ⟨p!"anypointmq", none, .union [.model .AnypointMQChannelBindings, .none], .null, false, true, none⟩,
  ⟨p!"amqp", none, .union [.model .AMQPChannelBindings, .none], .null, false, true, none⟩,
  ⟨p!"amqp1", none, .union [.model .AMQP1ChannelBindings, .none], .null, false, true, none⟩,
  ⟨p!"mqtt", none, .union [.model .MQTTChannelBindings, .none], .null, false, true, none⟩,
  ⟨p!"mqtt5", none, .union [.model .MQTT5ChannelBindings, .none], .null, false, true, none⟩,
  ⟨p!"nats", none, .union [.model .NATSChannelBindings, .none], .null, false, true, none⟩,
  ⟨p!"jms", none, .union [.model .JMSChannelBindings, .none], .null, false, true, none⟩,
  ⟨p!"sns", none, .union [.model .SNSChannelBindings, .none], .null, false, true, none⟩,
  ⟨p!"solace", none, .union [.model .SolaceChannelBindings, .none], .null, false, true, none⟩,
  ⟨p!"sqs", none, .union [.model .SQSChannelBindings, .none], .null, false, true, none⟩,
  ⟨p!"stomp", none, .union [.model .STOMPChannelBindings, .none], .null, false, true, none⟩,
  ⟨p!"redis", none, .union [.model .RedisChannelBindings, .none], .null, false, true, none⟩,
  ⟨p!"mercure", none, .union [.model .MercureChannelBindings, .none], .null, false, true, none⟩,
  ⟨p!"ibmmq", none, .union [.model .IBMMQChannelBindings, .none], .null, false, true, none⟩,
  ⟨p!"googlepubsub", none, .union [.model .GooglePubSubChannelBindings, .none], .null, false, true, none⟩,
  ⟨p!"pulsar", none, .union [.model .PulsarChannelBindings, .none], .null, false, true, none⟩]⟩

/-- models/bindings/core.py:342-447 -/
def defOperationBindingsObject : ClassDef Cls := ⟨.extendable, [
  ⟨p!"http", none, .union [.model .HTTPOperationBindings, .none], .null, false, true, none⟩,
  ⟨p!"ws", none, .union [.model .WebSocketsOperationBindings, .none], .null, false, true, none⟩,
  ⟨p!"kafka", none, .union [.model .KafkaOperationBindings, .none], .null, false, true, none⟩,
  ⟨p!"anypointmq", none, .union [.model .AnypointMQOperationBindings, .none], .null, false, true, none⟩,
  ⟨p!"amqp", none, .union [.model .AMQPOperationBindings, .none], .null, false, true, none⟩,
  ⟨p!"amqp1", none, .union [.model .AMQP1OperationBindings, .none], .null, false, true, none⟩,
  ⟨p!"mqtt", none, .union [.model .MQTTOperationBindings, .none], .null, false, true, none⟩,
  ⟨p!"mqtt5", none, .union [.model .MQTT5OperationBindings, .none], .null, false, true, none⟩,
  ⟨p!"nats", none, .union [.model .NATSOperationBindings, .none], .null, false, true, none⟩,
  ⟨p!"jms", none, .union [.model .JMSOperationBindings, .none], .null, false, true, none⟩,
  ⟨p!"sns", none, .union [.model .SNSOperationBindings, .none], .null, false, true, none⟩,
  ⟨p!"solace", none, .union [.model .SolaceOperationBindings, .none], .null, false, true, none⟩,
  ⟨p!"sqs", none, .union [.model .SQSOperationBindings, .none], .null, false, true, none⟩,
  ⟨p!"stomp", none, .union [.model .STOMPOperationBindings, .none], .null, false, true, none⟩,
  ⟨p!"redis", none, .union [.model .RedisOperationBindings, .none], .null, false, true, none⟩,
  ⟨p!"mercure", none, .union [.model .MercureOperationBindings, .none], .null, false, true, none⟩,
  ⟨p!"ibmmq", none, .union [.model .IBMMQOperationBindings, .none], .null, false, true, none⟩,
  ⟨p!"googlepubsub", none, .union [.model .GooglePubSubOperationBindings, .none], .null, false, true, none⟩,
  ⟨p!"pulsar", none, .union [.model .PulsarOperationBindings, .none], .null, false, true, none⟩]⟩

/-- models/bindings/core.py:450-556 -/
def defMessageBindingsObject : ClassDef Cls := ⟨.extendable, [
  ⟨p!"http", none, .union [.model .HTTPMessageBindings, .none], .null, false, true, none⟩,
  ⟨p!"ws", none, .union [.model .WebSocketsMessageBindings, .none], .null, false, true, none⟩,
  ⟨p!"kafka", none, .union [.model .KafkaMessageBindings, .none], .null, false, true, none⟩,
  ⟨p!"anypointmq", none, .union [.model .AnypointMQMessageBindings, .none], .null, false, true, none⟩,
  ⟨p!"amqp", none, .union [.model .AMQPMessageBindings, .none], .null, false, true, none⟩,
  ⟨p!"amqp1", none, .union [.model .AMQP1MessageBindings, .none], .null, false, true, none⟩,
  ⟨p!"mqtt", none, .union [.model .MQTTMessageBindings, .none], .null, false, true, none⟩,
  ⟨p!"mqtt5", none, .union [.model .MQTT5MessageBindings, .none], .null, false, true, none⟩,
  ⟨p!"nats", none, .union [.model .NATSMessageBindings, .none], .null, false, true, none⟩,
  ⟨p!"jms", none, .union [.model .JMSMessageBindings, .none], .null, false, true, none⟩,
  ⟨p!"sns", none, .union [.model .SNSMessageBindings, .none], .null, false, true, none⟩,
  ⟨p!"solace", none, .union [.model .SolaceMessageBindings, .none], .null, false, true, none⟩,
  ⟨p!"sqs", none, .union [.model .SQSMessageBindings, .none], .null, false, true, none⟩,
  ⟨p!"stomp", none, .union [.model .STOMPMessageBindings, .none], .null, false, true, none⟩,
  ⟨p!"redis", none, .union [.model .RedisMessageBindings, .none], .null, false, true, none⟩,
  ⟨p!"mercure", none, .union [.model .MercureMessageBindings, .none], .null, false, true, none⟩,
  ⟨p!"ibmmq", none, .union [.model .IBMMQMessageBindings, .none], .null, false, true, none⟩,
  ⟨p!"googlepubsub", none, .union [.model .GooglePubSubMessageBindings, .none], .null, false, true, none⟩,
  ⟨p!"pulsar", none, .union [.model .PulsarMessageBindings, .none], .null, false, true, none⟩]⟩

/-- models/bindings/googlepubsub.py:21-26 -/
def defGooglePubSubServerBindings : ClassDef Cls := ⟨.nonExtendable, [
]⟩

/-- models/bindings/googlepubsub.py:29-45 -/
def defGooglePubSubMessageStoragePolicy : ClassDef Cls := ⟨.nonExtendable, [
  ⟨p!"allowed_persistence_regions", (some p!"allowedPersistenceRegions"), .union [.list (.str), .none], .null, false, true, none⟩]⟩

/-- models/bindings/googlepubsub.py:48-92 -/
def defGooglePubSubSchemaSettings : ClassDef Cls := ⟨.nonExtendable, [
  ⟨p!"encoding", none, .union [.lit [.s p!"ENCODING_UNSPECIFIED", .s p!"JSON", .s p!"BINARY"], .none], .null, false, true, none⟩,
  ⟨p!"first_revision_id", (some p!"firstRevisionId"), .union [.str, .none], .null, false, true, none⟩,
  ⟨p!"last_revision_id", (some p!"lastRevisionId"), .union [.str, .none], .null, false, true, none⟩,
  ⟨p!"name", none, .union [.str, .none], .null, false, true, none⟩]⟩

/-- models/bindings/googlepubsub.py:95-139 -/
def defGooglePubSubChannelBindings : ClassDef Cls := ⟨.nonExtendable, [
  ⟨p!"binding_version", (some p!"bindingVersion"), .str, .str p!"0.2.0", false, false, none⟩,
  ⟨p!"labels", none, .union [.dict (.any), .none], .null, false, true, none⟩,
  ⟨p!"message_retention_duration", (some p!"messageRetentionDuration"), .union [.str, .none], .null, false, true, none⟩,
  ⟨p!"message_storage_policy", (some p!"messageStoragePolicy"), .union [.model .GooglePubSubMessageStoragePolicy, .none], .null, false, true, none⟩,
  ⟨p!"schema_settings", (some p!"schemaSettings"), .union [.model .GooglePubSubSchemaSettings, .none], .null, false, true, none⟩]⟩

/-- models/bindings/googlepubsub.py:142-147 -/
def defGooglePubSubOperationBindings : ClassDef Cls := ⟨.nonExtendable, [
]⟩

/-- models/bindings/googlepubsub.py:150-161 -/
def defGooglePubSubSchemaDefinition : ClassDef Cls := ⟨.nonExtendable, [
  ⟨p!"name", none, .union [.str, .none], .null, false, true, none⟩]⟩

/-- models/bindings/googlepubsub.py:164-202 -/
def defGooglePubSubMessageBindings : ClassDef Cls := ⟨.nonExtendable, [
  ⟨p!"binding_version", (some p!"bindingVersion"), .str, .str p!"0.2.0", false, false, none⟩,
  ⟨p!"attributes", none, .union [.dict (.any), .none], .null, false, true, none⟩,
  ⟨p!"ordering_key", (some p!"orderingKey"), .union [.str, .none], .null, false, true, none⟩,
  ⟨p!"schema", none, .union [.model .GooglePubSubSchemaDefinition, .none], .null, false, true, none⟩]⟩

/-- models/bindings/http.py:20-25 -/
def defHTTPServerBindings : ClassDef Cls := ⟨.nonExtendable, [
]⟩

/-- models/bindings/http.py:28-33 -/
def defHTTPChannelBindings : ClassDef Cls := ⟨.nonExtendable, [
]⟩

/-- models/bindings/http.py:36-73 -/
def defHTTPOperationBindings : ClassDef Cls := ⟨.nonExtendable, [
  ⟨p!"method", none, .lit [.s p!"GET", .s p!"POST", .s p!"PUT", .s p!"PATCH", .s p!"DELETE", .s p!"HEAD", .s p!"OPTIONS", .s p!"CONNECT", .s p!"TRACE"], .required, false, false, none⟩,
  ⟨p!"query", none, .union [.model .Schema, .model .Reference, .none], .null, false, true, none⟩,
  ⟨p!"binding_version", (some p!"bindingVersion"), .str, .str p!"0.3.0", false, false, none⟩]⟩

/-- models/bindings/http.py:76-108 -/
def defHTTPMessageBindings : ClassDef Cls := ⟨.nonExtendable, [
  ⟨p!"headers", none, .union [.model .Schema, .model .Reference, .none], .null, false, true, none⟩,
  ⟨p!"status_code", (some p!"statusCode"), .union [.int, .none], .null, false, true, none⟩,
  ⟨p!"binding_version", (some p!"bindingVersion"), .str, .str p!"0.3.0", false, false, none⟩]⟩

/-- models/bindings/ibmmq.py:21-109 -/
def defIBMMQServerBindings : ClassDef Cls := ⟨.nonExtendable, [
  ⟨p!"group_id", (some p!"groupId"), .union [.str, .none], .null, false, true, none⟩,
  ⟨p!"ccdt_queue_manager_name", (some p!"ccdtQueueManagerName"), .union [.str, .none], .null, false, true, none⟩,
  ⟨p!"cipher_spec", (some p!"cipherSpec"), .union [.str, .none], .null, false, true, none⟩,
  ⟨p!"multi_endpoint_server", (some p!"multiEndpointServer"), .union [.bool, .none], .null, false, true, none⟩,
  ⟨p!"heart_beat_interval", (some p!"heartBeatInterval"), .union [.int, .none], .null, false, true, none⟩,
  ⟨p!"binding_version", (some p!"bindingVersion"), .str, .str p!"0.1.0", false, false, none⟩]⟩

/-- models/bindings/ibmmq.py:112-145 -/
def defIBMMQQueue : ClassDef Cls := ⟨.nonExtendable, [
  ⟨p!"object_name", (some p!"objectName"), .str, .required, false, false, some 48⟩,
  ⟨p!"is_partitioned", (some p!"isPartitioned"), .bool, .bool false, false, false, none⟩,
  ⟨p!"exclusive", none, .bool, .bool false, false, false, none⟩]⟩

/-- models/bindings/ibmmq.py:148-192 -/
def defIBMMQTopic : ClassDef Cls := ⟨.nonExtendable, [
  ⟨p!"string", none, .union [.str, .none], .null, false, true, some 10240⟩,
  ⟨p!"object_name", (some p!"objectName"), .union [.str, .none], .null, false, true, some 48⟩,
  ⟨p!"durable_permitted", (some p!"durablePermitted"), .bool, .bool true, false, false, none⟩,
  ⟨p!"last_msg_retained", (some p!"lastMsgRetained"), .bool, .bool false, false, false, none⟩]⟩

/-- models/bindings/ibmmq.py:195-269 -/
def defIBMMQChannelBindings : ClassDef Cls := ⟨.nonExtendable, [
  ⟨p!"destination_type", (some p!"destinationType"), .lit [.s p!"topic", .s p!"queue"], .str p!"topic", false, false, none⟩,
  ⟨p!"queue", none, .union [.model .IBMMQQueue, .none], .null, false, true, none⟩,
  ⟨p!"topic", none, .union [.model .IBMMQTopic, .none], .null, false, true, none⟩,
  ⟨p!"max_msg_length", (some p!"maxMsgLength"), .union [.int, .none], .null, false, true, none⟩,
  ⟨p!"binding_version", (some p!"bindingVersion"), .str, .str p!"0.1.0", false, false, none⟩]⟩

/-- models/bindings/ibmmq.py:272-277 -/
def defIBMMQOperationBindings : ClassDef Cls := ⟨.nonExtendable, [
]⟩

/-- models/bindings/ibmmq.py:280-348 -/
def defIBMMQMessageBindings : ClassDef Cls := ⟨.nonExtendable, [
  ⟨p!"type", none, .lit [.s p!"string", .s p!"jms", .s p!"binary"], .str p!"string", false, false, none⟩,
  ⟨p!"headers", none, .union [.str, .none], .null, false, true, none⟩,
  ⟨p!"description", none, .union [.str, .none], .null, false, true, none⟩,
  ⟨p!"expiry", none, .union [.int, .none], .null, false, true, none⟩,
  ⟨p!"binding_version", (some p!"bindingVersion"), .str, .str p!"0.1.0", false, false, none⟩]⟩

/-- models/bindings/jms.py:20-58 -/
def defJMSServerBindings : ClassDef Cls := ⟨.nonExtendable, [
  ⟨p!"jms_connection_factory", (some p!"jmsConnectionFactory"), .str, .required, false, false, none⟩,
  ⟨p!"properties", none, .union [.list (.model .Schema), .none], .null, false, true, none⟩,
  ⟨p!"client_id", (some p!"clientID"), .union [.str, .none], .null, false, true, none⟩,
  ⟨p!"binding_version", (some p!"bindingVersion"), .str, .str p!"0.0.1", false, false, none⟩]⟩

/-- models/bindings/jms.py:61-94 -/
def defJMSChannelBindings : ClassDef Cls := ⟨.nonExtendable, [
  ⟨p!"destination", none, .union [.str, .none], .null, false, true, none⟩,
  ⟨p!"destination_type", (some p!"destinationType"), .union [.lit [.s p!"queue", .s p!"fifo-queue"], .none], .null, false, true, none⟩,
  ⟨p!"binding_version", (some p!"bindingVersion"), .str, .str p!"0.0.1", false, false, none⟩]⟩

/-- models/bindings/jms.py:97-102 -/
def defJMSOperationBindings : ClassDef Cls := ⟨.nonExtendable, [
]⟩

/-- models/bindings/jms.py:105-127 -/
def defJMSMessageBindings : ClassDef Cls := ⟨.nonExtendable, [
  ⟨p!"headers", none, .union [.model .Schema, .model .Reference, .none], .null, false, true, none⟩,
  ⟨p!"binding_version", (some p!"bindingVersion"), .str, .str p!"0.0.1", false, false, none⟩]⟩

/-- models/bindings/kafka.py:21-60 -/
def defKafkaServerBindings : ClassDef Cls := ⟨.nonExtendable, [
  ⟨p!"schema_registry_url", (some p!"schemaRegistryUrl"), .union [.str, .none], .null, false, true, none⟩,
  ⟨p!"schema_registry_vendor", (some p!"schemaRegistryVendor"), .union [.str, .none], .null, false, true, none⟩,
  ⟨p!"binding_version", (some p!"bindingVersion"), .str, .str p!"0.5.0", false, false, none⟩]⟩

/-- models/bindings/kafka.py:63-153 -/
def defKafkaTopicConfiguration : ClassDef Cls := ⟨.openExtra, [
  ⟨p!"cleanup_policy", (some p!"cleanup.policy"), .union [.list (.lit [.s p!"delete", .s p!"compact"]), .none], .null, false, true, none⟩,
  ⟨p!"retention_ms", (some p!"retention.ms"), .union [.int, .none], .null, false, true, none⟩,
  ⟨p!"retention_bytes", (some p!"retention.bytes"), .union [.int, .none], .null, false, true, none⟩,
  ⟨p!"delete_retention_ms", (some p!"delete.retention.ms"), .union [.int, .none], .null, false, true, none⟩,
  ⟨p!"max_message_bytes", (some p!"max.message.bytes"), .union [.int, .none], .null, false, true, none⟩,
  ⟨p!"confluent_key_schema_validation", (some p!"confluent.key.schema.validation"), .union [.bool, .none], .null, false, true, none⟩,
  ⟨p!"confluent_key_subject_name_strategy", (some p!"confluent.key.subject.name.strategy"), .union [.str, .none], .null, false, true, none⟩,
  ⟨p!"confluent_value_schema_validation", (some p!"confluent.value.schema.validation"), .union [.bool, .none], .null, false, true, none⟩,
  ⟨p!"confluent_value_subject_name_strategy", (some p!"confluent.value.subject.name.strategy"), .union [.str, .none], .null, false, true, none⟩]⟩

/-- models/bindings/kafka.py:156-210 -/
def defKafkaChannelBindings : ClassDef Cls := ⟨.nonExtendable, [
  ⟨p!"topic", none, .union [.str, .none], .null, false, true, none⟩,
  ⟨p!"partitions", none, .union [.int, .none], .null, false, true, none⟩,
  ⟨p!"replicas", none, .union [.int, .none], .null, false, true, none⟩,
  ⟨p!"topic_configuration", (some p!"topicConfiguration"), .union [.model .KafkaTopicConfiguration, .none], .null, false, true, none⟩,
  ⟨p!"binding_version", (some p!"bindingVersion"), .str, .str p!"0.5.0", false, false, none⟩]⟩

/-- models/bindings/kafka.py:213-239 -/
def defKafkaOperationBindings : ClassDef Cls := ⟨.nonExtendable, [
  ⟨p!"group_id", (some p!"groupId"), .union [.model .Schema, .model .Reference, .none], .null, false, true, none⟩,
  ⟨p!"client_id", (some p!"clientId"), .union [.model .Schema, .model .Reference, .none], .null, false, true, none⟩,
  ⟨p!"binding_version", (some p!"bindingVersion"), .str, .str p!"0.5.0", false, false, none⟩]⟩

/-- models/bindings/kafka.py:242-296 -/
def defKafkaMessageBindings : ClassDef Cls := ⟨.nonExtendable, [
  ⟨p!"key", none, .union [.model .Schema, .model .Reference, .dict (.any), .none], .null, false, true, none⟩,
  ⟨p!"schema_id_location", (some p!"schemaIdLocation"), .union [.str, .none], .null, false, true, none⟩,
  ⟨p!"schema_id_payload_encoding", (some p!"schemaIdPayloadEncoding"), .union [.str, .none], .null, false, true, none⟩,
  ⟨p!"schema_lookup_strategy", (some p!"schemaLookupStrategy"), .union [.str, .none], .null, false, true, none⟩,
  ⟨p!"binding_version", (some p!"bindingVersion"), .str, .str p!"0.5.0", false, false, none⟩]⟩

/-- models/bindings/mercure.py:13-18 -/
def defMercureServerBindings : ClassDef Cls := ⟨.nonExtendable, [
]⟩

/-- models/bindings/mercure.py:21-26 -/
def defMercureChannelBindings : ClassDef Cls := ⟨.nonExtendable, [
]⟩

/-- models/bindings/mercure.py:29-34 -/
def defMercureOperationBindings : ClassDef Cls := ⟨.nonExtendable, [
]⟩

/-- models/bindings/mercure.py:37-42 -/
def defMercureMessageBindings : ClassDef Cls := ⟨.nonExtendable, [
]⟩

/-- models/bindings/mqtt.py:21-46 -/
def defMQTTLastWill : ClassDef Cls := ⟨.nonExtendable, [
  ⟨p!"topic", none, .str, .required, false, false, none⟩,
  ⟨p!"qos", none, .lit [.i 0, .i 1, .i 2], .required, false, false, none⟩,
  ⟨p!"message", none, .str, .required, false, false, none⟩,
  ⟨p!"retain", none, .bool, .required, false, false, none⟩]⟩

/-- models/bindings/mqtt.py:49-111 -/
def defMQTTServerBindings : ClassDef Cls := ⟨.nonExtendable, [
  ⟨p!"client_id", (some p!"clientId"), .union [.str, .none], .null, false, true, none⟩,
  ⟨p!"clean_session", (some p!"cleanSession"), .union [.bool, .none], .null, false, true, none⟩,
  ⟨p!"last_will", (some p!"lastWill"), .union [.model .MQTTLastWill, .none], .null, false, true, none⟩,
  ⟨p!"keep_alive", (some p!"keepAlive"), .union [.int, .none], .null, false, true, none⟩,
  ⟨p!"session_expiry_interval", (some p!"sessionExpiryInterval"), .union [.int, .model .Schema, .model .Reference, .none], .null, false, true, none⟩,
  ⟨p!"maximum_packet_size", (some p!"maximumPacketSize"), .union [.int, .model .Schema, .model .Reference, .none], .null, false, true, none⟩,
  ⟨p!"binding_version", (some p!"bindingVersion"), .str, .str p!"0.2.0", false, false, none⟩]⟩

/-- models/bindings/mqtt.py:114-119 -/
def defMQTTChannelBindings : ClassDef Cls := ⟨.nonExtendable, [
]⟩

/-- models/bindings/mqtt.py:122-158 -/
def defMQTTOperationBindings : ClassDef Cls := ⟨.nonExtendable, [
  ⟨p!"qos", none, .union [.lit [.i 0, .i 1, .i 2], .none], .null, false, true, none⟩,
  ⟨p!"retain", none, .union [.bool, .none], .null, false, true, none⟩,
  ⟨p!"message_expiry_interval", (some p!"messageExpiryInterval"), .union [.int, .model .Schema, .model .Reference, .none], .null, false, true, none⟩,
  ⟨p!"binding_version", (some p!"bindingVersion"), .str, .str p!"0.2.0", false, false, none⟩]⟩

/-- models/bindings/mqtt.py:161-208 -/
def defMQTTMessageBindings : ClassDef Cls := ⟨.nonExtendable, [
  ⟨p!"payload_format_indicator", (some p!"payloadFormatIndicator"), .union [.lit [.i 0, .i 1], .none], .null, false, true, none⟩,
  ⟨p!"correlation_data", (some p!"correlationData"), .union [.model .Schema, .model .Reference, .none], .null, false, true, none⟩,
  ⟨p!"content_type", (some p!"contentType"), .union [.str, .none], .null, false, true, none⟩,
  ⟨p!"response_topic", (some p!"responseTopic"), .union [.str, .model .Schema, .model .Reference, .none], .null, false, true, none⟩,
  ⟨p!"binding_version", (some p!"bindingVersion"), .str, .str p!"0.2.0", false, false, none⟩]⟩

/-- models/bindings/mqtt5.py:18-40 -/
def defMQTT5ServerBindings : ClassDef Cls := ⟨.nonExtendable, [
  ⟨p!"session_expiry_interval", (some p!"sessionExpiryInterval"), .union [.int, .model .Schema, .model .Reference, .none], .null, false, true, none⟩,
  ⟨p!"binding_version", (some p!"bindingVersion"), .str, .str p!"0.2.0", false, false, none⟩]⟩

/-- models/bindings/mqtt5.py:43-48 -/
def defMQTT5ChannelBindings : ClassDef Cls := ⟨.nonExtendable, [
]⟩

/-- models/bindings/mqtt5.py:51-56 -/
def defMQTT5OperationBindings : ClassDef Cls := ⟨.nonExtendable, [
]⟩

/-- models/bindings/mqtt5.py:59-64 -/
def defMQTT5MessageBindings : ClassDef Cls := ⟨.nonExtendable, [
]⟩

/-- models/bindings/nats.py:16-21 -/
def defNATSServerBindings : ClassDef Cls := ⟨.nonExtendable, [
]⟩

/-- models/bindings/nats.py:24-29 -/
def defNATSChannelBindings : ClassDef Cls := ⟨.nonExtendable, [
]⟩

/-- models/bindings/nats.py:32-51 -/
def defNATSOperationBindings : ClassDef Cls := ⟨.nonExtendable, [
  ⟨p!"queue", none, .union [.str, .none], .null, false, true, some 255⟩,
  ⟨p!"binding_version", (some p!"bindingVersion"), .str, .str p!"0.1.0", false, false, none⟩]⟩

/-- models/bindings/nats.py:54-59 -/
def defNATSMessageBindings : ClassDef Cls := ⟨.nonExtendable, [
]⟩

/-- models/bindings/pulsar.py:19-34 -/
def defPulsarServerBindings : ClassDef Cls := ⟨.nonExtendable, [
  ⟨p!"tenant", none, .str, .str p!"public", false, false, none⟩,
  ⟨p!"binding_version", (some p!"bindingVersion"), .str, .str p!"0.1.0", false, false, none⟩]⟩

/-- models/bindings/pulsar.py:37-53 -/
def defPulsarRetention : ClassDef Cls := ⟨.nonExtendable, [
  ⟨p!"time", none, .union [.int, .none], .int 0, false, true, none⟩,
  ⟨p!"size", none, .union [.int, .none], .int 0, false, true, none⟩]⟩

/-- models/bindings/pulsar.py:56-107 -/
def defPulsarChannelBindings : ClassDef Cls := ⟨.nonExtendable, [
  ⟨p!"namespace", none, .str, .required, false, false, none⟩,
  ⟨p!"persistence", none, .lit [.s p!"persistent", .s p!"non-persistent"], .required, false, false, none⟩,
  ⟨p!"compaction", none, .union [.int, .none], .null, false, true, none⟩,
  ⟨p!"geo_replication", (some p!"geo-replication"), .union [.list (.str), .none], .null, false, true, none⟩,
  ⟨p!"retention", none, .union [.model .PulsarRetention, .none], .null, false, true, none⟩,
  ⟨p!"ttl", none, .union [.int, .none], .null, false, true, none⟩,
  ⟨p!"deduplication", none, .union [.bool, .none], .null, false, true, none⟩,
  ⟨p!"binding_version", (some p!"bindingVersion"), .str, .str p!"0.1.0", false, false, none⟩]⟩

/-- models/bindings/pulsar.py:110-115 -/
def defPulsarOperationBindings : ClassDef Cls := ⟨.nonExtendable, [
]⟩

/-- models/bindings/pulsar.py:118-123 -/
def defPulsarMessageBindings : ClassDef Cls := ⟨.nonExtendable, [
]⟩

/-- models/bindings/redis.py:13-18 -/
def defRedisServerBindings : ClassDef Cls := ⟨.nonExtendable, [
]⟩

/-- models/bindings/redis.py:21-26 -/
def defRedisChannelBindings : ClassDef Cls := ⟨.nonExtendable, [
]⟩

/-- models/bindings/redis.py:29-34 -/
def defRedisOperationBindings : ClassDef Cls := ⟨.nonExtendable, [
]⟩

/-- models/bindings/redis.py:37-42 -/
def defRedisMessageBindings : ClassDef Cls := ⟨.nonExtendable, [
]⟩

/-- models/bindings/sns.py:25-30 -/
def defSNSServerBindings : ClassDef Cls := ⟨.nonExtendable, [
]⟩

/-- models/bindings/sns.py:33-52 -/
def defSNSOrdering : ClassDef Cls := ⟨.nonExtendable, [
  ⟨p!"type", none, .lit [.s p!"standard", .s p!"FIFO"], .required, false, false, none⟩,
  ⟨p!"content_based_deduplication", (some p!"contentBasedDeduplication"), .bool, .bool false, false, false, none⟩]⟩

/-- models/bindings/sns.py:55-87 -/
def defSNSStatement : ClassDef Cls := ⟨.nonExtendable, [
  ⟨p!"effect", none, .lit [.s p!"Allow", .s p!"Deny"], .required, false, false, none⟩,
  ⟨p!"principal", none, .union [.str, .dict (.union [.str, .list (.str)])], .required, false, false, none⟩,
  ⟨p!"action", none, .union [.str, .list (.str)], .required, false, false, none⟩,
  ⟨p!"resource", none, .union [.str, .list (.str), .none], .null, false, true, none⟩,
  ⟨p!"condition", none, .union [.dict (.any), .list (.dict (.any)), .none], .null, false, true, none⟩]⟩

/-- models/bindings/sns.py:90-102 -/
def defSNSPolicy : ClassDef Cls := ⟨.nonExtendable, [
  ⟨p!"statements", none, .list (.model .SNSStatement), .required, false, false, none⟩]⟩

/-- models/bindings/sns.py:105-149 -/
def defSNSChannelBindings : ClassDef Cls := ⟨.nonExtendable, [
  ⟨p!"name", none, .str, .required, false, false, none⟩,
  ⟨p!"ordering", none, .union [.model .SNSOrdering, .none], .null, false, true, none⟩,
  ⟨p!"policy", none, .union [.model .SNSPolicy, .none], .null, false, true, none⟩,
  ⟨p!"tags", none, .union [.dict (.any), .none], .null, false, true, none⟩,
  ⟨p!"binding_version", (some p!"bindingVersion"), .str, .str p!"1.0.0", false, false, none⟩]⟩

/-- models/bindings/sns.py:152-195 -/
def defSNSIdentifier : ClassDef Cls := ⟨.nonExtendable, [
  ⟨p!"url", none, .union [.str, .none], .null, false, true, none⟩,
  ⟨p!"email", none, .union [.str, .none], .null, false, true, none⟩,
  ⟨p!"phone", none, .union [.str, .none], .null, false, true, none⟩,
  ⟨p!"arn", none, .union [.str, .none], .null, false, true, none⟩,
  ⟨p!"name", none, .union [.str, .none], .null, false, true, none⟩]⟩

/-- models/bindings/sns.py:198-263 -/
def defSNSDeliveryPolicy : ClassDef Cls := ⟨.nonExtendable, [
  ⟨p!"min_delay_target", (some p!"minDelayTarget"), .union [.int, .none], .null, false, true, none⟩,
  ⟨p!"max_delay_target", (some p!"maxDelayTarget"), .union [.int, .none], .null, false, true, none⟩,
  ⟨p!"num_retries", (some p!"numRetries"), .union [.int, .none], .null, false, true, none⟩,
  ⟨p!"num_no_delay_retries", (some p!"numNoDelayRetries"), .union [.int, .none], .null, false, true, none⟩,
  ⟨p!"num_min_delay_retries", (some p!"numMinDelayRetries"), .union [.int, .none], .null, false, true, none⟩,
  ⟨p!"num_max_delay_retries", (some p!"numMaxDelayRetries"), .union [.int, .none], .null, false, true, none⟩,
  ⟨p!"backoff_function", (some p!"backoffFunction"), .union [.lit [.s p!"arithmetic", .s p!"exponential", .s p!"geometric", .s p!"linear"], .none], .null, false, true, none⟩,
  ⟨p!"max_receives_per_second", (some p!"maxReceivesPerSecond"), .union [.int, .none], .null, false, true, none⟩]⟩

/-- models/bindings/sns.py:266-294 -/
def defSNSRedrivePolicy : ClassDef Cls := ⟨.nonExtendable, [
  ⟨p!"dead_letter_queue", (some p!"deadLetterQueue"), .model .SNSIdentifier, .required, false, false, none⟩,
  ⟨p!"max_receive_count", (some p!"maxReceiveCount"), .union [.int, .none], .null, false, true, none⟩]⟩

/-- models/bindings/sns.py:297-372 -/
def defSNSConsumer : ClassDef Cls := ⟨.nonExtendable, [
  ⟨p!"protocol", none, .lit [.s p!"http", .s p!"https", .s p!"email", .s p!"email-json", .s p!"sms", .s p!"sqs", .s p!"application", .s p!"lambda", .s p!"firehose"], .required, false, false, none⟩,
  ⟨p!"endpoint", none, .model .SNSIdentifier, .required, false, false, none⟩,
  ⟨p!"filter_policy", (some p!"filterPolicy"), .union [.dict (.any), .none], .null, false, true, none⟩,
  ⟨p!"filter_policy_scope", (some p!"filterPolicyScope"), .union [.lit [.s p!"MessageAttributes", .s p!"MessageBody"], .none], .null, false, true, none⟩,
  ⟨p!"raw_message_delivery", (some p!"rawMessageDelivery"), .bool, .required, false, false, none⟩,
  ⟨p!"redrive_policy", (some p!"redrivePolicy"), .union [.model .SNSRedrivePolicy, .none], .null, false, true, none⟩,
  ⟨p!"delivery_policy", (some p!"deliveryPolicy"), .union [.model .SNSDeliveryPolicy, .none], .null, false, true, none⟩,
  ⟨p!"display_name", (some p!"displayName"), .union [.str, .none], .null, false, true, none⟩]⟩

/-- models/bindings/sns.py:375-430 -/
def defSNSOperationBindings : ClassDef Cls := ⟨.nonExtendable, [
  ⟨p!"topic", none, .union [.model .SNSIdentifier, .none], .null, false, true, none⟩,
  ⟨p!"consumers", none, .list (.model .SNSConsumer), .required, false, false, none⟩,
  ⟨p!"delivery_policy", (some p!"deliveryPolicy"), .union [.model .SNSDeliveryPolicy, .none], .null, false, true, none⟩,
  ⟨p!"binding_version", (some p!"bindingVersion"), .str, .str p!"1.0.0", false, false, none⟩]⟩

/-- models/bindings/sns.py:433-438 -/
def defSNSMessageBindings : ClassDef Cls := ⟨.nonExtendable, [
]⟩

/-- models/bindings/solace.py:24-52 -/
def defSolaceServerBindings : ClassDef Cls := ⟨.nonExtendable, [
  ⟨p!"binding_version", (some p!"bindingVersion"), .str, .str p!"0.4.0", false, false, none⟩,
  ⟨p!"msg_vpn", (some p!"msgVpn"), .union [.str, .none], .null, false, true, none⟩,
  ⟨p!"client_name", (some p!"clientName"), .union [.str, .none], .null, false, true, some 160⟩]⟩

/-- models/bindings/solace.py:55-60 -/
def defSolaceChannelBindings : ClassDef Cls := ⟨.nonExtendable, [
]⟩

/-- models/bindings/solace.py:63-113 -/
def defSolaceQueue : ClassDef Cls := ⟨.nonExtendable, [
  ⟨p!"name", none, .union [.str, .none], .null, false, true, none⟩,
  ⟨p!"topic_subscriptions", (some p!"topicSubscriptions"), .union [.list (.str), .none], .null, false, true, none⟩,
  ⟨p!"access_type", (some p!"accessType"), .union [.lit [.s p!"exclusive", .s p!"nonexclusive"], .none], .null, false, true, none⟩,
  ⟨p!"max_msg_spool_size", (some p!"maxMsgSpoolSize"), .union [.str, .none], .null, false, true, none⟩,
  ⟨p!"max_ttl", (some p!"maxTtl"), .union [.str, .none], .null, false, true, none⟩]⟩

/-- models/bindings/solace.py:116-132 -/
def defSolaceTopic : ClassDef Cls := ⟨.nonExtendable, [
  ⟨p!"topic_subscriptions", (some p!"topicSubscriptions"), .union [.list (.str), .none], .null, false, true, none⟩]⟩

/-- models/bindings/solace.py:135-191 -/
def defSolaceDestination : ClassDef Cls := ⟨.nonExtendable, [
  ⟨p!"binding_version", (some p!"bindingVersion"), .str, .str p!"0.4.0", false, false, none⟩,
  ⟨p!"destination_type", (some p!"destinationType"), .lit [.s p!"queue", .s p!"topic"], .required, false, false, none⟩,
  ⟨p!"delivery_mode", (some p!"deliveryMode"), .lit [.s p!"direct", .s p!"persistent"], .str p!"persistent", false, false, none⟩,
  ⟨p!"queue", none, .union [.model .SolaceQueue, .none], .null, false, true, none⟩,
  ⟨p!"topic", none, .union [.model .SolaceTopic, .none], .null, false, true, none⟩]⟩

/-- models/bindings/solace.py:194-245 -/
def defSolaceOperationBindings : ClassDef Cls := ⟨.nonExtendable, [
  ⟨p!"binding_version", (some p!"bindingVersion"), .str, .str p!"0.4.0", false, false, none⟩,
  ⟨p!"destinations", none, .union [.list (.model .SolaceDestination), .none], .null, false, true, none⟩,
  ⟨p!"time_to_live", (some p!"timeToLive"), .union [.int, .model .Schema, .model .Reference, .none], .null, false, true, none⟩,
  ⟨p!"priority", none, .union [.int, .model .Schema, .model .Reference, .none], .null, false, true, none⟩,
  ⟨p!"dmq_eligible", (some p!"dmqEligible"), .union [.bool, .none], .null, false, true, none⟩]⟩

/-- models/bindings/solace.py:248-253 -/
def defSolaceMessageBindings : ClassDef Cls := ⟨.nonExtendable, [
]⟩

/-- models/bindings/sqs.py:23-28 -/
def defSQSServerBindings : ClassDef Cls := ⟨.nonExtendable, [
]⟩

/-- models/bindings/sqs.py:31-63 -/
def defSQSStatement : ClassDef Cls := ⟨.nonExtendable, [
  ⟨p!"effect", none, .lit [.s p!"Allow", .s p!"Deny"], .required, false, false, none⟩,
  ⟨p!"principal", none, .union [.str, .dict (.union [.str, .list (.str)])], .required, false, false, none⟩,
  ⟨p!"action", none, .union [.str, .list (.str)], .required, false, false, none⟩,
  ⟨p!"resource", none, .union [.str, .list (.str), .none], .null, false, true, none⟩,
  ⟨p!"condition", none, .union [.dict (.any), .list (.dict (.any)), .none], .null, false, true, none⟩]⟩

/-- models/bindings/sqs.py:66-79 -/
def defSQSPolicy : ClassDef Cls := ⟨.nonExtendable, [
  ⟨p!"statements", (some p!"Statements"), .list (.model .SQSStatement), .required, false, false, none⟩]⟩

/-- models/bindings/sqs.py:82-106 -/
def defSQSIdentifier : ClassDef Cls := ⟨.nonExtendable, [
  ⟨p!"arn", none, .union [.str, .none], .null, false, true, none⟩,
  ⟨p!"name", none, .union [.str, .none], .null, false, true, none⟩]⟩

/-- models/bindings/sqs.py:109-129 -/
def defSQSRedrivePolicy : ClassDef Cls := ⟨.nonExtendable, [
  ⟨p!"dead_letter_queue", (some p!"deadLetterQueue"), .model .SQSIdentifier, .required, false, false, none⟩,
  ⟨p!"max_receive_count", (some p!"maxReceiveCount"), .union [.int, .none], .null, false, true, none⟩]⟩

/-- models/bindings/sqs.py:132-232 -/
def defSQSQueue : ClassDef Cls := ⟨.nonExtendable, [
  ⟨p!"name", none, .str, .required, false, false, none⟩,
  ⟨p!"fifo_queue", (some p!"fifoQueue"), .bool, .required, false, false, none⟩,
  ⟨p!"deduplication_scope", (some p!"deduplicationScope"), .union [.lit [.s p!"messageGroup", .s p!"queue"], .none], .null, false, true, none⟩,
  ⟨p!"fifo_throughput_limit", (some p!"fifoThroughputLimit"), .union [.lit [.s p!"perQueue", .s p!"perMessageGroupId"], .none], .null, false, true, none⟩,
  ⟨p!"delivery_delay", (some p!"deliveryDelay"), .union [.int, .none], .null, false, true, none⟩,
  ⟨p!"visibility_timeout", (some p!"visibilityTimeout"), .union [.int, .none], .null, false, true, none⟩,
  ⟨p!"receive_message_wait_time", (some p!"receiveMessageWaitTime"), .union [.int, .none], .null, false, true, none⟩,
  ⟨p!"message_retention_period", (some p!"messageRetentionPeriod"), .union [.int, .none], .null, false, true, none⟩,
  ⟨p!"redrive_policy", (some p!"redrivePolicy"), .union [.model .SQSRedrivePolicy, .none], .null, false, true, none⟩,
  ⟨p!"policy", none, .union [.model .SQSPolicy, .none], .null, false, true, none⟩,
  ⟨p!"tags", none, .union [.dict (.any), .none], .null, false, true, none⟩]⟩

/-- models/bindings/sqs.py:235-282 -/
def defSQSChannelBindings : ClassDef Cls := ⟨.nonExtendable, [
  ⟨p!"queue", none, .model .SQSQueue, .required, false, false, none⟩,
  ⟨p!"dead_letter_queue", (some p!"deadLetterQueue"), .union [.model .SQSQueue, .none], .null, false, true, none⟩,
  ⟨p!"binding_version", (some p!"bindingVersion"), .str, .str p!"0.3.0", false, false, none⟩]⟩

/-- models/bindings/sqs.py:285-310 -/
def defSQSOperationBindings : ClassDef Cls := ⟨.nonExtendable, [
  ⟨p!"queues", none, .list (.model .SQSQueue), .required, false, false, none⟩,
  ⟨p!"binding_version", (some p!"bindingVersion"), .str, .str p!"0.3.0", false, false, none⟩]⟩

/-- models/bindings/sqs.py:313-318 -/
def defSQSMessageBindings : ClassDef Cls := ⟨.nonExtendable, [
]⟩

/-- models/bindings/stomp.py:13-18 -/
def defSTOMPServerBindings : ClassDef Cls := ⟨.nonExtendable, [
]⟩

/-- models/bindings/stomp.py:21-26 -/
def defSTOMPChannelBindings : ClassDef Cls := ⟨.nonExtendable, [
]⟩

/-- models/bindings/stomp.py:29-34 -/
def defSTOMPOperationBindings : ClassDef Cls := ⟨.nonExtendable, [
]⟩

/-- models/bindings/stomp.py:37-42 -/
def defSTOMPMessageBindings : ClassDef Cls := ⟨.nonExtendable, [
]⟩

/-- models/bindings/websockets.py:20-25 -/
def defWebSocketsServerBindings : ClassDef Cls := ⟨.nonExtendable, [
]⟩

/-- models/bindings/websockets.py:28-70 -/
def defWebSocketsChannelBindings : ClassDef Cls := ⟨.nonExtendable, [
  ⟨p!"method", none, .union [.lit [.s p!"GET", .s p!"POST"], .none], .null, false, true, none⟩,
  ⟨p!"query", none, .union [.model .Schema, .model .Reference, .none], .null, false, true, none⟩,
  ⟨p!"headers", none, .union [.model .Schema, .model .Reference, .none], .null, false, true, none⟩,
  ⟨p!"binding_version", (some p!"bindingVersion"), .str, .str p!"0.1.0", false, false, none⟩]⟩

/-- models/bindings/websockets.py:73-78 -/
def defWebSocketsOperationBindings : ClassDef Cls := ⟨.nonExtendable, [
]⟩

/-- models/bindings/websockets.py:81-86 -/
def defWebSocketsMessageBindings : ClassDef Cls := ⟨.nonExtendable, [
]⟩

/-- models/info.py:12-39 -/
def defContact : ClassDef Cls := ⟨.extendable, [
  ⟨p!"name", none, .union [.str, .none], .null, false, true, none⟩,
  ⟨p!"url", none, .union [.httpUrl, .none], .null, false, true, none⟩,
  ⟨p!"email", none, .union [.email, .none], .null, false, true, none⟩]⟩

/-- models/info.py:42-59 -/
def defLicense : ClassDef Cls := ⟨.extendable, [
  ⟨p!"name", none, .str, .required, false, false, none⟩,
  ⟨p!"url", none, .union [.httpUrl, .none], .null, false, true, none⟩]⟩

/-- models/info.py:62-119 -/
def defInfo : ClassDef Cls := ⟨.extendable, [
  ⟨p!"title", none, .str, .required, false, false, none⟩,
  ⟨p!"version", none, .str, .required, false, false, none⟩,
  ⟨p!"description", none, .union [.str, .none], .null, false, true, none⟩,
  ⟨p!"terms_of_service", (some p!"termsOfService"), .union [.httpUrl, .none], .null, false, true, none⟩,
  ⟨p!"contact", none, .union [.model .Contact, .none], .null, false, true, none⟩,
  ⟨p!"license", none, .union [.model .License, .none], .null, false, true, none⟩,
  ⟨p!"tags", none, .union [.list (.union [.model .Tag, .model .Reference]), .none], .null, false, true, none⟩,
  ⟨p!"external_docs", (some p!"externalDocs"), .union [.model .ExternalDocumentation, .model .Reference, .none], .null, false, true, none⟩]⟩

/-- models/server.py:19-56 -/
def defServerVariable : ClassDef Cls := ⟨.extendable, [
  ⟨p!"enum", none, .union [.list (.str), .none], .null, false, true, none⟩,
  ⟨p!"default", none, .union [.str, .none], .null, false, true, none⟩,
  ⟨p!"description", none, .union [.str, .none], .null, false, true, none⟩,
  ⟨p!"examples", none, .union [.list (.str), .none], .null, false, true, none⟩]⟩

/-- models/server.py:59-153 -/
def defServer : ClassDef Cls := ⟨.extendable, [
  ⟨p!"host", none, .str, .required, false, false, none⟩,
  ⟨p!"protocol", none, .str, .required, false, false, none⟩,
  ⟨p!"protocol_version", (some p!"protocolVersion"), .union [.str, .none], .null, false, true, none⟩,
  ⟨p!"pathname", none, .union [.str, .none], .null, false, true, none⟩,
  ⟨p!"description", none, .union [.str, .none], .null, false, true, none⟩,
  ⟨p!"title", none, .union [.str, .none], .null, false, true, none⟩,
  ⟨p!"summary", none, .union [.str, .none], .null, false, true, none⟩,
  ⟨p!"variables", none, .union [.dict (.union [.model .ServerVariable, .model .Reference]), .none], .null, false, true, none⟩,
  ⟨p!"security", none, .union [.list (.union [.model .SecurityScheme, .model .Reference]), .none], .null, false, true, none⟩,
  ⟨p!"tags", none, .union [.list (.union [.model .Tag, .model .Reference]), .none], .null, false, true, none⟩,
  ⟨p!"external_docs", (some p!"externalDocs"), .union [.model .ExternalDocumentation, .model .Reference, .none], .null, false, true, none⟩,
  ⟨p!"bindings", none, .union [.model .ServerBindingsObject, .model .Reference, .none], .null, false, true, none⟩]⟩

/-- models/server.py:156-162 -/
def defServers : ClassDef Cls := ⟨.patterned, [
  ⟨p!"root", none, .dict (.union [.model .Server, .model .Reference]), .required, false, false, none⟩]⟩

/-- models/channel.py:21-65 -/
def defParameter : ClassDef Cls := ⟨.extendable, [
  ⟨p!"enum", none, .union [.list (.str), .none], .null, false, true, none⟩,
  ⟨p!"default", none, .union [.str, .none], .null, false, true, none⟩,
  ⟨p!"description", none, .union [.str, .none], .null, false, true, none⟩,
  ⟨p!"examples", none, .union [.list (.str), .none], .null, false, true, none⟩,
  ⟨p!"location", none, .union [.str, .none], .null, false, true, none⟩]⟩

/-- models/channel.py:68-74 -/
def defParameters : ClassDef Cls := ⟨.patterned, [
  ⟨p!"root", none, .dict (.union [.model .Parameter, .model .Reference]), .required, false, false, none⟩]⟩

/-- models/channel.py:77-198 -/
def defChannel : ClassDef Cls := ⟨.extendable, [
  ⟨p!"address", none, .union [.str, .none], .null, false, false, none⟩,
  ⟨p!"messages", none, .union [.model .Messages, .none], .null, false, true, none⟩,
  ⟨p!"title", none, .union [.str, .none], .null, false, true, none⟩,
  ⟨p!"summary", none, .union [.str, .none], .null, false, true, none⟩,
  ⟨p!"description", none, .union [.str, .none], .null, false, true, none⟩,
  ⟨p!"servers", none, .union [.list (.model .Reference), .none], .null, false, true, none⟩,
  ⟨p!"parameters", none, .union [.model .Parameters, .none], .null, false, true, none⟩,
  ⟨p!"tags", none, .union [.list (.union [.model .Tag, .model .Reference]), .none], .null, false, true, none⟩,
  ⟨p!"external_docs", (some p!"externalDocs"), .union [.model .ExternalDocumentation, .model .Reference, .none], .null, false, true, none⟩,
  ⟨p!"bindings", none, .union [.model .ChannelBindingsObject, .model .Reference, .none], .null, false, true, none⟩]⟩

/-- models/channel.py:201-207 -/
def defChannels : ClassDef Cls := ⟨.patterned, [
  ⟨p!"root", none, .dict (.union [.model .Channel, .model .Reference]), .required, false, false, none⟩]⟩

/-- models/message.py:22-72 -/
def defMessageExample : ClassDef Cls := ⟨.extendable, [
  ⟨p!"headers", none, .union [.dict (.any), .none], .null, false, true, none⟩,
  ⟨p!"payload", none, .union [.any, .none], .null, false, true, none⟩,
  ⟨p!"name", none, .union [.str, .none], .null, false, true, none⟩,
  ⟨p!"summary", none, .union [.str, .none], .null, false, true, none⟩]⟩

/-- models/message.py:75-165 -/
def defMessageTrait : ClassDef Cls := ⟨.extendable, [
  ⟨p!"headers", none, .union [.model .MultiFormatSchema, .model .Schema, .model .Reference, .none], .null, false, true, none⟩,
  ⟨p!"correlation_id", (some p!"correlationId"), .union [.model .CorrelationID, .model .Reference, .none], .null, false, true, none⟩,
  ⟨p!"content_type", (some p!"contentType"), .union [.str, .none], .null, false, true, none⟩,
  ⟨p!"name", none, .union [.str, .none], .null, false, true, none⟩,
  ⟨p!"title", none, .union [.str, .none], .null, false, true, none⟩,
  ⟨p!"summary", none, .union [.str, .none], .null, false, true, none⟩,
  ⟨p!"description", none, .union [.str, .none], .null, false, true, none⟩,
  ⟨p!"tags", none, .union [.list (.union [.model .Tag, .model .Reference]), .none], .null, false, true, none⟩,
  ⟨p!"external_docs", (some p!"externalDocs"), .union [.model .ExternalDocumentation, .model .Reference, .none], .null, false, true, none⟩,
  ⟨p!"bindings", none, .union [.model .MessageBindingsObject, .model .Reference, .none], .null, false, true, none⟩,
  ⟨p!"examples", none, .union [.list (.model .MessageExample), .none], .null, false, true, none⟩]⟩

/-- models/message.py:168-275 -/
def defMessage : ClassDef Cls := ⟨.extendable, [
  ⟨p!"headers", none, .union [.model .MultiFormatSchema, .model .Schema, .model .Reference, .none], .null, false, true, none⟩,
  ⟨p!"payload", none, .union [.model .MultiFormatSchema, .model .Schema, .model .Reference, .none], .null, false, true, none⟩,
  ⟨p!"correlation_id", (some p!"correlationId"), .union [.model .CorrelationID, .model .Reference, .none], .null, false, true, none⟩,
  ⟨p!"content_type", (some p!"contentType"), .union [.str, .none], .null, false, true, none⟩,
  ⟨p!"name", none, .union [.str, .none], .null, false, true, none⟩,
  ⟨p!"title", none, .union [.str, .none], .null, false, true, none⟩,
  ⟨p!"summary", none, .union [.str, .none], .null, false, true, none⟩,
  ⟨p!"description", none, .union [.str, .none], .null, false, true, none⟩,
  ⟨p!"tags", none, .union [.list (.union [.model .Tag, .model .Reference]), .none], .null, false, true, none⟩,
  ⟨p!"external_docs", (some p!"externalDocs"), .union [.model .ExternalDocumentation, .model .Reference, .none], .null, false, true, none⟩,
  ⟨p!"bindings", none, .union [.model .MessageBindingsObject, .model .Reference, .none], .null, false, true, none⟩,
  ⟨p!"examples", none, .union [.list (.model .MessageExample), .none], .null, false, true, none⟩,
  ⟨p!"traits", none, .union [.list (.union [.model .MessageTrait, .model .Reference]), .none], .null, false, true, none⟩]⟩

/-- models/message.py:278-284 -/
def defMessages : ClassDef Cls := ⟨.patterned, [
  ⟨p!"root", none, .dict (.union [.model .Message, .model .Reference]), .required, false, false, none⟩]⟩

/-- models/operation.py:22-47 -/
def defOperationReplyAddress : ClassDef Cls := ⟨.extendable, [
  ⟨p!"location", none, .str, .required, false, false, none⟩,
  ⟨p!"description", none, .union [.str, .none], .null, false, true, none⟩]⟩

/-- models/operation.py:50-105 -/
def defOperationReply : ClassDef Cls := ⟨.extendable, [
  ⟨p!"address", none, .union [.model .OperationReplyAddress, .model .Reference, .none], .null, false, true, none⟩,
  ⟨p!"channel", none, .union [.model .Reference, .none], .null, false, true, none⟩,
  ⟨p!"messages", none, .union [.list (.model .Reference), .none], .null, false, true, none⟩]⟩

/-- models/operation.py:108-169 -/
def defOperationTrait : ClassDef Cls := ⟨.extendable, [
  ⟨p!"title", none, .union [.str, .none], .null, false, true, none⟩,
  ⟨p!"summary", none, .union [.str, .none], .null, false, true, none⟩,
  ⟨p!"description", none, .union [.str, .none], .null, false, true, none⟩,
  ⟨p!"security", none, .union [.list (.union [.model .SecurityScheme, .model .Reference]), .none], .null, false, true, none⟩,
  ⟨p!"tags", none, .union [.list (.union [.model .Tag, .model .Reference]), .none], .null, false, true, none⟩,
  ⟨p!"external_docs", (some p!"externalDocs"), .union [.model .ExternalDocumentation, .model .Reference, .none], .null, false, true, none⟩,
  ⟨p!"bindings", none, .union [.model .OperationBindingsObject, .model .Reference, .none], .null, false, true, none⟩]⟩

/-- models/operation.py:172-286 -/
def defOperation : ClassDef Cls := ⟨.extendable, [
  ⟨p!"action", none, .lit [.s p!"send", .s p!"receive"], .required, false, false, none⟩,
  ⟨p!"channel", none, .model .Reference, .required, false, false, none⟩,
  ⟨p!"title", none, .union [.str, .none], .null, false, true, none⟩,
  ⟨p!"summary", none, .union [.str, .none], .null, false, true, none⟩,
  ⟨p!"description", none, .union [.str, .none], .null, false, true, none⟩,
  ⟨p!"security", none, .union [.list (.union [.model .SecurityScheme, .model .Reference]), .none], .null, false, true, none⟩,
  ⟨p!"tags", none, .union [.list (.union [.model .Tag, .model .Reference]), .none], .null, false, true, none⟩,
  ⟨p!"external_docs", (some p!"externalDocs"), .union [.model .ExternalDocumentation, .model .Reference, .none], .null, false, true, none⟩,
  ⟨p!"bindings", none, .union [.model .OperationBindingsObject, .model .Reference, .none], .null, false, true, none⟩,
  ⟨p!"traits", none, .union [.list (.union [.model .OperationTrait, .model .Reference]), .none], .null, false, true, none⟩,
  ⟨p!"messages", none, .union [.list (.model .Reference), .none], .null, false, true, none⟩,
  ⟨p!"reply", none, .union [.model .OperationReply, .model .Reference, .none], .null, false, true, none⟩]⟩

/-- models/operation.py:289-295 -/
def defOperations : ClassDef Cls := ⟨.patterned, [
  ⟨p!"root", none, .dict (.union [.model .Operation, .model .Reference]), .required, false, false, none⟩]⟩

/-- models/components.py:45-51 -/
def defSchemas : ClassDef Cls := ⟨.patterned, [
  ⟨p!"root", none, .dict (.union [.model .MultiFormatSchema, .model .Schema, .model .Reference]), .required, false, false, none⟩]⟩

/-- models/components.py:54-60 -/
def defSecuritySchemes : ClassDef Cls := ⟨.patterned, [
  ⟨p!"root", none, .dict (.union [.model .SecurityScheme, .model .Reference]), .required, false, false, none⟩]⟩

/-- models/components.py:63-69 -/
def defServerVariables : ClassDef Cls := ⟨.patterned, [
  ⟨p!"root", none, .dict (.union [.model .ServerVariable, .model .Reference]), .required, false, false, none⟩]⟩

/-- models/components.py:72-78 -/
def defCorrelationIDs : ClassDef Cls := ⟨.patterned, [
  ⟨p!"root", none, .dict (.union [.model .CorrelationID, .model .Reference]), .required, false, false, none⟩]⟩

/-- models/components.py:81-87 -/
def defReplies : ClassDef Cls := ⟨.patterned, [
  ⟨p!"root", none, .dict (.union [.model .OperationReply, .model .Reference]), .required, false, false, none⟩]⟩

/-- models/components.py:90-96 -/
def defReplyAddresses : ClassDef Cls := ⟨.patterned, [
  ⟨p!"root", none, .dict (.union [.model .OperationReplyAddress, .model .Reference]), .required, false, false, none⟩]⟩

/-- models/components.py:99-105 -/
def defExternalDocs : ClassDef Cls := ⟨.patterned, [
  ⟨p!"root", none, .dict (.union [.model .ExternalDocumentation, .model .Reference]), .required, false, false, none⟩]⟩

/-- models/components.py:108-114 -/
def defComponentsTags : ClassDef Cls := ⟨.patterned, [
  ⟨p!"root", none, .dict (.union [.model .Tag, .model .Reference]), .required, false, false, none⟩]⟩

/-- models/components.py:117-123 -/
def defOperationTraits : ClassDef Cls := ⟨.patterned, [
  ⟨p!"root", none, .dict (.union [.model .OperationTrait, .model .Reference]), .required, false, false, none⟩]⟩

/-- models/components.py:126-132 -/
def defMessageTraits : ClassDef Cls := ⟨.patterned, [
  ⟨p!"root", none, .dict (.union [.model .MessageTrait, .model .Reference]), .required, false, false, none⟩]⟩

/-- models/components.py:135-141 -/
def defServerBindings : ClassDef Cls := ⟨.patterned, [
  ⟨p!"root", none, .dict (.union [.model .ServerBindingsObject, .model .Reference]), .required, false, false, none⟩]⟩

/-- models/components.py:144-150 -/
def defChannelBindings : ClassDef Cls := ⟨.patterned, [
  ⟨p!"root", none, .dict (.union [.model .ChannelBindingsObject, .model .Reference]), .required, false, false, none⟩]⟩

/-- models/components.py:153-159 -/
def defOperationBindings : ClassDef Cls := ⟨.patterned, [
  ⟨p!"root", none, .dict (.union [.model .OperationBindingsObject, .model .Reference]), .required, false, false, none⟩]⟩

/-- models/components.py:162-168 -/
def defMessageBindings : ClassDef Cls := ⟨.patterned, [
  ⟨p!"root", none, .dict (.union [.model .MessageBindingsObject, .model .Reference]), .required, false, false, none⟩]⟩

/-- models/components.py:171-292 -/
def defComponents : ClassDef Cls := ⟨.extendable, [
  ⟨p!"schemas", none, .union [.model .Schemas, .none], .null, false, true, none⟩,
  ⟨p!"servers", none, .union [.model .Servers, .none], .null, false, true, none⟩,
  ⟨p!"channels", none, .union [.model .Channels, .none], .null, false, true, none⟩,
  ⟨p!"operations", none, .union [.model .Operations, .none], .null, false, true, none⟩,
  ⟨p!"messages", none, .union [.model .Messages, .none], .null, false, true, none⟩,
  ⟨p!"security_schemes", (some p!"securitySchemes"), .union [.model .SecuritySchemes, .none], .null, false, true, none⟩,
  ⟨p!"server_variables", (some p!"serverVariables"), .union [.model .ServerVariables, .none], .null, false, true, none⟩,
  ⟨p!"parameters", none, .union [.model .Parameters, .none], .null, false, true, none⟩,
  ⟨p!"correlation_ids", (some p!"correlationIds"), .union [.model .CorrelationIDs, .none], .null, false, true, none⟩,
  ⟨p!"replies", none, .union [.model .Replies, .none], .null, false, true, none⟩,
  ⟨p!"reply_addresses", (some p!"replyAddresses"), .union [.model .ReplyAddresses, .none], .null, false, true, none⟩,
  ⟨p!"external_docs", (some p!"externalDocs"), .union [.model .ExternalDocs, .none], .null, false, true, none⟩,
  ⟨p!"tags", none, .union [.model .ComponentsTags, .none], .null, false, true, none⟩,
  ⟨p!"operation_traits", (some p!"operationTraits"), .union [.model .OperationTraits, .none], .null, false, true, none⟩,
  ⟨p!"message_traits", (some p!"messageTraits"), .union [.model .MessageTraits, .none], .null, false, true, none⟩,
  ⟨p!"server_bindings", (some p!"serverBindings"), .union [.model .ServerBindings, .none], .null, false, true, none⟩,
  ⟨p!"channel_bindings", (some p!"channelBindings"), .union [.model .ChannelBindings, .none], .null, false, true, none⟩,
  ⟨p!"operation_bindings", (some p!"operationBindings"), .union [.model .OperationBindings, .none], .null, false, true, none⟩,
  ⟨p!"message_bindings", (some p!"messageBindings"), .union [.model .MessageBindings, .none], .null, false, true, none⟩]⟩

/-- models/asyncapi.py:60-296 -/
def defAsyncAPI3 : ClassDef Cls := ⟨.extendable, [
  ⟨p!"asyncapi", none, .str, .str p!"3.0.0", false, false, none⟩,
  ⟨p!"id", none, .union [.anyUrl, .none], .null, false, true, none⟩,
  ⟨p!"info", none, .model .Info, .required, false, false, none⟩,
  ⟨p!"servers", none, .union [.model .Servers, .none], .null, false, true, none⟩,
  ⟨p!"default_content_type", (some p!"defaultContentType"), .union [.str, .none], .null, false, true, none⟩,
  ⟨p!"channels", none, .union [.model .Channels, .none], .null, false, true, none⟩,
  ⟨p!"operations", none, .union [.model .Operations, .none], .null, false, true, none⟩,
  ⟨p!"components", none, .union [.model .Components, .none], .null, false, true, none⟩,
  ⟨p!"extra_converters", none, .union [.list (.processors), .none], .null, true, false, none⟩,
  ⟨p!"extra_validators", none, .union [.list (.processors), .none], .null, true, false, none⟩]⟩

/-- The declaration of each class. -/
def classDef : Cls → ClassDef Cls
  | .Reference => defReference
  | .ExternalDocumentation => defExternalDocumentation
  | .Tag => defTag
  | .Schema => defSchema
  | .MultiFormatSchema => defMultiFormatSchema
  | .CorrelationID => defCorrelationID
  | .OAuthFlow => defOAuthFlow
  | .OAuthFlows => defOAuthFlows
  | .SecurityScheme => defSecurityScheme
  | .AMQPServerBindings => defAMQPServerBindings
  | .AMQPExchange => defAMQPExchange
  | .AMQPQueue => defAMQPQueue
  | .AMQPChannelBindings => defAMQPChannelBindings
  | .AMQPOperationBindings => defAMQPOperationBindings
  | .AMQPMessageBindings => defAMQPMessageBindings
  | .AMQP1ServerBindings => defAMQP1ServerBindings
  | .AMQP1ChannelBindings => defAMQP1ChannelBindings
  | .AMQP1OperationBindings => defAMQP1OperationBindings
  | .AMQP1MessageBindings => defAMQP1MessageBindings
  | .AnypointMQServerBindings => defAnypointMQServerBindings
  | .AnypointMQChannelBindings => defAnypointMQChannelBindings
  | .AnypointMQOperationBindings => defAnypointMQOperationBindings
  | .AnypointMQMessageBindings => defAnypointMQMessageBindings
  | .ServerBindingsObject => defServerBindingsObject
  | .ChannelBindingsObject => defChannelBindingsObject
  | .OperationBindingsObject => defOperationBindingsObject
  | .MessageBindingsObject => defMessageBindingsObject
  | .GooglePubSubServerBindings => defGooglePubSubServerBindings
  | .GooglePubSubMessageStoragePolicy => defGooglePubSubMessageStoragePolicy
  | .GooglePubSubSchemaSettings => defGooglePubSubSchemaSettings
  | .GooglePubSubChannelBindings => defGooglePubSubChannelBindings
  | .GooglePubSubOperationBindings => defGooglePubSubOperationBindings
  | .GooglePubSubSchemaDefinition => defGooglePubSubSchemaDefinition
  | .GooglePubSubMessageBindings => defGooglePubSubMessageBindings
  | .HTTPServerBindings => defHTTPServerBindings
  | .HTTPChannelBindings => defHTTPChannelBindings
  | .HTTPOperationBindings => defHTTPOperationBindings
  | .HTTPMessageBindings => defHTTPMessageBindings
  | .IBMMQServerBindings => defIBMMQServerBindings
  | .IBMMQQueue => defIBMMQQueue
  | .IBMMQTopic => defIBMMQTopic
  | .IBMMQChannelBindings => defIBMMQChannelBindings
  | .IBMMQOperationBindings => defIBMMQOperationBindings
  | .IBMMQMessageBindings => defIBMMQMessageBindings
  | .JMSServerBindings => defJMSServerBindings
  | .JMSChannelBindings => defJMSChannelBindings
  | .JMSOperationBindings => defJMSOperationBindings
  | .JMSMessageBindings => defJMSMessageBindings
  | .KafkaServerBindings => defKafkaServerBindings
  | .KafkaTopicConfiguration => defKafkaTopicConfiguration
  | .KafkaChannelBindings => defKafkaChannelBindings
  | .KafkaOperationBindings => defKafkaOperationBindings
  | .KafkaMessageBindings => defKafkaMessageBindings
  | .MercureServerBindings => defMercureServerBindings
  | .MercureChannelBindings => defMercureChannelBindings
  | .MercureOperationBindings => defMercureOperationBindings
  | .MercureMessageBindings => defMercureMessageBindings
  | .MQTTLastWill => defMQTTLastWill
  | .MQTTServerBindings => defMQTTServerBindings
  | .MQTTChannelBindings => defMQTTChannelBindings
  | .MQTTOperationBindings => defMQTTOperationBindings
  | .MQTTMessageBindings => defMQTTMessageBindings
  | .MQTT5ServerBindings => defMQTT5ServerBindings
  | .MQTT5ChannelBindings => defMQTT5ChannelBindings
  | .MQTT5OperationBindings => defMQTT5OperationBindings
  | .MQTT5MessageBindings => defMQTT5MessageBindings
  | .NATSServerBindings => defNATSServerBindings
  | .NATSChannelBindings => defNATSChannelBindings
  | .NATSOperationBindings => defNATSOperationBindings
  | .NATSMessageBindings => defNATSMessageBindings
  | .PulsarServerBindings => defPulsarServerBindings
  | .PulsarRetention => defPulsarRetention
  | .PulsarChannelBindings => defPulsarChannelBindings
  | .PulsarOperationBindings => defPulsarOperationBindings
  | .PulsarMessageBindings => defPulsarMessageBindings
  | .RedisServerBindings => defRedisServerBindings
  | .RedisChannelBindings => defRedisChannelBindings
  | .RedisOperationBindings => defRedisOperationBindings
  | .RedisMessageBindings => defRedisMessageBindings
  | .SNSServerBindings => defSNSServerBindings
  | .SNSOrdering => defSNSOrdering
  | .SNSStatement => defSNSStatement
  | .SNSPolicy => defSNSPolicy
  | .SNSChannelBindings => defSNSChannelBindings
  | .SNSIdentifier => defSNSIdentifier
  | .SNSDeliveryPolicy => defSNSDeliveryPolicy
  | .SNSRedrivePolicy => defSNSRedrivePolicy
  | .SNSConsumer => defSNSConsumer
  | .SNSOperationBindings => defSNSOperationBindings
  | .SNSMessageBindings => defSNSMessageBindings
  | .SolaceServerBindings => defSolaceServerBindings
  | .SolaceChannelBindings => defSolaceChannelBindings
  | .SolaceQueue => defSolaceQueue
  | .SolaceTopic => defSolaceTopic
  | .SolaceDestination => defSolaceDestination
  | .SolaceOperationBindings => defSolaceOperationBindings
  | .SolaceMessageBindings => defSolaceMessageBindings
  | .SQSServerBindings => defSQSServerBindings
  | .SQSStatement => defSQSStatement
  | .SQSPolicy => defSQSPolicy
  | .SQSIdentifier => defSQSIdentifier
  | .SQSRedrivePolicy => defSQSRedrivePolicy
  | .SQSQueue => defSQSQueue
  | .SQSChannelBindings => defSQSChannelBindings
  | .SQSOperationBindings => defSQSOperationBindings
  | .SQSMessageBindings => defSQSMessageBindings
  | .STOMPServerBindings => defSTOMPServerBindings
  | .STOMPChannelBindings => defSTOMPChannelBindings
  | .STOMPOperationBindings => defSTOMPOperationBindings
  | .STOMPMessageBindings => defSTOMPMessageBindings
  | .WebSocketsServerBindings => defWebSocketsServerBindings
  | .WebSocketsChannelBindings => defWebSocketsChannelBindings
  | .WebSocketsOperationBindings => defWebSocketsOperationBindings
  | .WebSocketsMessageBindings => defWebSocketsMessageBindings
  | .Contact => defContact
  | .License => defLicense
  | .Info => defInfo
  | .ServerVariable => defServerVariable
  | .Server => defServer
  | .Servers => defServers
  | .Parameter => defParameter
  | .Parameters => defParameters
  | .Channel => defChannel
  | .Channels => defChannels
  | .MessageExample => defMessageExample
  | .MessageTrait => defMessageTrait
  | .Message => defMessage
  | .Messages => defMessages
  | .OperationReplyAddress => defOperationReplyAddress
  | .OperationReply => defOperationReply
  | .OperationTrait => defOperationTrait
  | .Operation => defOperation
  | .Operations => defOperations
  | .Schemas => defSchemas
  | .SecuritySchemes => defSecuritySchemes
  | .ServerVariables => defServerVariables
  | .CorrelationIDs => defCorrelationIDs
  | .Replies => defReplies
  | .ReplyAddresses => defReplyAddresses
  | .ExternalDocs => defExternalDocs
  | .ComponentsTags => defComponentsTags
  | .OperationTraits => defOperationTraits
  | .MessageTraits => defMessageTraits
  | .ServerBindings => defServerBindings
  | .ChannelBindings => defChannelBindings
  | .OperationBindings => defOperationBindings
  | .MessageBindings => defMessageBindings
  | .Components => defComponents
  | .AsyncAPI3 => defAsyncAPI3

/-- The class table used by the validators: `model_fields` of each class; the
package has no subclassing among the concrete classes. -/
def table : ClassTable Cls where
  fields c := (classDef c).fields.map fun f => ⟨f.name, f.alias, f.exclude⟩
  sub c d := decide (c = d)
  reference := .Reference

theorem Cls.mem_all (c : Cls) : c ∈ Cls.all := by cases c <;> decide

end Verif.Gen
