import Verif.Gen.Classes
/-!
Generated by tools/gen_classnames.py. Do not edit.
-/
namespace Verif.Gen
open Verif

/-- `__name__` of each class of asyncapi3/models. -/
def className : Cls → Str
  | .Reference => p!"Reference"
  | .ExternalDocumentation => p!"ExternalDocumentation"
  | .Tag => p!"Tag"
  | .Schema => p!"Schema"
  | .MultiFormatSchema => p!"MultiFormatSchema"
  | .CorrelationID => p!"CorrelationID"
  | .OAuthFlow => p!"OAuthFlow"
  | .OAuthFlows => p!"OAuthFlows"
  | .SecurityScheme => p!"SecurityScheme"
  | .AMQPServerBindings => p!"AMQPServerBindings"
  | .AMQPExchange => p!"AMQPExchange"
  | .AMQPQueue => p!"AMQPQueue"
  | .AMQPChannelBindings => p!"AMQPChannelBindings"
  | .AMQPOperationBindings => p!"AMQPOperationBindings"
  | .AMQPMessageBindings => p!"AMQPMessageBindings"
  | .AMQP1ServerBindings => p!"AMQP1ServerBindings"
  | .AMQP1ChannelBindings => p!"AMQP1ChannelBindings"
  | .AMQP1OperationBindings => p!"AMQP1OperationBindings"
  | .AMQP1MessageBindings => p!"AMQP1MessageBindings"
  | .AnypointMQServerBindings => p!"AnypointMQServerBindings"
  | .AnypointMQChannelBindings => p!"AnypointMQChannelBindings"
  | .AnypointMQOperationBindings => p!"AnypointMQOperationBindings"
  | .AnypointMQMessageBindings => p!"AnypointMQMessageBindings"
  | .ServerBindingsObject => p!"ServerBindingsObject"
  | .ChannelBindingsObject => p!"ChannelBindingsObject"
  | .OperationBindingsObject => p!"OperationBindingsObject"
  | .MessageBindingsObject => p!"MessageBindingsObject"
  | .GooglePubSubServerBindings => p!"GooglePubSubServerBindings"
  | .GooglePubSubMessageStoragePolicy => p!"GooglePubSubMessageStoragePolicy"
  | .GooglePubSubSchemaSettings => p!"GooglePubSubSchemaSettings"
  | .GooglePubSubChannelBindings => p!"GooglePubSubChannelBindings"
  | .GooglePubSubOperationBindings => p!"GooglePubSubOperationBindings"
  | .GooglePubSubSchemaDefinition => p!"GooglePubSubSchemaDefinition"
  | .GooglePubSubMessageBindings => p!"GooglePubSubMessageBindings"
  | .HTTPServerBindings => p!"HTTPServerBindings"
  | .HTTPChannelBindings => p!"HTTPChannelBindings"
  | .HTTPOperationBindings => p!"HTTPOperationBindings"
  | .HTTPMessageBindings => p!"HTTPMessageBindings"
  | .IBMMQServerBindings => p!"IBMMQServerBindings"
  | .IBMMQQueue => p!"IBMMQQueue"
  | .IBMMQTopic => p!"IBMMQTopic"
  | .IBMMQChannelBindings => p!"IBMMQChannelBindings"
  | .IBMMQOperationBindings => p!"IBMMQOperationBindings"
  | .IBMMQMessageBindings => p!"IBMMQMessageBindings"
  | .JMSServerBindings => p!"JMSServerBindings"
  | .JMSChannelBindings => p!"JMSChannelBindings"
  | .JMSOperationBindings => p!"JMSOperationBindings"
  | .JMSMessageBindings => p!"JMSMessageBindings"
  | .KafkaServerBindings => p!"KafkaServerBindings"
  | .KafkaTopicConfiguration => p!"KafkaTopicConfiguration"
  | .KafkaChannelBindings => p!"KafkaChannelBindings"
  | .KafkaOperationBindings => p!"KafkaOperationBindings"
  | .KafkaMessageBindings => p!"KafkaMessageBindings"
  | .MercureServerBindings => p!"MercureServerBindings"
  | .MercureChannelBindings => p!"MercureChannelBindings"
  | .MercureOperationBindings => p!"MercureOperationBindings"
  | .MercureMessageBindings => p!"MercureMessageBindings"
  | .MQTTLastWill => p!"MQTTLastWill"
  | .MQTTServerBindings => p!"MQTTServerBindings"
  | .MQTTChannelBindings => p!"MQTTChannelBindings"
  | .MQTTOperationBindings => p!"MQTTOperationBindings"
  | .MQTTMessageBindings => p!"MQTTMessageBindings"
  | .MQTT5ServerBindings => p!"MQTT5ServerBindings"
  | .MQTT5ChannelBindings => p!"MQTT5ChannelBindings"
  | .MQTT5OperationBindings => p!"MQTT5OperationBindings"
  | .MQTT5MessageBindings => p!"MQTT5MessageBindings"
  | .NATSServerBindings => p!"NATSServerBindings"
  | .NATSChannelBindings => p!"NATSChannelBindings"
  | .NATSOperationBindings => p!"NATSOperationBindings"
  | .NATSMessageBindings => p!"NATSMessageBindings"
  | .PulsarServerBindings => p!"PulsarServerBindings"
  | .PulsarRetention => p!"PulsarRetention"
  | .PulsarChannelBindings => p!"PulsarChannelBindings"
  | .PulsarOperationBindings => p!"PulsarOperationBindings"
  | .PulsarMessageBindings => p!"PulsarMessageBindings"
  | .RedisServerBindings => p!"RedisServerBindings"
  | .RedisChannelBindings => p!"RedisChannelBindings"
  | .RedisOperationBindings => p!"RedisOperationBindings"
  | .RedisMessageBindings => p!"RedisMessageBindings"
  | .SNSServerBindings => p!"SNSServerBindings"
  | .SNSOrdering => p!"SNSOrdering"
  | .SNSStatement => p!"SNSStatement"
  | .SNSPolicy => p!"SNSPolicy"
  | .SNSChannelBindings => p!"SNSChannelBindings"
  | .SNSIdentifier => p!"SNSIdentifier"
  | .SNSDeliveryPolicy => p!"SNSDeliveryPolicy"
  | .SNSRedrivePolicy => p!"SNSRedrivePolicy"
  | .SNSConsumer => p!"SNSConsumer"
  | .SNSOperationBindings => p!"SNSOperationBindings"
  | .SNSMessageBindings => p!"SNSMessageBindings"
  | .SolaceServerBindings => p!"SolaceServerBindings"
  | .SolaceChannelBindings => p!"SolaceChannelBindings"
  | .SolaceQueue => p!"SolaceQueue"
  | .SolaceTopic => p!"SolaceTopic"
  | .SolaceDestination => p!"SolaceDestination"
  | .SolaceOperationBindings => p!"SolaceOperationBindings"
  | .SolaceMessageBindings => p!"SolaceMessageBindings"
  | .SQSServerBindings => p!"SQSServerBindings"
  | .SQSStatement => p!"SQSStatement"
  | .SQSPolicy => p!"SQSPolicy"
  | .SQSIdentifier => p!"SQSIdentifier"
  | .SQSRedrivePolicy => p!"SQSRedrivePolicy"
  | .SQSQueue => p!"SQSQueue"
  | .SQSChannelBindings => p!"SQSChannelBindings"
  | .SQSOperationBindings => p!"SQSOperationBindings"
  | .SQSMessageBindings => p!"SQSMessageBindings"
  | .STOMPServerBindings => p!"STOMPServerBindings"
  | .STOMPChannelBindings => p!"STOMPChannelBindings"
  | .STOMPOperationBindings => p!"STOMPOperationBindings"
  | .STOMPMessageBindings => p!"STOMPMessageBindings"
  | .WebSocketsServerBindings => p!"WebSocketsServerBindings"
  | .WebSocketsChannelBindings => p!"WebSocketsChannelBindings"
  | .WebSocketsOperationBindings => p!"WebSocketsOperationBindings"
  | .WebSocketsMessageBindings => p!"WebSocketsMessageBindings"
  | .Contact => p!"Contact"
  | .License => p!"License"
  | .Info => p!"Info"
  | .ServerVariable => p!"ServerVariable"
  | .Server => p!"Server"
  | .Servers => p!"Servers"
  | .Parameter => p!"Parameter"
  | .Parameters => p!"Parameters"
  | .Channel => p!"Channel"
  | .Channels => p!"Channels"
  | .MessageExample => p!"MessageExample"
  | .MessageTrait => p!"MessageTrait"
  | .Message => p!"Message"
  | .Messages => p!"Messages"
  | .OperationReplyAddress => p!"OperationReplyAddress"
  | .OperationReply => p!"OperationReply"
  | .OperationTrait => p!"OperationTrait"
  | .Operation => p!"Operation"
  | .Operations => p!"Operations"
  | .Schemas => p!"Schemas"
  | .SecuritySchemes => p!"SecuritySchemes"
  | .ServerVariables => p!"ServerVariables"
  | .CorrelationIDs => p!"CorrelationIDs"
  | .Replies => p!"Replies"
  | .ReplyAddresses => p!"ReplyAddresses"
  | .ExternalDocs => p!"ExternalDocs"
  | .ComponentsTags => p!"Tags"
  | .OperationTraits => p!"OperationTraits"
  | .MessageTraits => p!"MessageTraits"
  | .ServerBindings => p!"ServerBindings"
  | .ChannelBindings => p!"ChannelBindings"
  | .OperationBindings => p!"OperationBindings"
  | .MessageBindings => p!"MessageBindings"
  | .Components => p!"Components"
  | .AsyncAPI3 => p!"AsyncAPI3"

end Verif.Gen
