import Verif.Conformance.Support

/-! Translated from tests/models/bindings/test_core.py by tools/gen_conformance.py. -/

set_option maxRecDepth 100000
set_option linter.unusedVariables false
namespace Verif.Conformance
open Verif Verif.Gen Verif.Pyd

/-- `test_server_bindings_validation_multiple_protocols`, tests/models/bindings/test_core.py:40 -/
example : (do
  let v1 ← load .ServerBindingsObject (.dict [(p!"mqtt", (.dict [(p!"clientId", (.str p!"guest")), (p!"cleanSession", (.bool true)), (p!"bindingVersion", (.str p!"0.2.0"))])), (p!"kafka", (.dict [(p!"schemaRegistryUrl", (.str p!"https://my-schema-registry.com")), (p!"schemaRegistryVendor", (.str p!"confluent")), (p!"bindingVersion", (.str p!"0.5.0"))]))])
  let v2 ← get v1 p!"mqtt"
  check (!(V.isNone v2))
  let v3 ← get v1 p!"kafka"
  check (!(V.isNone v3))
  let v4 ← get v1 p!"http"
  check (V.isNone v4)
  let v5 ← get v1 p!"ws"
  check (V.isNone v5)
  let v6 ← get v1 p!"mqtt"
  check (isA .MQTTServerBindings v6)
  let v7 ← get v1 p!"mqtt"
  let v8 ← get v7 p!"client_id"
  check (eq v8 (.str p!"guest"))
  let v9 ← get v1 p!"mqtt"
  let v10 ← get v9 p!"clean_session"
  check (eq v10 (.bool true))
  let v11 ← get v1 p!"mqtt"
  let v12 ← get v11 p!"binding_version"
  check (eq v12 (.str p!"0.2.0"))
  let v13 ← get v1 p!"kafka"
  check (isA .KafkaServerBindings v13)
  let v14 ← get v1 p!"kafka"
  let v15 ← get v14 p!"schema_registry_url"
  check (eq v15 (.str p!"https://my-schema-registry.com"))
  let v16 ← get v1 p!"kafka"
  let v17 ← get v16 p!"schema_registry_vendor"
  check (eq v17 (.str p!"confluent"))
  let v18 ← get v1 p!"kafka"
  let v19 ← get v18 p!"binding_version"
  check (eq v19 (.str p!"0.5.0")) : Option Unit).isSome = true := by decide +kernel

/-- `test_server_bindings_validation_single_protocol`, tests/models/bindings/test_core.py:76 -/
example : (do
  let v1 ← load .ServerBindingsObject (.dict [(p!"mqtt", (.dict [(p!"clientId", (.str p!"my-client")), (p!"cleanSession", (.bool false)), (p!"bindingVersion", (.str p!"0.2.0"))]))])
  let v2 ← get v1 p!"mqtt"
  check (!(V.isNone v2))
  let v3 ← get v1 p!"kafka"
  check (V.isNone v3)
  let v4 ← get v1 p!"http"
  check (V.isNone v4)
  let v5 ← get v1 p!"ws"
  check (V.isNone v5)
  let v6 ← get v1 p!"mqtt"
  check (isA .MQTTServerBindings v6)
  let v7 ← get v1 p!"mqtt"
  let v8 ← get v7 p!"client_id"
  check (eq v8 (.str p!"my-client"))
  let v9 ← get v1 p!"mqtt"
  let v10 ← get v9 p!"clean_session"
  check (eq v10 (.bool false))
  let v11 ← get v1 p!"mqtt"
  let v12 ← get v11 p!"binding_version"
  check (eq v12 (.str p!"0.2.0")) : Option Unit).isSome = true := by decide +kernel

/-- `test_server_bindings_validation_empty`, tests/models/bindings/test_core.py:99 -/
example : (do
  let v1 ← load .ServerBindingsObject (.dict [])
  let v2 ← get v1 p!"mqtt"
  check (V.isNone v2)
  let v3 ← get v1 p!"kafka"
  check (V.isNone v3)
  let v4 ← get v1 p!"http"
  check (V.isNone v4)
  let v5 ← get v1 p!"ws"
  check (V.isNone v5)
  let v6 ← get v1 p!"amqp"
  check (V.isNone v6)
  let v7 ← get v1 p!"amqp1"
  check (V.isNone v7) : Option Unit).isSome = true := by decide +kernel

/-- `test_server_bindings_serialization_multiple_protocols`, tests/models/bindings/test_core.py:111 -/
example : (do
  let v1 ← make .MQTTServerBindings [(p!"client_id", (.str p!"guest")), (p!"clean_session", (.bool true))]
  let v2 ← make .KafkaServerBindings [(p!"schema_registry_url", (.str p!"https://my-schema-registry.com")), (p!"schema_registry_vendor", (.str p!"confluent"))]
  let v3 ← make .ServerBindingsObject [(p!"mqtt", v1), (p!"kafka", v2)]
  check (eq (dump v3) (.dict [(p!"mqtt", (.dict [(p!"clientId", (.str p!"guest")), (p!"cleanSession", (.bool true)), (p!"bindingVersion", (.str p!"0.2.0"))])), (p!"kafka", (.dict [(p!"schemaRegistryUrl", (.str p!"https://my-schema-registry.com")), (p!"schemaRegistryVendor", (.str p!"confluent")), (p!"bindingVersion", (.str p!"0.5.0"))]))])) : Option Unit).isSome = true := by decide +kernel

/-- `test_server_bindings_serialization_empty`, tests/models/bindings/test_core.py:134 -/
example : (do
  let v1 ← make .ServerBindingsObject []
  check (eq (dump v1) (.dict [])) : Option Unit).isSome = true := by decide +kernel

/-- `test_channel_bindings_validation_multiple_protocols`, tests/models/bindings/test_core.py:144 -/
example : (do
  let v1 ← load .ChannelBindingsObject (.dict [(p!"kafka", (.dict [(p!"topicConfiguration", (.dict [(p!"cleanup.policy", (.list [(.str p!"delete"), (.str p!"compact")])), (p!"retention.ms", (.int (604800000))), (p!"retention.bytes", (.int (1000000000))), (p!"delete.retention.ms", (.int (86400000))), (p!"max.message.bytes", (.int (1048588)))])), (p!"bindingVersion", (.str p!"0.5.0"))]))])
  let v2 ← get v1 p!"kafka"
  check (!(V.isNone v2))
  let v3 ← get v1 p!"mqtt"
  check (V.isNone v3)
  let v4 ← get v1 p!"http"
  check (V.isNone v4)
  let v5 ← get v1 p!"ws"
  check (V.isNone v5)
  let v6 ← get v1 p!"kafka"
  check (isA .KafkaChannelBindings v6)
  let v7 ← get v1 p!"kafka"
  let v8 ← get v7 p!"topic_configuration"
  let v9 ← get v8 p!"cleanup_policy"
  check (eq v9 (.list [(.str p!"delete"), (.str p!"compact")]))
  let v10 ← get v8 p!"retention_ms"
  check (eq v10 (.int (604800000)))
  let v11 ← get v8 p!"retention_bytes"
  check (eq v11 (.int (1000000000)))
  let v12 ← get v8 p!"delete_retention_ms"
  check (eq v12 (.int (86400000)))
  let v13 ← get v8 p!"max_message_bytes"
  check (eq v13 (.int (1048588)))
  let v14 ← get v1 p!"kafka"
  let v15 ← get v14 p!"binding_version"
  check (eq v15 (.str p!"0.5.0")) : Option Unit).isSome = true := by decide +kernel

/-- `test_channel_bindings_validation_single_protocol`, tests/models/bindings/test_core.py:178 -/
example : (do
  let v1 ← load .ChannelBindingsObject (.dict [(p!"kafka", (.dict [(p!"topic", (.str p!"my-topic")), (p!"partitions", (.int (3))), (p!"replicas", (.int (2))), (p!"bindingVersion", (.str p!"0.5.0"))]))])
  let v2 ← get v1 p!"kafka"
  check (!(V.isNone v2))
  let v3 ← get v1 p!"mqtt"
  check (V.isNone v3)
  let v4 ← get v1 p!"http"
  check (V.isNone v4)
  let v5 ← get v1 p!"ws"
  check (V.isNone v5)
  let v6 ← get v1 p!"kafka"
  check (isA .KafkaChannelBindings v6)
  let v7 ← get v1 p!"kafka"
  let v8 ← get v7 p!"topic"
  check (eq v8 (.str p!"my-topic"))
  let v9 ← get v1 p!"kafka"
  let v10 ← get v9 p!"partitions"
  check (eq v10 (.int (3)))
  let v11 ← get v1 p!"kafka"
  let v12 ← get v11 p!"replicas"
  check (eq v12 (.int (2)))
  let v13 ← get v1 p!"kafka"
  let v14 ← get v13 p!"binding_version"
  check (eq v14 (.str p!"0.5.0")) : Option Unit).isSome = true := by decide +kernel

/-- `test_channel_bindings_validation_empty`, tests/models/bindings/test_core.py:203 -/
example : (do
  let v1 ← load .ChannelBindingsObject (.dict [])
  let v2 ← get v1 p!"kafka"
  check (V.isNone v2)
  let v3 ← get v1 p!"mqtt"
  check (V.isNone v3)
  let v4 ← get v1 p!"http"
  check (V.isNone v4)
  let v5 ← get v1 p!"ws"
  check (V.isNone v5)
  let v6 ← get v1 p!"amqp"
  check (V.isNone v6)
  let v7 ← get v1 p!"amqp1"
  check (V.isNone v7) : Option Unit).isSome = true := by decide +kernel

/-- `test_channel_bindings_serialization_multiple_protocols`, tests/models/bindings/test_core.py:215 -/
example : (do
  let v1 ← make .KafkaChannelBindings [(p!"topic_configuration", (.dict [(p!"cleanup.policy", (.list [(.str p!"delete"), (.str p!"compact")])), (p!"retention.ms", (.int (604800000))), (p!"retention.bytes", (.int (1000000000))), (p!"delete.retention.ms", (.int (86400000))), (p!"max.message.bytes", (.int (1048588)))]))]
  let v2 ← make .SQSQueue [(p!"name", (.str p!"my-queue")), (p!"fifo_queue", (.bool true))]
  let v3 ← make .SQSChannelBindings [(p!"queue", v2)]
  let v4 ← make .ChannelBindingsObject [(p!"kafka", v1), (p!"sqs", v3)]
  check (eq (dump v4) (.dict [(p!"kafka", (.dict [(p!"topicConfiguration", (.dict [(p!"cleanup.policy", (.list [(.str p!"delete"), (.str p!"compact")])), (p!"retention.ms", (.int (604800000))), (p!"retention.bytes", (.int (1000000000))), (p!"delete.retention.ms", (.int (86400000))), (p!"max.message.bytes", (.int (1048588)))])), (p!"bindingVersion", (.str p!"0.5.0"))])), (p!"sqs", (.dict [(p!"queue", (.dict [(p!"name", (.str p!"my-queue")), (p!"fifoQueue", (.bool true))])), (p!"bindingVersion", (.str p!"0.3.0"))]))])) : Option Unit).isSome = true := by decide +kernel

/-- `test_channel_bindings_serialization_empty`, tests/models/bindings/test_core.py:247 -/
example : (do
  let v1 ← make .ChannelBindingsObject []
  check (eq (dump v1) (.dict [])) : Option Unit).isSome = true := by decide +kernel

/-- `test_operation_bindings_validation_multiple_protocols`, tests/models/bindings/test_core.py:257 -/
example : (do
  let v1 ← load .OperationBindingsObject (.dict [(p!"kafka", (.dict [(p!"groupId", (.dict [(p!"type", (.str p!"string")), (p!"enum", (.list [(.str p!"my-app-id")]))])), (p!"clientId", (.dict [(p!"type", (.str p!"string")), (p!"enum", (.list [(.str p!"my-client-id")]))])), (p!"bindingVersion", (.str p!"0.5.0"))])), (p!"mqtt", (.dict [(p!"qos", (.int (1))), (p!"retain", (.bool false)), (p!"bindingVersion", (.str p!"0.2.0"))])), (p!"http", (.dict [(p!"method", (.str p!"POST")), (p!"query", (.dict [(p!"type", (.str p!"object")), (p!"properties", (.dict [(p!"streetlightId", (.dict [(p!"type", (.str p!"string"))]))]))])), (p!"bindingVersion", (.str p!"0.3.0"))]))])
  let v2 ← get v1 p!"kafka"
  check (!(V.isNone v2))
  let v3 ← get v1 p!"mqtt"
  check (!(V.isNone v3))
  let v4 ← get v1 p!"http"
  check (!(V.isNone v4))
  let v5 ← get v1 p!"ws"
  check (V.isNone v5)
  let v6 ← get v1 p!"kafka"
  check (isA .KafkaOperationBindings v6)
  let v7 ← get v1 p!"kafka"
  let v8 ← get v7 p!"group_id"
  let v9 ← make .Schema [(p!"type", (.str p!"string")), (p!"enum", (.list [(.str p!"my-app-id")]))]
  check (eq v8 v9)
  let v10 ← get v1 p!"kafka"
  let v11 ← get v10 p!"client_id"
  let v12 ← make .Schema [(p!"type", (.str p!"string")), (p!"enum", (.list [(.str p!"my-client-id")]))]
  check (eq v11 v12)
  let v13 ← get v1 p!"kafka"
  let v14 ← get v13 p!"binding_version"
  check (eq v14 (.str p!"0.5.0"))
  let v15 ← get v1 p!"mqtt"
  check (isA .MQTTOperationBindings v15)
  let v16 ← get v1 p!"mqtt"
  let v17 ← get v16 p!"qos"
  check (eq v17 (.int (1)))
  let v18 ← get v1 p!"mqtt"
  let v19 ← get v18 p!"retain"
  check (eq v19 (.bool false))
  let v20 ← get v1 p!"mqtt"
  let v21 ← get v20 p!"binding_version"
  check (eq v21 (.str p!"0.2.0"))
  let v22 ← get v1 p!"http"
  check (isA .HTTPOperationBindings v22)
  let v23 ← get v1 p!"http"
  let v24 ← get v23 p!"method"
  check (eq v24 (.str p!"POST"))
  let v25 ← get v1 p!"http"
  let v26 ← get v25 p!"query"
  let v27 ← get v26 p!"type"
  check (eq v27 (.str p!"object"))
  let v28 ← get v1 p!"http"
  let v29 ← get v28 p!"query"
  let v30 ← get v29 p!"properties"
  check (member p!"streetlightId" v30)
  let v31 ← get v1 p!"http"
  let v32 ← get v31 p!"query"
  let v33 ← get v32 p!"properties"
  let v34 ← item v33 p!"streetlightId"
  let v35 ← item v34 p!"type"
  check (eq v35 (.str p!"string"))
  let v36 ← get v1 p!"http"
  let v37 ← get v36 p!"binding_version"
  check (eq v37 (.str p!"0.3.0")) : Option Unit).isSome = true := by decide +kernel

/-- `test_operation_bindings_validation_single_protocol`, tests/models/bindings/test_core.py:318 -/
example : (do
  let v1 ← load .OperationBindingsObject (.dict [(p!"mqtt", (.dict [(p!"qos", (.int (2))), (p!"retain", (.bool true)), (p!"bindingVersion", (.str p!"0.2.0"))]))])
  let v2 ← get v1 p!"mqtt"
  check (!(V.isNone v2))
  let v3 ← get v1 p!"kafka"
  check (V.isNone v3)
  let v4 ← get v1 p!"http"
  check (V.isNone v4)
  let v5 ← get v1 p!"ws"
  check (V.isNone v5)
  let v6 ← get v1 p!"mqtt"
  check (isA .MQTTOperationBindings v6)
  let v7 ← get v1 p!"mqtt"
  let v8 ← get v7 p!"qos"
  check (eq v8 (.int (2)))
  let v9 ← get v1 p!"mqtt"
  let v10 ← get v9 p!"retain"
  check (eq v10 (.bool true))
  let v11 ← get v1 p!"mqtt"
  let v12 ← get v11 p!"binding_version"
  check (eq v12 (.str p!"0.2.0")) : Option Unit).isSome = true := by decide +kernel

/-- `test_operation_bindings_validation_empty`, tests/models/bindings/test_core.py:341 -/
example : (do
  let v1 ← load .OperationBindingsObject (.dict [])
  let v2 ← get v1 p!"kafka"
  check (V.isNone v2)
  let v3 ← get v1 p!"mqtt"
  check (V.isNone v3)
  let v4 ← get v1 p!"http"
  check (V.isNone v4)
  let v5 ← get v1 p!"ws"
  check (V.isNone v5)
  let v6 ← get v1 p!"amqp"
  check (V.isNone v6)
  let v7 ← get v1 p!"amqp1"
  check (V.isNone v7) : Option Unit).isSome = true := by decide +kernel

/-- `test_operation_bindings_serialization_multiple_protocols`, tests/models/bindings/test_core.py:353 -/
example : (do
  let v1 ← make .Schema [(p!"type", (.str p!"string")), (p!"enum", (.list [(.str p!"my-app-id")]))]
  let v2 ← make .Schema [(p!"type", (.str p!"string")), (p!"enum", (.list [(.str p!"my-client-id")]))]
  let v3 ← make .KafkaOperationBindings [(p!"group_id", v1), (p!"client_id", v2)]
  let v4 ← make .MQTTOperationBindings [(p!"qos", (.int (1))), (p!"retain", (.bool false))]
  let v5 ← make .Schema [(p!"type", (.str p!"string"))]
  let v6 ← make .Schema [(p!"type", (.str p!"object")), (p!"properties", (.dict [(p!"streetlightId", v5)]))]
  let v7 ← make .HTTPOperationBindings [(p!"method", (.str p!"POST")), (p!"query", v6)]
  let v8 ← make .OperationBindingsObject [(p!"kafka", v3), (p!"mqtt", v4), (p!"http", v7)]
  check (eq (dump v8) (.dict [(p!"kafka", (.dict [(p!"groupId", (.dict [(p!"type", (.str p!"string")), (p!"enum", (.list [(.str p!"my-app-id")]))])), (p!"clientId", (.dict [(p!"type", (.str p!"string")), (p!"enum", (.list [(.str p!"my-client-id")]))])), (p!"bindingVersion", (.str p!"0.5.0"))])), (p!"mqtt", (.dict [(p!"qos", (.int (1))), (p!"retain", (.bool false)), (p!"bindingVersion", (.str p!"0.2.0"))])), (p!"http", (.dict [(p!"method", (.str p!"POST")), (p!"query", (.dict [(p!"type", (.str p!"object")), (p!"properties", (.dict [(p!"streetlightId", (.dict [(p!"type", (.str p!"string"))]))]))])), (p!"bindingVersion", (.str p!"0.3.0"))]))])) : Option Unit).isSome = true := by decide +kernel

/-- `test_operation_bindings_serialization_empty`, tests/models/bindings/test_core.py:386 -/
example : (do
  let v1 ← make .OperationBindingsObject []
  check (eq (dump v1) (.dict [])) : Option Unit).isSome = true := by decide +kernel

/-- `test_message_bindings_validation_multiple_protocols`, tests/models/bindings/test_core.py:396 -/
example : (do
  let v1 ← load .MessageBindingsObject (.dict [(p!"kafka", (.dict [(p!"key", (.dict [(p!"type", (.str p!"string")), (p!"enum", (.list [(.str p!"my-key")]))])), (p!"bindingVersion", (.str p!"0.5.0"))])), (p!"mqtt", (.dict [(p!"payloadFormatIndicator", (.int (1))), (p!"contentType", (.str p!"application/json")), (p!"bindingVersion", (.str p!"0.2.0"))]))])
  let v2 ← get v1 p!"kafka"
  check (!(V.isNone v2))
  let v3 ← get v1 p!"mqtt"
  check (!(V.isNone v3))
  let v4 ← get v1 p!"http"
  check (V.isNone v4)
  let v5 ← get v1 p!"ws"
  check (V.isNone v5)
  let v6 ← get v1 p!"kafka"
  check (isA .KafkaMessageBindings v6)
  let v7 ← get v1 p!"kafka"
  let v8 ← get v7 p!"key"
  let v9 ← make .Schema [(p!"type", (.str p!"string")), (p!"enum", (.list [(.str p!"my-key")]))]
  check (eq v8 v9)
  let v10 ← get v1 p!"kafka"
  let v11 ← get v10 p!"binding_version"
  check (eq v11 (.str p!"0.5.0"))
  let v12 ← get v1 p!"mqtt"
  check (isA .MQTTMessageBindings v12)
  let v13 ← get v1 p!"mqtt"
  let v14 ← get v13 p!"payload_format_indicator"
  check (eq v14 (.int (1)))
  let v15 ← get v1 p!"mqtt"
  let v16 ← get v15 p!"content_type"
  check (eq v16 (.str p!"application/json"))
  let v17 ← get v1 p!"mqtt"
  let v18 ← get v17 p!"binding_version"
  check (eq v18 (.str p!"0.2.0")) : Option Unit).isSome = true := by decide +kernel

/-- `test_message_bindings_validation_single_protocol`, tests/models/bindings/test_core.py:430 -/
example : (do
  let v1 ← load .MessageBindingsObject (.dict [(p!"http", (.dict [(p!"headers", (.dict [(p!"type", (.str p!"object")), (p!"properties", (.dict [(p!"Content-Type", (.dict [(p!"type", (.str p!"string")), (p!"enum", (.list [(.str p!"application/json")]))]))]))])), (p!"bindingVersion", (.str p!"0.3.0"))]))])
  let v2 ← get v1 p!"http"
  check (!(V.isNone v2))
  let v3 ← get v1 p!"kafka"
  check (V.isNone v3)
  let v4 ← get v1 p!"mqtt"
  check (V.isNone v4)
  let v5 ← get v1 p!"ws"
  check (V.isNone v5)
  let v6 ← get v1 p!"http"
  check (isA .HTTPMessageBindings v6)
  let v7 ← get v1 p!"http"
  let v8 ← get v7 p!"headers"
  let v9 ← get v8 p!"type"
  check (eq v9 (.str p!"object"))
  let v10 ← get v1 p!"http"
  let v11 ← get v10 p!"headers"
  let v12 ← get v11 p!"properties"
  check (member p!"Content-Type" v12)
  let v13 ← get v1 p!"http"
  let v14 ← get v13 p!"headers"
  let v15 ← get v14 p!"properties"
  let v16 ← item v15 p!"Content-Type"
  let v17 ← item v16 p!"type"
  check (eq v17 (.str p!"string"))
  let v18 ← item v16 p!"enum"
  check (eq v18 (.list [(.str p!"application/json")]))
  let v19 ← get v1 p!"http"
  let v20 ← get v19 p!"binding_version"
  check (eq v20 (.str p!"0.3.0")) : Option Unit).isSome = true := by decide +kernel

/-- `test_message_bindings_validation_empty`, tests/models/bindings/test_core.py:462 -/
example : (do
  let v1 ← load .MessageBindingsObject (.dict [])
  let v2 ← get v1 p!"kafka"
  check (V.isNone v2)
  let v3 ← get v1 p!"mqtt"
  check (V.isNone v3)
  let v4 ← get v1 p!"http"
  check (V.isNone v4)
  let v5 ← get v1 p!"ws"
  check (V.isNone v5)
  let v6 ← get v1 p!"amqp"
  check (V.isNone v6)
  let v7 ← get v1 p!"amqp1"
  check (V.isNone v7) : Option Unit).isSome = true := by decide +kernel

/-- `test_message_bindings_serialization_multiple_protocols`, tests/models/bindings/test_core.py:474 -/
example : (do
  let v1 ← make .Schema [(p!"type", (.str p!"string")), (p!"enum", (.list [(.str p!"my-key")]))]
  let v2 ← make .KafkaMessageBindings [(p!"key", v1)]
  let v3 ← make .MQTTMessageBindings [(p!"payload_format_indicator", (.int (1))), (p!"content_type", (.str p!"application/json"))]
  let v4 ← make .Schema [(p!"type", (.str p!"string")), (p!"enum", (.list [(.str p!"application/json")]))]
  let v5 ← make .Schema [(p!"type", (.str p!"object")), (p!"properties", (.dict [(p!"Content-Type", v4)]))]
  let v6 ← make .HTTPMessageBindings [(p!"headers", v5)]
  let v7 ← make .MessageBindingsObject [(p!"kafka", v2), (p!"mqtt", v3), (p!"http", v6)]
  check (eq (dump v7) (.dict [(p!"kafka", (.dict [(p!"key", (.dict [(p!"type", (.str p!"string")), (p!"enum", (.list [(.str p!"my-key")]))])), (p!"bindingVersion", (.str p!"0.5.0"))])), (p!"mqtt", (.dict [(p!"payloadFormatIndicator", (.int (1))), (p!"contentType", (.str p!"application/json")), (p!"bindingVersion", (.str p!"0.2.0"))])), (p!"http", (.dict [(p!"headers", (.dict [(p!"type", (.str p!"object")), (p!"properties", (.dict [(p!"Content-Type", (.dict [(p!"type", (.str p!"string")), (p!"enum", (.list [(.str p!"application/json")]))]))]))])), (p!"bindingVersion", (.str p!"0.3.0"))]))])) : Option Unit).isSome = true := by decide +kernel

/-- `test_message_bindings_serialization_empty`, tests/models/bindings/test_core.py:512 -/
example : (do
  let v1 ← make .MessageBindingsObject []
  check (eq (dump v1) (.dict [])) : Option Unit).isSome = true := by decide +kernel

/-- `test_server_bindings_valid_extensions`, tests/models/bindings/test_core.py:546 -/
example : (do
  let v1 ← load .ServerBindingsObject (.dict [(p!"mqtt", (.dict [(p!"clientId", (.str p!"test")), (p!"bindingVersion", (.str p!"0.2.0"))])), (p!"x-custom-extension", (.str p!"custom value")), (p!"x-vendor-specific", (.int (123))), (p!"x-detailed.info", (.bool true))])
  check (!(V.isNone (extra v1)))
  let v2 ← item (extra v1) p!"x-custom-extension"
  check (eq v2 (.str p!"custom value"))
  let v3 ← item (extra v1) p!"x-vendor-specific"
  check (eq v3 (.int (123)))
  let v4 ← item (extra v1) p!"x-detailed.info"
  check (eq v4 (.bool true))
  check (member p!"x-custom-extension" (dump v1))
  check (member p!"x-vendor-specific" (dump v1))
  check (member p!"x-detailed.info" (dump v1)) : Option Unit).isSome = true := by decide +kernel

/-- `test_channel_bindings_valid_extensions`, tests/models/bindings/test_core.py:571 -/
example : (do
  let v1 ← load .ChannelBindingsObject (.dict [(p!"kafka", (.dict [(p!"topic", (.str p!"my-topic")), (p!"bindingVersion", (.str p!"0.5.0"))])), (p!"x-workflow-id", (.str p!"wf-123")), (p!"x-metadata", (.dict [(p!"key", (.str p!"value"))]))])
  check (!(V.isNone (extra v1)))
  let v2 ← item (extra v1) p!"x-workflow-id"
  check (eq v2 (.str p!"wf-123"))
  let v3 ← item (extra v1) p!"x-metadata"
  check (eq v3 (.dict [(p!"key", (.str p!"value"))])) : Option Unit).isSome = true := by decide +kernel

/-- `test_operation_bindings_valid_extensions`, tests/models/bindings/test_core.py:588 -/
example : (do
  let v1 ← load .OperationBindingsObject (.dict [(p!"http", (.dict [(p!"method", (.str p!"GET")), (p!"bindingVersion", (.str p!"0.3.0"))])), (p!"x-rate-limit", (.int (100))), (p!"x-cache-ttl", (.int (3600)))])
  check (!(V.isNone (extra v1)))
  let v2 ← item (extra v1) p!"x-rate-limit"
  check (eq v2 (.int (100)))
  let v3 ← item (extra v1) p!"x-cache-ttl"
  check (eq v3 (.int (3600))) : Option Unit).isSome = true := by decide +kernel

/-- `test_message_bindings_valid_extensions`, tests/models/bindings/test_core.py:605 -/
example : (do
  let v1 ← load .MessageBindingsObject (.dict [(p!"http", (.dict [(p!"headers", (.dict [(p!"type", (.str p!"object")), (p!"properties", (.dict [(p!"Content-Type", (.dict [(p!"type", (.str p!"string"))]))]))])), (p!"bindingVersion", (.str p!"0.3.0"))])), (p!"x-message-type", (.str p!"event")), (p!"x-schema-version", (.str p!"1.2.3"))])
  check (!(V.isNone (extra v1)))
  let v2 ← item (extra v1) p!"x-message-type"
  check (eq v2 (.str p!"event"))
  let v3 ← item (extra v1) p!"x-schema-version"
  check (eq v3 (.str p!"1.2.3")) : Option Unit).isSome = true := by decide +kernel

/-- `test_server_bindings_invalid_extensions`, tests/models/bindings/test_core.py:626 -/
example : (do
  raises (do
    discard (load .ServerBindingsObject (.dict [(p!"mqtt", (.dict [(p!"clientId", (.str p!"test")), (p!"bindingVersion", (.str p!"0.2.0"))])), (p!"invalid-extension", (.str p!"should fail")), (p!"x-invalid_extension", (.str p!"underscore not allowed"))])) : Option Unit)
  check (true) : Option Unit).isSome = true := by decide +kernel

/-- `test_channel_bindings_invalid_extensions`, tests/models/bindings/test_core.py:644 -/
example : (do
  raises (do
    discard (load .ChannelBindingsObject (.dict [(p!"kafka", (.dict [(p!"topic", (.str p!"test")), (p!"bindingVersion", (.str p!"0.5.0"))])), (p!"not-x-prefix", (.str p!"invalid"))])) : Option Unit)
  check (true) : Option Unit).isSome = true := by decide +kernel

/-- `test_operation_bindings_invalid_extensions`, tests/models/bindings/test_core.py:661 -/
example : (do
  raises (do
    discard (load .OperationBindingsObject (.dict [(p!"http", (.dict [(p!"method", (.str p!"POST")), (p!"bindingVersion", (.str p!"0.3.0"))])), (p!"x-invalid@symbol", (.str p!"invalid char"))])) : Option Unit)
  check (true) : Option Unit).isSome = true := by decide +kernel

/-- `test_message_bindings_invalid_extensions`, tests/models/bindings/test_core.py:678 -/
example : (do
  raises (do
    discard (load .MessageBindingsObject (.dict [(p!"http", (.dict [(p!"headers", (.dict [(p!"type", (.str p!"object")), (p!"properties", (.dict [(p!"Content-Type", (.dict [(p!"type", (.str p!"string"))]))]))])), (p!"bindingVersion", (.str p!"0.3.0"))])), (p!"x-invalid extension", (.str p!"space not allowed"))])) : Option Unit)
  check (true) : Option Unit).isSome = true := by decide +kernel

/-- `test_server_bindings_extensions_serialization`, tests/models/bindings/test_core.py:699 -/
example : (do
  let v1 ← load .ServerBindingsObject (.dict [(p!"kafka", (.dict [(p!"schemaRegistryUrl", (.str p!"https://test.com")), (p!"bindingVersion", (.str p!"0.5.0"))])), (p!"x-test-extension", (.str p!"test value")), (p!"x-numeric-ext", (.int (42))), (p!"x-bool-ext", (.bool true))])
  let v2 ← load .ServerBindingsObject (dump v1)
  check (!(V.isNone (extra v2)))
  let v3 ← item (extra v2) p!"x-test-extension"
  check (eq v3 (.str p!"test value"))
  let v4 ← item (extra v2) p!"x-numeric-ext"
  check (eq v4 (.int (42)))
  let v5 ← item (extra v2) p!"x-bool-ext"
  check (eq v5 (.bool true)) : Option Unit).isSome = true := by decide +kernel

/-- `test_channel_bindings_extensions_with_bindings`, tests/models/bindings/test_core.py:722 -/
example : (do
  let v1 ← load .ChannelBindingsObject (.dict [(p!"kafka", (.dict [(p!"topicConfiguration", (.dict [(p!"cleanup.policy", (.list [(.str p!"delete")]))])), (p!"bindingVersion", (.str p!"0.5.0"))])), (p!"sqs", (.dict [(p!"queue", (.dict [(p!"name", (.str p!"test-queue")), (p!"fifoQueue", (.bool false))])), (p!"bindingVersion", (.str p!"0.3.0"))])), (p!"x-environment", (.str p!"production")), (p!"x-owner", (.str p!"team-platform"))])
  let v2 ← get v1 p!"kafka"
  check (!(V.isNone v2))
  let v3 ← get v1 p!"sqs"
  check (!(V.isNone v3))
  let v4 ← get v1 p!"kafka"
  let v5 ← get v4 p!"topic_configuration"
  let v6 ← get v5 p!"cleanup_policy"
  check (eq v6 (.list [(.str p!"delete")]))
  check (!(V.isNone (extra v1)))
  let v7 ← item (extra v1) p!"x-environment"
  check (eq v7 (.str p!"production"))
  let v8 ← item (extra v1) p!"x-owner"
  check (eq v8 (.str p!"team-platform")) : Option Unit).isSome = true := by decide +kernel

end Verif.Conformance
