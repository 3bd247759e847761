import Verif.Conformance.Support

/-! Translated from tests/models/bindings/test_kafka.py by tools/gen_conformance.py. -/

set_option maxRecDepth 100000
set_option linter.unusedVariables false
namespace Verif.Conformance
open Verif Verif.Gen Verif.Pyd

/-- `test_kafka_server_bindings_validator_errors_case_kafka_server_binding_validator_vendor_without_url`, tests/models/bindings/test_kafka.py:285 -/
example : (do
  raises (do
    discard (load .KafkaServerBindings (.dict [(p!"schemaRegistryVendor", (.str p!"confluent")), (p!"bindingVersion", (.str p!"0.5.0"))])) : Option Unit) : Option Unit).isSome = true := by decide +kernel

/-- `test_kafka_server_bindings_validation_empty`, tests/models/bindings/test_kafka.py:297 -/
example : (do
  let v1 ← load .KafkaServerBindings (.dict [(p!"bindingVersion", (.str p!"0.5.0"))])
  let v2 ← get v1 p!"binding_version"
  check (eq v2 (.str p!"0.5.0"))
  let v3 ← get v1 p!"schema_registry_url"
  check (V.isNone v3)
  let v4 ← get v1 p!"schema_registry_vendor"
  check (V.isNone v4) : Option Unit).isSome = true := by decide +kernel

/-- `test_kafka_server_bindings_validation_full`, tests/models/bindings/test_kafka.py:311 -/
example : (do
  let v1 ← load .KafkaServerBindings (.dict [(p!"schemaRegistryUrl", (.str p!"https://my-schema-registry.com")), (p!"schemaRegistryVendor", (.str p!"confluent")), (p!"bindingVersion", (.str p!"0.5.0"))])
  let v2 ← get v1 p!"binding_version"
  check (eq v2 (.str p!"0.5.0"))
  let v3 ← get v1 p!"schema_registry_url"
  check (eq v3 (.str p!"https://my-schema-registry.com"))
  let v4 ← get v1 p!"schema_registry_vendor"
  check (eq v4 (.str p!"confluent")) : Option Unit).isSome = true := by decide +kernel

/-- `test_kafka_server_bindings_serialization_case_kafka_server_binding_serialization_empty`, tests/models/bindings/test_kafka.py:334 -/
example : (do
  let v1 ← make .KafkaServerBindings []
  check (eq (dump v1) (.dict [(p!"bindingVersion", (.str p!"0.5.0"))])) : Option Unit).isSome = true := by decide +kernel

/-- `test_kafka_server_bindings_serialization_case_kafka_server_binding_serialization_full`, tests/models/bindings/test_kafka.py:334 -/
example : (do
  let v1 ← make .KafkaServerBindings [(p!"schema_registry_url", (.str p!"https://my-schema-registry.com")), (p!"schema_registry_vendor", (.str p!"confluent"))]
  check (eq (dump v1) (.dict [(p!"schemaRegistryUrl", (.str p!"https://my-schema-registry.com")), (p!"schemaRegistryVendor", (.str p!"confluent")), (p!"bindingVersion", (.str p!"0.5.0"))])) : Option Unit).isSome = true := by decide +kernel

/-- `test_kafka_channel_bindings_validation_empty`, tests/models/bindings/test_kafka.py:347 -/
example : (do
  let v1 ← load .KafkaChannelBindings (.dict [(p!"bindingVersion", (.str p!"0.5.0"))])
  let v2 ← get v1 p!"binding_version"
  check (eq v2 (.str p!"0.5.0"))
  let v3 ← get v1 p!"topic"
  check (V.isNone v3)
  let v4 ← get v1 p!"partitions"
  check (V.isNone v4)
  let v5 ← get v1 p!"replicas"
  check (V.isNone v5)
  let v6 ← get v1 p!"topic_configuration"
  check (V.isNone v6) : Option Unit).isSome = true := by decide +kernel

/-- `test_kafka_channel_bindings_validation_minimal`, tests/models/bindings/test_kafka.py:363 -/
example : (do
  let v1 ← load .KafkaChannelBindings (.dict [(p!"topic", (.str p!"my-topic")), (p!"bindingVersion", (.str p!"0.5.0"))])
  let v2 ← get v1 p!"binding_version"
  check (eq v2 (.str p!"0.5.0"))
  let v3 ← get v1 p!"topic"
  check (eq v3 (.str p!"my-topic"))
  let v4 ← get v1 p!"partitions"
  check (V.isNone v4)
  let v5 ← get v1 p!"replicas"
  check (V.isNone v5)
  let v6 ← get v1 p!"topic_configuration"
  check (V.isNone v6) : Option Unit).isSome = true := by decide +kernel

/-- `test_kafka_channel_bindings_validation_full`, tests/models/bindings/test_kafka.py:380 -/
example : (do
  let v1 ← load .KafkaChannelBindings (.dict [(p!"topic", (.str p!"my-specific-topic-name")), (p!"partitions", (.int (20))), (p!"replicas", (.int (3))), (p!"topicConfiguration", (.dict [(p!"cleanup.policy", (.list [(.str p!"delete"), (.str p!"compact")])), (p!"retention.ms", (.int (604800000))), (p!"retention.bytes", (.int (1000000000))), (p!"delete.retention.ms", (.int (86400000))), (p!"max.message.bytes", (.int (1048588)))])), (p!"bindingVersion", (.str p!"0.5.0"))])
  let v2 ← get v1 p!"binding_version"
  check (eq v2 (.str p!"0.5.0"))
  let v3 ← get v1 p!"topic"
  check (eq v3 (.str p!"my-specific-topic-name"))
  let v4 ← get v1 p!"partitions"
  check (eq v4 (.int (20)))
  let v5 ← get v1 p!"replicas"
  check (eq v5 (.int (3)))
  let v6 ← get v1 p!"topic_configuration"
  check (!(V.isNone v6))
  let v7 ← get v1 p!"topic_configuration"
  check (isA .KafkaTopicConfiguration v7)
  let v8 ← get v1 p!"topic_configuration"
  let v9 ← get v8 p!"cleanup_policy"
  check (eq v9 (.list [(.str p!"delete"), (.str p!"compact")]))
  let v10 ← get v1 p!"topic_configuration"
  let v11 ← get v10 p!"retention_ms"
  check (eq v11 (.int (604800000)))
  let v12 ← get v1 p!"topic_configuration"
  let v13 ← get v12 p!"retention_bytes"
  check (eq v13 (.int (1000000000)))
  let v14 ← get v1 p!"topic_configuration"
  let v15 ← get v14 p!"delete_retention_ms"
  check (eq v15 (.int (86400000)))
  let v16 ← get v1 p!"topic_configuration"
  let v17 ← get v16 p!"max_message_bytes"
  check (eq v17 (.int (1048588))) : Option Unit).isSome = true := by decide +kernel

/-- `test_kafka_channel_bindings_serialization_case_kafka_channel_binding_serialization_empty`, tests/models/bindings/test_kafka.py:422 -/
example : (do
  let v1 ← make .KafkaChannelBindings []
  check (eq (dump v1) (.dict [(p!"bindingVersion", (.str p!"0.5.0"))])) : Option Unit).isSome = true := by decide +kernel

/-- `test_kafka_channel_bindings_serialization_case_kafka_channel_binding_serialization_minimal`, tests/models/bindings/test_kafka.py:422 -/
example : (do
  let v1 ← make .KafkaChannelBindings [(p!"topic", (.str p!"my-topic"))]
  check (eq (dump v1) (.dict [(p!"topic", (.str p!"my-topic")), (p!"bindingVersion", (.str p!"0.5.0"))])) : Option Unit).isSome = true := by decide +kernel

/-- `test_kafka_channel_bindings_serialization_case_kafka_channel_binding_serialization_full`, tests/models/bindings/test_kafka.py:422 -/
example : (do
  let v1 ← make .KafkaTopicConfiguration [(p!"cleanup_policy", (.list [(.str p!"delete"), (.str p!"compact")])), (p!"retention_ms", (.int (604800000))), (p!"retention_bytes", (.int (1000000000))), (p!"delete_retention_ms", (.int (86400000))), (p!"max_message_bytes", (.int (1048588)))]
  let v2 ← make .KafkaChannelBindings [(p!"topic", (.str p!"my-specific-topic-name")), (p!"partitions", (.int (20))), (p!"replicas", (.int (3))), (p!"topic_configuration", v1)]
  check (eq (dump v2) (.dict [(p!"topic", (.str p!"my-specific-topic-name")), (p!"partitions", (.int (20))), (p!"replicas", (.int (3))), (p!"topicConfiguration", (.dict [(p!"cleanup.policy", (.list [(.str p!"delete"), (.str p!"compact")])), (p!"retention.ms", (.int (604800000))), (p!"retention.bytes", (.int (1000000000))), (p!"delete.retention.ms", (.int (86400000))), (p!"max.message.bytes", (.int (1048588)))])), (p!"bindingVersion", (.str p!"0.5.0"))])) : Option Unit).isSome = true := by decide +kernel

/-- `test_kafka_channel_bindings_validator_errors_case_kafka_channel_binding_validator_partitions_zero`, tests/models/bindings/test_kafka.py:444 -/
example : (do
  raises (do
    discard (load .KafkaChannelBindings (.dict [(p!"partitions", (.int (0))), (p!"bindingVersion", (.str p!"0.5.0"))])) : Option Unit) : Option Unit).isSome = true := by decide +kernel

/-- `test_kafka_channel_bindings_validator_errors_case_kafka_channel_binding_validator_partitions_negative`, tests/models/bindings/test_kafka.py:444 -/
example : (do
  raises (do
    discard (load .KafkaChannelBindings (.dict [(p!"partitions", (.int (-1))), (p!"bindingVersion", (.str p!"0.5.0"))])) : Option Unit) : Option Unit).isSome = true := by decide +kernel

/-- `test_kafka_channel_bindings_validator_errors_case_kafka_channel_binding_validator_replicas_zero`, tests/models/bindings/test_kafka.py:444 -/
example : (do
  raises (do
    discard (load .KafkaChannelBindings (.dict [(p!"replicas", (.int (0))), (p!"bindingVersion", (.str p!"0.5.0"))])) : Option Unit) : Option Unit).isSome = true := by decide +kernel

/-- `test_kafka_channel_bindings_validator_errors_case_kafka_channel_binding_validator_replicas_negative`, tests/models/bindings/test_kafka.py:444 -/
example : (do
  raises (do
    discard (load .KafkaChannelBindings (.dict [(p!"replicas", (.int (-2))), (p!"bindingVersion", (.str p!"0.5.0"))])) : Option Unit) : Option Unit).isSome = true := by decide +kernel

/-- `test_kafka_topic_configuration_serialization_case_kafka_topic_configuration_serialization_empty`, tests/models/bindings/test_kafka.py:463 -/
example : (do
  let v1 ← make .KafkaTopicConfiguration []
  check (eq (dump v1) (.dict [])) : Option Unit).isSome = true := by decide +kernel

/-- `test_kafka_topic_configuration_serialization_case_kafka_topic_configuration_serialization_full`, tests/models/bindings/test_kafka.py:463 -/
example : (do
  let v1 ← make .KafkaTopicConfiguration [(p!"cleanup_policy", (.list [(.str p!"delete"), (.str p!"compact")])), (p!"retention_ms", (.int (604800000))), (p!"retention_bytes", (.int (1000000000))), (p!"delete_retention_ms", (.int (86400000))), (p!"max_message_bytes", (.int (1048588))), (p!"confluent_key_schema_validation", (.bool true)), (p!"confluent_key_subject_name_strategy", (.str p!"TopicNameStrategy")), (p!"confluent_value_schema_validation", (.bool true)), (p!"confluent_value_subject_name_strategy", (.str p!"TopicNameStrategy"))]
  check (eq (dump v1) (.dict [(p!"cleanup.policy", (.list [(.str p!"delete"), (.str p!"compact")])), (p!"retention.ms", (.int (604800000))), (p!"retention.bytes", (.int (1000000000))), (p!"delete.retention.ms", (.int (86400000))), (p!"max.message.bytes", (.int (1048588))), (p!"confluent.key.schema.validation", (.bool true)), (p!"confluent.key.subject.name.strategy", (.str p!"TopicNameStrategy")), (p!"confluent.value.schema.validation", (.bool true)), (p!"confluent.value.subject.name.strategy", (.str p!"TopicNameStrategy"))])) : Option Unit).isSome = true := by decide +kernel

/-- `test_kafka_operation_bindings_validation_empty`, tests/models/bindings/test_kafka.py:476 -/
example : (do
  let v1 ← load .KafkaOperationBindings (.dict [(p!"bindingVersion", (.str p!"0.5.0"))])
  let v2 ← get v1 p!"binding_version"
  check (eq v2 (.str p!"0.5.0"))
  let v3 ← get v1 p!"group_id"
  check (V.isNone v3)
  let v4 ← get v1 p!"client_id"
  check (V.isNone v4) : Option Unit).isSome = true := by decide +kernel

/-- `test_kafka_operation_bindings_validation_with_schemas`, tests/models/bindings/test_kafka.py:490 -/
example : (do
  let v1 ← load .KafkaOperationBindings (.dict [(p!"groupId", (.dict [(p!"type", (.str p!"string")), (p!"enum", (.list [(.str p!"myGroupId")]))])), (p!"clientId", (.dict [(p!"type", (.str p!"string")), (p!"enum", (.list [(.str p!"myClientId")]))])), (p!"bindingVersion", (.str p!"0.5.0"))])
  let v2 ← get v1 p!"binding_version"
  check (eq v2 (.str p!"0.5.0"))
  let v3 ← get v1 p!"group_id"
  check (!(V.isNone v3))
  let v4 ← get v1 p!"group_id"
  check (isA .Schema v4)
  let v5 ← get v1 p!"group_id"
  let v6 ← get v5 p!"type"
  check (eq v6 (.str p!"string"))
  let v7 ← get v1 p!"group_id"
  let v8 ← get v7 p!"enum"
  check (eq v8 (.list [(.str p!"myGroupId")]))
  let v9 ← get v1 p!"client_id"
  check (!(V.isNone v9))
  let v10 ← get v1 p!"client_id"
  check (isA .Schema v10)
  let v11 ← get v1 p!"client_id"
  let v12 ← get v11 p!"type"
  check (eq v12 (.str p!"string"))
  let v13 ← get v1 p!"client_id"
  let v14 ← get v13 p!"enum"
  check (eq v14 (.list [(.str p!"myClientId")])) : Option Unit).isSome = true := by decide +kernel

/-- `test_kafka_operation_bindings_serialization_case_kafka_operation_binding_serialization_empty`, tests/models/bindings/test_kafka.py:523 -/
example : (do
  let v1 ← make .KafkaOperationBindings []
  check (eq (dump v1) (.dict [(p!"bindingVersion", (.str p!"0.5.0"))])) : Option Unit).isSome = true := by decide +kernel

/-- `test_kafka_operation_bindings_serialization_case_kafka_operation_binding_serialization_with_schemas`, tests/models/bindings/test_kafka.py:523 -/
example : (do
  let v1 ← make .Schema [(p!"type", (.str p!"string")), (p!"enum", (.list [(.str p!"myGroupId")]))]
  let v2 ← make .Schema [(p!"type", (.str p!"string")), (p!"enum", (.list [(.str p!"myClientId")]))]
  let v3 ← make .KafkaOperationBindings [(p!"group_id", v1), (p!"client_id", v2)]
  check (eq (dump v3) (.dict [(p!"groupId", (.dict [(p!"type", (.str p!"string")), (p!"enum", (.list [(.str p!"myGroupId")]))])), (p!"clientId", (.dict [(p!"type", (.str p!"string")), (p!"enum", (.list [(.str p!"myClientId")]))])), (p!"bindingVersion", (.str p!"0.5.0"))])) : Option Unit).isSome = true := by decide +kernel

/-- `test_kafka_message_bindings_validation_empty`, tests/models/bindings/test_kafka.py:536 -/
example : (do
  let v1 ← load .KafkaMessageBindings (.dict [(p!"bindingVersion", (.str p!"0.5.0"))])
  let v2 ← get v1 p!"binding_version"
  check (eq v2 (.str p!"0.5.0"))
  let v3 ← get v1 p!"key"
  check (V.isNone v3)
  let v4 ← get v1 p!"schema_id_location"
  check (V.isNone v4)
  let v5 ← get v1 p!"schema_id_payload_encoding"
  check (V.isNone v5)
  let v6 ← get v1 p!"schema_lookup_strategy"
  check (V.isNone v6) : Option Unit).isSome = true := by decide +kernel

/-- `test_kafka_message_bindings_validation_confluent`, tests/models/bindings/test_kafka.py:552 -/
example : (do
  let v1 ← load .KafkaMessageBindings (.dict [(p!"key", (.dict [(p!"type", (.str p!"string")), (p!"enum", (.list [(.str p!"myKey")]))])), (p!"schemaIdLocation", (.str p!"payload")), (p!"schemaIdPayloadEncoding", (.str p!"4")), (p!"bindingVersion", (.str p!"0.5.0"))])
  let v2 ← get v1 p!"binding_version"
  check (eq v2 (.str p!"0.5.0"))
  let v3 ← get v1 p!"key"
  check (!(V.isNone v3))
  let v4 ← get v1 p!"key"
  check (isA .Schema v4)
  let v5 ← get v1 p!"key"
  let v6 ← get v5 p!"type"
  check (eq v6 (.str p!"string"))
  let v7 ← get v1 p!"key"
  let v8 ← get v7 p!"enum"
  check (eq v8 (.list [(.str p!"myKey")]))
  let v9 ← get v1 p!"schema_id_location"
  check (eq v9 (.str p!"payload"))
  let v10 ← get v1 p!"schema_id_payload_encoding"
  check (eq v10 (.str p!"4"))
  let v11 ← get v1 p!"schema_lookup_strategy"
  check (V.isNone v11) : Option Unit).isSome = true := by decide +kernel

/-- `test_kafka_message_bindings_validation_apicurio`, tests/models/bindings/test_kafka.py:576 -/
example : (do
  let v1 ← load .KafkaMessageBindings (.dict [(p!"key", (.dict [(p!"type", (.str p!"string")), (p!"enum", (.list [(.str p!"myKey")]))])), (p!"schemaIdLocation", (.str p!"payload")), (p!"schemaIdPayloadEncoding", (.str p!"apicurio-new")), (p!"schemaLookupStrategy", (.str p!"TopicIdStrategy")), (p!"bindingVersion", (.str p!"0.5.0"))])
  let v2 ← get v1 p!"binding_version"
  check (eq v2 (.str p!"0.5.0"))
  let v3 ← get v1 p!"key"
  check (!(V.isNone v3))
  let v4 ← get v1 p!"key"
  check (isA .Schema v4)
  let v5 ← get v1 p!"key"
  let v6 ← get v5 p!"type"
  check (eq v6 (.str p!"string"))
  let v7 ← get v1 p!"key"
  let v8 ← get v7 p!"enum"
  check (eq v8 (.list [(.str p!"myKey")]))
  let v9 ← get v1 p!"schema_id_location"
  check (eq v9 (.str p!"payload"))
  let v10 ← get v1 p!"schema_id_payload_encoding"
  check (eq v10 (.str p!"apicurio-new"))
  let v11 ← get v1 p!"schema_lookup_strategy"
  check (eq v11 (.str p!"TopicIdStrategy")) : Option Unit).isSome = true := by decide +kernel

/-- `test_kafka_message_bindings_serialization_case_kafka_message_binding_serialization_empty`, tests/models/bindings/test_kafka.py:609 -/
example : (do
  let v1 ← make .KafkaMessageBindings []
  check (eq (dump v1) (.dict [(p!"bindingVersion", (.str p!"0.5.0"))])) : Option Unit).isSome = true := by decide +kernel

/-- `test_kafka_message_bindings_serialization_case_kafka_message_binding_serialization_confluent`, tests/models/bindings/test_kafka.py:609 -/
example : (do
  let v1 ← make .Schema [(p!"type", (.str p!"string")), (p!"enum", (.list [(.str p!"myKey")]))]
  let v2 ← make .KafkaMessageBindings [(p!"key", v1), (p!"schema_id_location", (.str p!"payload")), (p!"schema_id_payload_encoding", (.str p!"4"))]
  check (eq (dump v2) (.dict [(p!"key", (.dict [(p!"type", (.str p!"string")), (p!"enum", (.list [(.str p!"myKey")]))])), (p!"schemaIdLocation", (.str p!"payload")), (p!"schemaIdPayloadEncoding", (.str p!"4")), (p!"bindingVersion", (.str p!"0.5.0"))])) : Option Unit).isSome = true := by decide +kernel

/-- `test_kafka_message_bindings_serialization_case_kafka_message_binding_serialization_apicurio`, tests/models/bindings/test_kafka.py:609 -/
example : (do
  let v1 ← make .Schema [(p!"type", (.str p!"string")), (p!"enum", (.list [(.str p!"myKey")]))]
  let v2 ← make .KafkaMessageBindings [(p!"key", v1), (p!"schema_id_location", (.str p!"payload")), (p!"schema_id_payload_encoding", (.str p!"apicurio-new")), (p!"schema_lookup_strategy", (.str p!"TopicIdStrategy"))]
  check (eq (dump v2) (.dict [(p!"key", (.dict [(p!"type", (.str p!"string")), (p!"enum", (.list [(.str p!"myKey")]))])), (p!"schemaIdLocation", (.str p!"payload")), (p!"schemaIdPayloadEncoding", (.str p!"apicurio-new")), (p!"schemaLookupStrategy", (.str p!"TopicIdStrategy")), (p!"bindingVersion", (.str p!"0.5.0"))])) : Option Unit).isSome = true := by decide +kernel

end Verif.Conformance
