import Verif.Conformance.Support

/-! Translated from tests/models/bindings/test_googlepubsub.py by tools/gen_conformance.py. -/

set_option maxRecDepth 100000
set_option linter.unusedVariables false
namespace Verif.Conformance
open Verif Verif.Gen Verif.Pyd

/-- `test_googlepubsub_server_bindings_serialization`, tests/models/bindings/test_googlepubsub.py:111 -/
example : (do
  let v1 ← make .GooglePubSubServerBindings []
  check (eq (dump v1) (.dict [])) : Option Unit).isSome = true := by decide +kernel

/-- `test_googlepubsub_server_bindings_python_validation_error`, tests/models/bindings/test_googlepubsub.py:117 -/
example : (do
  raises (do
    discard (make .GooglePubSubServerBindings [(p!"some_field", (.str p!"value"))]) : Option Unit) : Option Unit).isSome = true := by decide +kernel

/-- `test_googlepubsub_server_bindings_yaml_validation_error`, tests/models/bindings/test_googlepubsub.py:122 -/
example : (do
  raises (do
    discard (load .GooglePubSubServerBindings (.dict [(p!"some_field", (.str p!"value"))])) : Option Unit) : Option Unit).isSome = true := by decide +kernel

/-- `test_googlepubsub_server_bindings_yaml_empty_validation`, tests/models/bindings/test_googlepubsub.py:132 -/
example : (do
  let v1 ← load .GooglePubSubServerBindings (.dict [])
  check (!(V.isNone v1)) : Option Unit).isSome = true := by decide +kernel

/-- `test_googlepubsub_channel_binding_minimal_validation`, tests/models/bindings/test_googlepubsub.py:145 -/
example : (do
  let v1 ← load .GooglePubSubChannelBindings (.dict [(p!"schemaSettings", (.dict [(p!"encoding", (.str p!"JSON")), (p!"name", (.str p!"projects/your-project/schemas/message-avro"))])), (p!"bindingVersion", (.str p!"0.2.0"))])
  let v2 ← get v1 p!"schema_settings"
  check (!(V.isNone v2))
  let v3 ← get v1 p!"schema_settings"
  check (isA .GooglePubSubSchemaSettings v3)
  let v4 ← get v1 p!"schema_settings"
  let v5 ← get v4 p!"encoding"
  check (eq v5 (.str p!"JSON"))
  let v6 ← get v1 p!"schema_settings"
  let v7 ← get v6 p!"name"
  check (eq v7 (.str p!"projects/your-project/schemas/message-avro"))
  let v8 ← get v1 p!"binding_version"
  check (eq v8 (.str p!"0.2.0")) : Option Unit).isSome = true := by decide +kernel

/-- `test_googlepubsub_channel_binding_full_validation`, tests/models/bindings/test_googlepubsub.py:167 -/
example : (do
  let v1 ← load .GooglePubSubChannelBindings (.dict [(p!"messageRetentionDuration", (.str p!"86400s")), (p!"messageStoragePolicy", (.dict [(p!"allowedPersistenceRegions", (.list [(.str p!"us-central1"), (.str p!"us-central2")]))])), (p!"schemaSettings", (.dict [(p!"encoding", (.str p!"BINARY")), (p!"name", (.str p!"projects/your-project/schemas/message-proto"))])), (p!"bindingVersion", (.str p!"0.2.0"))])
  let v2 ← get v1 p!"message_retention_duration"
  check (eq v2 (.str p!"86400s"))
  let v3 ← get v1 p!"message_storage_policy"
  check (!(V.isNone v3))
  let v4 ← get v1 p!"message_storage_policy"
  check (isA .GooglePubSubMessageStoragePolicy v4)
  let v5 ← get v1 p!"message_storage_policy"
  let v6 ← get v5 p!"allowed_persistence_regions"
  check (eq v6 (.list [(.str p!"us-central1"), (.str p!"us-central2")]))
  let v7 ← get v1 p!"schema_settings"
  check (!(V.isNone v7))
  let v8 ← get v1 p!"schema_settings"
  check (isA .GooglePubSubSchemaSettings v8)
  let v9 ← get v1 p!"schema_settings"
  let v10 ← get v9 p!"encoding"
  check (eq v10 (.str p!"BINARY"))
  let v11 ← get v1 p!"schema_settings"
  let v12 ← get v11 p!"name"
  check (eq v12 (.str p!"projects/your-project/schemas/message-proto"))
  let v13 ← get v1 p!"binding_version"
  check (eq v13 (.str p!"0.2.0")) : Option Unit).isSome = true := by decide +kernel

/-- `test_googlepubsub_channel_bindings_validation_error_extra_fields`, tests/models/bindings/test_googlepubsub.py:203 -/
example : (do
  raises (do
    discard (load .GooglePubSubChannelBindings (.dict [(p!"bindingVersion", (.str p!"0.2.0")), (p!"extra_field", (.str p!"invalid"))])) : Option Unit) : Option Unit).isSome = true := by decide +kernel

/-- `test_googlepubsub_channel_bindings_validation_error_invalid_encoding`, tests/models/bindings/test_googlepubsub.py:214 -/
example : (do
  raises (do
    discard (load .GooglePubSubChannelBindings (.dict [(p!"schemaSettings", (.dict [(p!"encoding", (.str p!"INVALID_ENCODING")), (p!"name", (.str p!"projects/your-project/schemas/message-avro"))])), (p!"bindingVersion", (.str p!"0.2.0"))])) : Option Unit) : Option Unit).isSome = true := by decide +kernel

/-- `test_googlepubsub_channel_bindings_serialization_case_googlepubsub_channel_binding_serialization_empty`, tests/models/bindings/test_googlepubsub.py:237 -/
example : (do
  let v1 ← make .GooglePubSubChannelBindings []
  check (eq (dump v1) (.dict [(p!"bindingVersion", (.str p!"0.2.0"))])) : Option Unit).isSome = true := by decide +kernel

/-- `test_googlepubsub_channel_bindings_serialization_case_googlepubsub_channel_binding_serialization_with_schema_settings`, tests/models/bindings/test_googlepubsub.py:237 -/
example : (do
  let v1 ← make .GooglePubSubSchemaSettings [(p!"encoding", (.str p!"JSON")), (p!"name", (.str p!"projects/your-project/schemas/message-avro"))]
  let v2 ← make .GooglePubSubChannelBindings [(p!"schema_settings", v1)]
  check (eq (dump v2) (.dict [(p!"schemaSettings", (.dict [(p!"encoding", (.str p!"JSON")), (p!"name", (.str p!"projects/your-project/schemas/message-avro"))])), (p!"bindingVersion", (.str p!"0.2.0"))])) : Option Unit).isSome = true := by decide +kernel

/-- `test_googlepubsub_channel_bindings_serialization_case_googlepubsub_channel_binding_serialization_full`, tests/models/bindings/test_googlepubsub.py:237 -/
example : (do
  let v1 ← make .GooglePubSubMessageStoragePolicy [(p!"allowed_persistence_regions", (.list [(.str p!"us-central1"), (.str p!"us-central2")]))]
  let v2 ← make .GooglePubSubSchemaSettings [(p!"encoding", (.str p!"BINARY")), (p!"name", (.str p!"projects/your-project/schemas/message-proto"))]
  let v3 ← make .GooglePubSubChannelBindings [(p!"message_retention_duration", (.str p!"86400s")), (p!"message_storage_policy", v1), (p!"schema_settings", v2)]
  check (eq (dump v3) (.dict [(p!"messageRetentionDuration", (.str p!"86400s")), (p!"messageStoragePolicy", (.dict [(p!"allowedPersistenceRegions", (.list [(.str p!"us-central1"), (.str p!"us-central2")]))])), (p!"schemaSettings", (.dict [(p!"encoding", (.str p!"BINARY")), (p!"name", (.str p!"projects/your-project/schemas/message-proto"))])), (p!"bindingVersion", (.str p!"0.2.0"))])) : Option Unit).isSome = true := by decide +kernel

/-- `test_googlepubsub_operation_bindings_serialization`, tests/models/bindings/test_googlepubsub.py:250 -/
example : (do
  let v1 ← make .GooglePubSubOperationBindings []
  check (eq (dump v1) (.dict [])) : Option Unit).isSome = true := by decide +kernel

/-- `test_googlepubsub_operation_bindings_python_validation_error`, tests/models/bindings/test_googlepubsub.py:256 -/
example : (do
  raises (do
    discard (make .GooglePubSubOperationBindings [(p!"some_field", (.str p!"value"))]) : Option Unit) : Option Unit).isSome = true := by decide +kernel

/-- `test_googlepubsub_operation_bindings_yaml_validation_error`, tests/models/bindings/test_googlepubsub.py:261 -/
example : (do
  raises (do
    discard (load .GooglePubSubOperationBindings (.dict [(p!"some_field", (.str p!"value"))])) : Option Unit) : Option Unit).isSome = true := by decide +kernel

/-- `test_googlepubsub_operation_bindings_yaml_empty_validation`, tests/models/bindings/test_googlepubsub.py:271 -/
example : (do
  let v1 ← load .GooglePubSubOperationBindings (.dict [])
  check (!(V.isNone v1)) : Option Unit).isSome = true := by decide +kernel

/-- `test_googlepubsub_message_binding_with_schema_validation`, tests/models/bindings/test_googlepubsub.py:284 -/
example : (do
  let v1 ← load .GooglePubSubMessageBindings (.dict [(p!"schema", (.dict [(p!"name", (.str p!"projects/your-project/schemas/message-avro"))])), (p!"bindingVersion", (.str p!"0.2.0"))])
  let v2 ← get v1 p!"schema"
  check (!(V.isNone v2))
  let v3 ← get v1 p!"schema"
  check (isA .GooglePubSubSchemaDefinition v3)
  let v4 ← get v1 p!"schema"
  let v5 ← get v4 p!"name"
  check (eq v5 (.str p!"projects/your-project/schemas/message-avro"))
  let v6 ← get v1 p!"binding_version"
  check (eq v6 (.str p!"0.2.0")) : Option Unit).isSome = true := by decide +kernel

/-- `test_googlepubsub_message_bindings_validation_error_extra_fields`, tests/models/bindings/test_googlepubsub.py:301 -/
example : (do
  raises (do
    discard (load .GooglePubSubMessageBindings (.dict [(p!"bindingVersion", (.str p!"0.2.0")), (p!"extra_field", (.str p!"invalid"))])) : Option Unit) : Option Unit).isSome = true := by decide +kernel

/-- `test_googlepubsub_message_bindings_serialization_case_googlepubsub_message_binding_serialization_empty`, tests/models/bindings/test_googlepubsub.py:319 -/
example : (do
  let v1 ← make .GooglePubSubMessageBindings []
  check (eq (dump v1) (.dict [(p!"bindingVersion", (.str p!"0.2.0"))])) : Option Unit).isSome = true := by decide +kernel

/-- `test_googlepubsub_message_bindings_serialization_case_googlepubsub_message_binding_serialization_with_schema`, tests/models/bindings/test_googlepubsub.py:319 -/
example : (do
  let v1 ← make .GooglePubSubSchemaDefinition [(p!"name", (.str p!"projects/your-project/schemas/message-avro"))]
  let v2 ← make .GooglePubSubMessageBindings [(p!"schema", v1)]
  check (eq (dump v2) (.dict [(p!"schema", (.dict [(p!"name", (.str p!"projects/your-project/schemas/message-avro"))])), (p!"bindingVersion", (.str p!"0.2.0"))])) : Option Unit).isSome = true := by decide +kernel

end Verif.Conformance
