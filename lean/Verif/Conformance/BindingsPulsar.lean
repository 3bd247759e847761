import Verif.Conformance.Support

/-! Translated from tests/models/bindings/test_pulsar.py by tools/gen_conformance.py. -/

set_option maxRecDepth 100000
set_option linter.unusedVariables false
namespace Verif.Conformance
open Verif Verif.Gen Verif.Pyd

/-- `test_pulsar_server_bindings_validation_case_server_binding_with_tenant`, tests/models/bindings/test_pulsar.py:126 -/
example : (do
  let v1 ← load .PulsarServerBindings (.dict [(p!"tenant", (.str p!"contoso")), (p!"bindingVersion", (.str p!"0.1.0"))])
  let v2 ← get v1 p!"tenant"
  check (eq v2 (.str p!"contoso"))
  let v3 ← get v1 p!"binding_version"
  check (eq v3 (.str p!"0.1.0")) : Option Unit).isSome = true := by decide +kernel

/-- `test_pulsar_server_bindings_validation_error_extra_fields`, tests/models/bindings/test_pulsar.py:135 -/
example : (do
  raises (do
    discard (load .PulsarServerBindings (.dict [(p!"tenant", (.str p!"contoso")), (p!"bindingVersion", (.str p!"0.1.0")), (p!"extra_field", (.str p!"invalid"))])) : Option Unit) : Option Unit).isSome = true := by decide +kernel

/-- `test_pulsar_server_bindings_serialization_case_pulsar_server_binding_serialization_default`, tests/models/bindings/test_pulsar.py:154 -/
example : (do
  let v1 ← make .PulsarServerBindings []
  check (eq (dump v1) (.dict [(p!"tenant", (.str p!"public")), (p!"bindingVersion", (.str p!"0.1.0"))])) : Option Unit).isSome = true := by decide +kernel

/-- `test_pulsar_server_bindings_serialization_case_pulsar_server_binding_serialization_with_tenant`, tests/models/bindings/test_pulsar.py:154 -/
example : (do
  let v1 ← make .PulsarServerBindings [(p!"tenant", (.str p!"contoso"))]
  check (eq (dump v1) (.dict [(p!"tenant", (.str p!"contoso")), (p!"bindingVersion", (.str p!"0.1.0"))])) : Option Unit).isSome = true := by decide +kernel

/-- `test_pulsar_retention_serialization_case_pulsar_retention_serialization_empty`, tests/models/bindings/test_pulsar.py:174 -/
example : (do
  let v1 ← make .PulsarRetention []
  check (eq (dump v1) (.dict [(p!"time", (.int (0))), (p!"size", (.int (0)))])) : Option Unit).isSome = true := by decide +kernel

/-- `test_pulsar_retention_serialization_case_pulsar_retention_serialization_full`, tests/models/bindings/test_pulsar.py:174 -/
example : (do
  let v1 ← make .PulsarRetention [(p!"time", (.int (7))), (p!"size", (.int (1000)))]
  check (eq (dump v1) (.dict [(p!"time", (.int (7))), (p!"size", (.int (1000)))])) : Option Unit).isSome = true := by decide +kernel

/-- `test_pulsar_retention_full_validation`, tests/models/bindings/test_pulsar.py:183 -/
example : (do
  let v1 ← load .PulsarRetention (.dict [(p!"time", (.int (7))), (p!"size", (.int (1000)))])
  let v2 ← get v1 p!"time"
  check (eq v2 (.int (7)))
  let v3 ← get v1 p!"size"
  check (eq v3 (.int (1000))) : Option Unit).isSome = true := by decide +kernel

/-- `test_pulsar_retention_validation_error_extra_fields`, tests/models/bindings/test_pulsar.py:195 -/
example : (do
  raises (do
    discard (load .PulsarRetention (.dict [(p!"time", (.int (7))), (p!"size", (.int (1000))), (p!"extra_field", (.str p!"invalid"))])) : Option Unit) : Option Unit).isSome = true := by decide +kernel

/-- `test_pulsar_channel_binding_minimal_validation`, tests/models/bindings/test_pulsar.py:210 -/
example : (do
  let v1 ← load .PulsarChannelBindings (.dict [(p!"namespace", (.str p!"staging")), (p!"persistence", (.str p!"persistent")), (p!"bindingVersion", (.str p!"0.1.0"))])
  let v2 ← get v1 p!"namespace"
  check (eq v2 (.str p!"staging"))
  let v3 ← get v1 p!"persistence"
  check (eq v3 (.str p!"persistent"))
  let v4 ← get v1 p!"binding_version"
  check (eq v4 (.str p!"0.1.0")) : Option Unit).isSome = true := by decide +kernel

/-- `test_pulsar_channel_binding_full_validation`, tests/models/bindings/test_pulsar.py:226 -/
example : (do
  let v1 ← load .PulsarChannelBindings (.dict [(p!"namespace", (.str p!"staging")), (p!"persistence", (.str p!"persistent")), (p!"compaction", (.int (1000))), (p!"geo-replication", (.list [(.str p!"us-east1"), (.str p!"us-west1")])), (p!"retention", (.dict [(p!"time", (.int (7))), (p!"size", (.int (1000)))])), (p!"ttl", (.int (360))), (p!"deduplication", (.bool false)), (p!"bindingVersion", (.str p!"0.1.0"))])
  let v2 ← get v1 p!"namespace"
  check (eq v2 (.str p!"staging"))
  let v3 ← get v1 p!"persistence"
  check (eq v3 (.str p!"persistent"))
  let v4 ← get v1 p!"compaction"
  check (eq v4 (.int (1000)))
  let v5 ← get v1 p!"geo_replication"
  check (eq v5 (.list [(.str p!"us-east1"), (.str p!"us-west1")]))
  let v6 ← get v1 p!"retention"
  check (!(V.isNone v6))
  let v7 ← get v1 p!"retention"
  check (isA .PulsarRetention v7)
  let v8 ← get v1 p!"retention"
  let v9 ← get v8 p!"time"
  check (eq v9 (.int (7)))
  let v10 ← get v1 p!"retention"
  let v11 ← get v10 p!"size"
  check (eq v11 (.int (1000)))
  let v12 ← get v1 p!"ttl"
  check (eq v12 (.int (360)))
  let v13 ← get v1 p!"deduplication"
  check (eq v13 (.bool false))
  let v14 ← get v1 p!"binding_version"
  check (eq v14 (.str p!"0.1.0")) : Option Unit).isSome = true := by decide +kernel

/-- `test_pulsar_channel_bindings_validation_error_extra_fields`, tests/models/bindings/test_pulsar.py:259 -/
example : (do
  raises (do
    discard (load .PulsarChannelBindings (.dict [(p!"namespace", (.str p!"staging")), (p!"persistence", (.str p!"persistent")), (p!"bindingVersion", (.str p!"0.1.0")), (p!"extra_field", (.str p!"invalid"))])) : Option Unit) : Option Unit).isSome = true := by decide +kernel

/-- `test_pulsar_channel_bindings_validation_error_invalid_persistence`, tests/models/bindings/test_pulsar.py:272 -/
example : (do
  raises (do
    discard (load .PulsarChannelBindings (.dict [(p!"namespace", (.str p!"staging")), (p!"persistence", (.str p!"invalid_value")), (p!"bindingVersion", (.str p!"0.1.0"))])) : Option Unit) : Option Unit).isSome = true := by decide +kernel

/-- `test_pulsar_channel_bindings_serialization_case_pulsar_channel_binding_serialization_minimal`, tests/models/bindings/test_pulsar.py:291 -/
example : (do
  let v1 ← make .PulsarChannelBindings [(p!"namespace", (.str p!"staging")), (p!"persistence", (.str p!"persistent"))]
  check (eq (dump v1) (.dict [(p!"namespace", (.str p!"staging")), (p!"persistence", (.str p!"persistent")), (p!"bindingVersion", (.str p!"0.1.0"))])) : Option Unit).isSome = true := by decide +kernel

/-- `test_pulsar_channel_bindings_serialization_case_pulsar_channel_binding_serialization_full`, tests/models/bindings/test_pulsar.py:291 -/
example : (do
  let v1 ← make .PulsarRetention [(p!"time", (.int (7))), (p!"size", (.int (1000)))]
  let v2 ← make .PulsarChannelBindings [(p!"namespace", (.str p!"staging")), (p!"persistence", (.str p!"persistent")), (p!"compaction", (.int (1000))), (p!"geo_replication", (.list [(.str p!"us-east1"), (.str p!"us-west1")])), (p!"retention", v1), (p!"ttl", (.int (360))), (p!"deduplication", (.bool false))]
  check (eq (dump v2) (.dict [(p!"namespace", (.str p!"staging")), (p!"persistence", (.str p!"persistent")), (p!"compaction", (.int (1000))), (p!"geo-replication", (.list [(.str p!"us-east1"), (.str p!"us-west1")])), (p!"retention", (.dict [(p!"time", (.int (7))), (p!"size", (.int (1000)))])), (p!"ttl", (.int (360))), (p!"deduplication", (.bool false)), (p!"bindingVersion", (.str p!"0.1.0"))])) : Option Unit).isSome = true := by decide +kernel

/-- `test_pulsar_operation_bindings_serialization`, tests/models/bindings/test_pulsar.py:304 -/
example : (do
  let v1 ← make .PulsarOperationBindings []
  check (eq (dump v1) (.dict [])) : Option Unit).isSome = true := by decide +kernel

/-- `test_pulsar_operation_bindings_python_validation_error`, tests/models/bindings/test_pulsar.py:310 -/
example : (do
  raises (do
    discard (make .PulsarOperationBindings [(p!"some_field", (.str p!"value"))]) : Option Unit) : Option Unit).isSome = true := by decide +kernel

/-- `test_pulsar_operation_bindings_yaml_validation_error`, tests/models/bindings/test_pulsar.py:315 -/
example : (do
  raises (do
    discard (load .PulsarOperationBindings (.dict [(p!"some_field", (.str p!"value"))])) : Option Unit) : Option Unit).isSome = true := by decide +kernel

/-- `test_pulsar_operation_bindings_yaml_empty_validation`, tests/models/bindings/test_pulsar.py:325 -/
example : (do
  let v1 ← load .PulsarOperationBindings (.dict [])
  check (!(V.isNone v1)) : Option Unit).isSome = true := by decide +kernel

/-- `test_pulsar_message_bindings_serialization`, tests/models/bindings/test_pulsar.py:338 -/
example : (do
  let v1 ← make .PulsarMessageBindings []
  check (eq (dump v1) (.dict [])) : Option Unit).isSome = true := by decide +kernel

/-- `test_pulsar_message_bindings_python_validation_error`, tests/models/bindings/test_pulsar.py:344 -/
example : (do
  raises (do
    discard (make .PulsarMessageBindings [(p!"some_field", (.str p!"value"))]) : Option Unit) : Option Unit).isSome = true := by decide +kernel

/-- `test_pulsar_message_bindings_yaml_validation_error`, tests/models/bindings/test_pulsar.py:349 -/
example : (do
  raises (do
    discard (load .PulsarMessageBindings (.dict [(p!"some_field", (.str p!"value"))])) : Option Unit) : Option Unit).isSome = true := by decide +kernel

/-- `test_pulsar_message_bindings_yaml_empty_validation`, tests/models/bindings/test_pulsar.py:359 -/
example : (do
  let v1 ← load .PulsarMessageBindings (.dict [])
  check (!(V.isNone v1)) : Option Unit).isSome = true := by decide +kernel

end Verif.Conformance
