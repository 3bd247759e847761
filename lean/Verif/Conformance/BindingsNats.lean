import Verif.Conformance.Support

/-! Translated from tests/models/bindings/test_nats.py by tools/gen_conformance.py. -/

set_option maxRecDepth 100000
set_option linter.unusedVariables false
namespace Verif.Conformance
open Verif Verif.Gen Verif.Pyd

/-- `test_nats_server_bindings_serialization`, tests/models/bindings/test_nats.py:54 -/
example : (do
  let v1 ← make .NATSServerBindings []
  check (eq (dump v1) (.dict [])) : Option Unit).isSome = true := by decide +kernel

/-- `test_nats_server_bindings_python_validation_error`, tests/models/bindings/test_nats.py:60 -/
example : (do
  raises (do
    discard (make .NATSServerBindings [(p!"some_field", (.str p!"value"))]) : Option Unit) : Option Unit).isSome = true := by decide +kernel

/-- `test_nats_server_bindings_yaml_validation_error`, tests/models/bindings/test_nats.py:65 -/
example : (do
  raises (do
    discard (load .NATSServerBindings (.dict [(p!"some_field", (.str p!"value"))])) : Option Unit) : Option Unit).isSome = true := by decide +kernel

/-- `test_nats_server_bindings_yaml_empty_validation`, tests/models/bindings/test_nats.py:75 -/
example : (do
  let v1 ← load .NATSServerBindings (.dict [])
  check (!(V.isNone v1)) : Option Unit).isSome = true := by decide +kernel

/-- `test_nats_channel_bindings_serialization`, tests/models/bindings/test_nats.py:88 -/
example : (do
  let v1 ← make .NATSChannelBindings []
  check (eq (dump v1) (.dict [])) : Option Unit).isSome = true := by decide +kernel

/-- `test_nats_channel_bindings_python_validation_error`, tests/models/bindings/test_nats.py:94 -/
example : (do
  raises (do
    discard (make .NATSChannelBindings [(p!"some_field", (.str p!"value"))]) : Option Unit) : Option Unit).isSome = true := by decide +kernel

/-- `test_nats_channel_bindings_yaml_validation_error`, tests/models/bindings/test_nats.py:99 -/
example : (do
  raises (do
    discard (load .NATSChannelBindings (.dict [(p!"some_field", (.str p!"value"))])) : Option Unit) : Option Unit).isSome = true := by decide +kernel

/-- `test_nats_channel_bindings_yaml_empty_validation`, tests/models/bindings/test_nats.py:109 -/
example : (do
  let v1 ← load .NATSChannelBindings (.dict [])
  check (!(V.isNone v1)) : Option Unit).isSome = true := by decide +kernel

/-- `test_nats_operation_bindings_validation_case_operation_binding_with_queue`, tests/models/bindings/test_nats.py:123 -/
example : (do
  let v1 ← load .NATSOperationBindings (.dict [(p!"queue", (.str p!"my-queue")), (p!"bindingVersion", (.str p!"0.1.0"))])
  check (!(V.isNone v1))
  let v2 ← get v1 p!"binding_version"
  check (eq v2 (.str p!"0.1.0")) : Option Unit).isSome = true := by decide +kernel

/-- `test_nats_operation_bindings_serialization_case_nats_operation_binding_serialization_empty`, tests/models/bindings/test_nats.py:137 -/
example : (do
  let v1 ← make .NATSOperationBindings []
  check (eq (dump v1) (.dict [(p!"bindingVersion", (.str p!"0.1.0"))])) : Option Unit).isSome = true := by decide +kernel

/-- `test_nats_operation_bindings_serialization_case_nats_operation_binding_serialization_with_queue`, tests/models/bindings/test_nats.py:137 -/
example : (do
  let v1 ← make .NATSOperationBindings [(p!"queue", (.str p!"my-queue"))]
  check (eq (dump v1) (.dict [(p!"queue", (.str p!"my-queue")), (p!"bindingVersion", (.str p!"0.1.0"))])) : Option Unit).isSome = true := by decide +kernel

/-- `test_nats_operation_binding_queue_validation`, tests/models/bindings/test_nats.py:146 -/
example : (do
  let v1 ← load .NATSOperationBindings (.dict [(p!"queue", (.str p!"my-queue")), (p!"bindingVersion", (.str p!"0.1.0"))])
  let v2 ← get v1 p!"queue"
  check (eq v2 (.str p!"my-queue"))
  let v3 ← get v1 p!"binding_version"
  check (eq v3 (.str p!"0.1.0")) : Option Unit).isSome = true := by decide +kernel

/-- `test_nats_operation_bindings_python_validation_error`, tests/models/bindings/test_nats.py:159 -/
example : (do
  raises (do
    discard (make .NATSOperationBindings [(p!"invalid_field", (.str p!"value"))]) : Option Unit) : Option Unit).isSome = true := by decide +kernel

/-- `test_nats_operation_bindings_yaml_validation_error`, tests/models/bindings/test_nats.py:164 -/
example : (do
  raises (do
    discard (load .NATSOperationBindings (.dict [(p!"queue", (.str p!"my-queue")), (p!"invalid_field", (.str p!"value")), (p!"bindingVersion", (.str p!"0.1.0"))])) : Option Unit) : Option Unit).isSome = true := by decide +kernel

/-- `test_nats_message_bindings_serialization`, tests/models/bindings/test_nats.py:180 -/
example : (do
  let v1 ← make .NATSMessageBindings []
  check (eq (dump v1) (.dict [])) : Option Unit).isSome = true := by decide +kernel

/-- `test_nats_message_bindings_python_validation_error`, tests/models/bindings/test_nats.py:186 -/
example : (do
  raises (do
    discard (make .NATSMessageBindings [(p!"some_field", (.str p!"value"))]) : Option Unit) : Option Unit).isSome = true := by decide +kernel

/-- `test_nats_message_bindings_yaml_validation_error`, tests/models/bindings/test_nats.py:191 -/
example : (do
  raises (do
    discard (load .NATSMessageBindings (.dict [(p!"some_field", (.str p!"value"))])) : Option Unit) : Option Unit).isSome = true := by decide +kernel

/-- `test_nats_message_bindings_yaml_empty_validation`, tests/models/bindings/test_nats.py:201 -/
example : (do
  let v1 ← load .NATSMessageBindings (.dict [])
  check (!(V.isNone v1)) : Option Unit).isSome = true := by decide +kernel

end Verif.Conformance
