import Verif.Conformance.Support

/-! Translated from tests/models/bindings/test_anypointmq.py by tools/gen_conformance.py. -/

set_option maxRecDepth 100000
set_option linter.unusedVariables false
namespace Verif.Conformance
open Verif Verif.Gen Verif.Pyd

/-- `test_anypointmq_server_bindings_serialization`, tests/models/bindings/test_anypointmq.py:134 -/
example : (do
  let v1 ← make .AnypointMQServerBindings []
  check (eq (dump v1) (.dict [])) : Option Unit).isSome = true := by decide +kernel

/-- `test_anypointmq_server_bindings_python_validation_error`, tests/models/bindings/test_anypointmq.py:140 -/
example : (do
  raises (do
    discard (make .AnypointMQServerBindings [(p!"some_field", (.str p!"value"))]) : Option Unit) : Option Unit).isSome = true := by decide +kernel

/-- `test_anypointmq_server_bindings_yaml_validation_error`, tests/models/bindings/test_anypointmq.py:145 -/
example : (do
  raises (do
    discard (load .AnypointMQServerBindings (.dict [(p!"some_field", (.str p!"value"))])) : Option Unit) : Option Unit).isSome = true := by decide +kernel

/-- `test_anypointmq_server_bindings_yaml_empty_validation`, tests/models/bindings/test_anypointmq.py:155 -/
example : (do
  let v1 ← load .AnypointMQServerBindings (.dict [])
  check (!(V.isNone v1)) : Option Unit).isSome = true := by decide +kernel

/-- `test_anypointmq_channel_bindings_validation_case_channel_binding_exchange`, tests/models/bindings/test_anypointmq.py:172 -/
example : (do
  let v1 ← load .AnypointMQChannelBindings (.dict [(p!"destination", (.str p!"user-signup-exchg")), (p!"destinationType", (.str p!"exchange")), (p!"bindingVersion", (.str p!"0.1.0"))])
  check (!(V.isNone v1))
  let v2 ← get v1 p!"binding_version"
  check (eq v2 (.str p!"0.1.0")) : Option Unit).isSome = true := by decide +kernel

/-- `test_anypointmq_channel_bindings_validation_case_channel_binding_fifo_queue`, tests/models/bindings/test_anypointmq.py:172 -/
example : (do
  let v1 ← load .AnypointMQChannelBindings (.dict [(p!"destination", (.str p!"user-signup-queue")), (p!"destinationType", (.str p!"fifo-queue")), (p!"bindingVersion", (.str p!"0.1.0"))])
  check (!(V.isNone v1))
  let v2 ← get v1 p!"binding_version"
  check (eq v2 (.str p!"0.1.0")) : Option Unit).isSome = true := by decide +kernel

/-- `test_anypointmq_channel_bindings_serialization_case_anypointmq_channel_binding_serialization_empty`, tests/models/bindings/test_anypointmq.py:189 -/
example : (do
  let v1 ← make .AnypointMQChannelBindings []
  check (eq (dump v1) (.dict [(p!"destinationType", (.str p!"queue")), (p!"bindingVersion", (.str p!"0.1.0"))])) : Option Unit).isSome = true := by decide +kernel

/-- `test_anypointmq_channel_bindings_serialization_case_anypointmq_channel_binding_serialization_exchange`, tests/models/bindings/test_anypointmq.py:189 -/
example : (do
  let v1 ← make .AnypointMQChannelBindings [(p!"destination", (.str p!"user-signup-exchg")), (p!"destination_type", (.str p!"exchange"))]
  check (eq (dump v1) (.dict [(p!"destination", (.str p!"user-signup-exchg")), (p!"destinationType", (.str p!"exchange")), (p!"bindingVersion", (.str p!"0.1.0"))])) : Option Unit).isSome = true := by decide +kernel

/-- `test_anypointmq_channel_bindings_serialization_case_anypointmq_channel_binding_serialization_fifo_queue`, tests/models/bindings/test_anypointmq.py:189 -/
example : (do
  let v1 ← make .AnypointMQChannelBindings [(p!"destination", (.str p!"user-signup-queue")), (p!"destination_type", (.str p!"fifo-queue"))]
  check (eq (dump v1) (.dict [(p!"destination", (.str p!"user-signup-queue")), (p!"destinationType", (.str p!"fifo-queue")), (p!"bindingVersion", (.str p!"0.1.0"))])) : Option Unit).isSome = true := by decide +kernel

/-- `test_anypointmq_channel_binding_all_fields_validation`, tests/models/bindings/test_anypointmq.py:198 -/
example : (do
  let v1 ← load .AnypointMQChannelBindings (.dict [(p!"destination", (.str p!"user-signup-queue")), (p!"destinationType", (.str p!"fifo-queue")), (p!"bindingVersion", (.str p!"0.1.0"))])
  let v2 ← get v1 p!"destination"
  check (eq v2 (.str p!"user-signup-queue"))
  let v3 ← get v1 p!"destination_type"
  check (eq v3 (.str p!"fifo-queue"))
  let v4 ← get v1 p!"binding_version"
  check (eq v4 (.str p!"0.1.0")) : Option Unit).isSome = true := by decide +kernel

/-- `test_anypointmq_channel_bindings_python_validation_error`, tests/models/bindings/test_anypointmq.py:215 -/
example : (do
  raises (do
    discard (make .AnypointMQChannelBindings [(p!"some_field", (.str p!"value"))]) : Option Unit) : Option Unit).isSome = true := by decide +kernel

/-- `test_anypointmq_channel_bindings_yaml_validation_error`, tests/models/bindings/test_anypointmq.py:220 -/
example : (do
  raises (do
    discard (load .AnypointMQChannelBindings (.dict [(p!"some_field", (.str p!"value")), (p!"bindingVersion", (.str p!"0.1.0"))])) : Option Unit) : Option Unit).isSome = true := by decide +kernel

/-- `test_anypointmq_operation_bindings_serialization`, tests/models/bindings/test_anypointmq.py:235 -/
example : (do
  let v1 ← make .AnypointMQOperationBindings []
  check (eq (dump v1) (.dict [])) : Option Unit).isSome = true := by decide +kernel

/-- `test_anypointmq_operation_bindings_python_validation_error`, tests/models/bindings/test_anypointmq.py:241 -/
example : (do
  raises (do
    discard (make .AnypointMQOperationBindings [(p!"some_field", (.str p!"value"))]) : Option Unit) : Option Unit).isSome = true := by decide +kernel

/-- `test_anypointmq_operation_bindings_yaml_validation_error`, tests/models/bindings/test_anypointmq.py:246 -/
example : (do
  raises (do
    discard (load .AnypointMQOperationBindings (.dict [(p!"some_field", (.str p!"value"))])) : Option Unit) : Option Unit).isSome = true := by decide +kernel

/-- `test_anypointmq_operation_bindings_yaml_empty_validation`, tests/models/bindings/test_anypointmq.py:256 -/
example : (do
  let v1 ← load .AnypointMQOperationBindings (.dict [])
  check (!(V.isNone v1)) : Option Unit).isSome = true := by decide +kernel

/-- `test_anypointmq_message_bindings_validation_case_message_binding_with_headers`, tests/models/bindings/test_anypointmq.py:272 -/
example : (do
  let v1 ← load .AnypointMQMessageBindings (.dict [(p!"headers", (.dict [(p!"type", (.str p!"object")), (p!"properties", (.dict [(p!"messageId", (.dict [(p!"type", (.str p!"string"))]))]))])), (p!"bindingVersion", (.str p!"0.1.0"))])
  check (!(V.isNone v1))
  let v2 ← get v1 p!"binding_version"
  check (eq v2 (.str p!"0.1.0")) : Option Unit).isSome = true := by decide +kernel

/-- `test_anypointmq_message_bindings_serialization_case_anypointmq_message_binding_serialization_empty`, tests/models/bindings/test_anypointmq.py:288 -/
example : (do
  let v1 ← make .AnypointMQMessageBindings []
  check (eq (dump v1) (.dict [(p!"bindingVersion", (.str p!"0.1.0"))])) : Option Unit).isSome = true := by decide +kernel

/-- `test_anypointmq_message_bindings_serialization_case_anypointmq_message_binding_serialization_with_headers`, tests/models/bindings/test_anypointmq.py:288 -/
example : (do
  let v1 ← make .Schema [(p!"type", (.str p!"string"))]
  let v2 ← make .Schema [(p!"type", (.str p!"object")), (p!"properties", (.dict [(p!"messageId", v1)]))]
  let v3 ← make .AnypointMQMessageBindings [(p!"headers", v2)]
  check (eq (dump v3) (.dict [(p!"headers", (.dict [(p!"type", (.str p!"object")), (p!"properties", (.dict [(p!"messageId", (.dict [(p!"type", (.str p!"string"))]))]))])), (p!"bindingVersion", (.str p!"0.1.0"))])) : Option Unit).isSome = true := by decide +kernel

/-- `test_anypointmq_message_binding_headers_schema_validation`, tests/models/bindings/test_anypointmq.py:297 -/
example : (do
  let v1 ← load .AnypointMQMessageBindings (.dict [(p!"headers", (.dict [(p!"type", (.str p!"object")), (p!"properties", (.dict [(p!"messageId", (.dict [(p!"type", (.str p!"string"))]))]))])), (p!"bindingVersion", (.str p!"0.1.0"))])
  let v2 ← get v1 p!"headers"
  check (!(V.isNone v2))
  let v3 ← get v1 p!"headers"
  check (isA .Schema v3)
  let v4 ← get v1 p!"headers"
  let v5 ← get v4 p!"type"
  check (eq v5 (.str p!"object"))
  let v6 ← get v1 p!"binding_version"
  check (eq v6 (.str p!"0.1.0")) : Option Unit).isSome = true := by decide +kernel

/-- `test_anypointmq_message_bindings_python_validation_error`, tests/models/bindings/test_anypointmq.py:318 -/
example : (do
  raises (do
    discard (make .AnypointMQMessageBindings [(p!"some_field", (.str p!"value"))]) : Option Unit) : Option Unit).isSome = true := by decide +kernel

/-- `test_anypointmq_message_bindings_yaml_validation_error`, tests/models/bindings/test_anypointmq.py:323 -/
example : (do
  raises (do
    discard (load .AnypointMQMessageBindings (.dict [(p!"some_field", (.str p!"value")), (p!"bindingVersion", (.str p!"0.1.0"))])) : Option Unit) : Option Unit).isSome = true := by decide +kernel

end Verif.Conformance
