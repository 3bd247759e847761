import Verif.Conformance.Support

/-! Translated from tests/models/bindings/test_amqp1.py by tools/gen_conformance.py. -/

set_option maxRecDepth 100000
set_option linter.unusedVariables false
namespace Verif.Conformance
open Verif Verif.Gen Verif.Pyd

/-- `test_amqp1_server_bindings_serialization`, tests/models/bindings/test_amqp1.py:19 -/
example : (do
  let v1 ← make .AMQP1ServerBindings []
  check (eq (dump v1) (.dict [])) : Option Unit).isSome = true := by decide +kernel

/-- `test_amqp1_server_bindings_python_validation_error`, tests/models/bindings/test_amqp1.py:25 -/
example : (do
  raises (do
    discard (make .AMQP1ServerBindings [(p!"some_field", (.str p!"value"))]) : Option Unit) : Option Unit).isSome = true := by decide +kernel

/-- `test_amqp1_server_bindings_yaml_validation_error`, tests/models/bindings/test_amqp1.py:30 -/
example : (do
  raises (do
    discard (load .AMQP1ServerBindings (.dict [(p!"some_field", (.str p!"value"))])) : Option Unit) : Option Unit).isSome = true := by decide +kernel

/-- `test_amqp1_server_bindings_yaml_empty_validation`, tests/models/bindings/test_amqp1.py:40 -/
example : (do
  let v1 ← load .AMQP1ServerBindings (.dict [])
  check (!(V.isNone v1)) : Option Unit).isSome = true := by decide +kernel

/-- `test_amqp1_channel_bindings_serialization`, tests/models/bindings/test_amqp1.py:53 -/
example : (do
  let v1 ← make .AMQP1ChannelBindings []
  check (eq (dump v1) (.dict [])) : Option Unit).isSome = true := by decide +kernel

/-- `test_amqp1_channel_bindings_python_validation_error`, tests/models/bindings/test_amqp1.py:59 -/
example : (do
  raises (do
    discard (make .AMQP1ChannelBindings [(p!"some_field", (.str p!"value"))]) : Option Unit) : Option Unit).isSome = true := by decide +kernel

/-- `test_amqp1_channel_bindings_yaml_validation_error`, tests/models/bindings/test_amqp1.py:64 -/
example : (do
  raises (do
    discard (load .AMQP1ChannelBindings (.dict [(p!"some_field", (.str p!"value"))])) : Option Unit) : Option Unit).isSome = true := by decide +kernel

/-- `test_amqp1_channel_bindings_yaml_empty_validation`, tests/models/bindings/test_amqp1.py:74 -/
example : (do
  let v1 ← load .AMQP1ChannelBindings (.dict [])
  check (!(V.isNone v1)) : Option Unit).isSome = true := by decide +kernel

/-- `test_amqp1_operation_bindings_serialization`, tests/models/bindings/test_amqp1.py:87 -/
example : (do
  let v1 ← make .AMQP1OperationBindings []
  check (eq (dump v1) (.dict [])) : Option Unit).isSome = true := by decide +kernel

/-- `test_amqp1_operation_bindings_python_validation_error`, tests/models/bindings/test_amqp1.py:93 -/
example : (do
  raises (do
    discard (make .AMQP1OperationBindings [(p!"some_field", (.str p!"value"))]) : Option Unit) : Option Unit).isSome = true := by decide +kernel

/-- `test_amqp1_operation_bindings_yaml_validation_error`, tests/models/bindings/test_amqp1.py:98 -/
example : (do
  raises (do
    discard (load .AMQP1OperationBindings (.dict [(p!"some_field", (.str p!"value"))])) : Option Unit) : Option Unit).isSome = true := by decide +kernel

/-- `test_amqp1_operation_bindings_yaml_empty_validation`, tests/models/bindings/test_amqp1.py:108 -/
example : (do
  let v1 ← load .AMQP1OperationBindings (.dict [])
  check (!(V.isNone v1)) : Option Unit).isSome = true := by decide +kernel

/-- `test_amqp1_message_bindings_serialization`, tests/models/bindings/test_amqp1.py:121 -/
example : (do
  let v1 ← make .AMQP1MessageBindings []
  check (eq (dump v1) (.dict [])) : Option Unit).isSome = true := by decide +kernel

/-- `test_amqp1_message_bindings_python_validation_error`, tests/models/bindings/test_amqp1.py:127 -/
example : (do
  raises (do
    discard (make .AMQP1MessageBindings [(p!"some_field", (.str p!"value"))]) : Option Unit) : Option Unit).isSome = true := by decide +kernel

/-- `test_amqp1_message_bindings_yaml_validation_error`, tests/models/bindings/test_amqp1.py:132 -/
example : (do
  raises (do
    discard (load .AMQP1MessageBindings (.dict [(p!"some_field", (.str p!"value"))])) : Option Unit) : Option Unit).isSome = true := by decide +kernel

/-- `test_amqp1_message_bindings_yaml_empty_validation`, tests/models/bindings/test_amqp1.py:142 -/
example : (do
  let v1 ← load .AMQP1MessageBindings (.dict [])
  check (!(V.isNone v1)) : Option Unit).isSome = true := by decide +kernel

end Verif.Conformance
