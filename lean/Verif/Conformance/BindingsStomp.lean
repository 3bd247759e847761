import Verif.Conformance.Support

/-! Translated from tests/models/bindings/test_stomp.py by tools/gen_conformance.py. -/

set_option maxRecDepth 100000
set_option linter.unusedVariables false
namespace Verif.Conformance
open Verif Verif.Gen Verif.Pyd

/-- `test_stomp_server_bindings_serialization`, tests/models/bindings/test_stomp.py:19 -/
example : (do
  let v1 ← make .STOMPServerBindings []
  check (eq (dump v1) (.dict [])) : Option Unit).isSome = true := by decide +kernel

/-- `test_stomp_server_bindings_python_validation_error`, tests/models/bindings/test_stomp.py:25 -/
example : (do
  raises (do
    discard (make .STOMPServerBindings [(p!"some_field", (.str p!"value"))]) : Option Unit) : Option Unit).isSome = true := by decide +kernel

/-- `test_stomp_server_bindings_yaml_validation_error`, tests/models/bindings/test_stomp.py:30 -/
example : (do
  raises (do
    discard (load .STOMPServerBindings (.dict [(p!"some_field", (.str p!"value"))])) : Option Unit) : Option Unit).isSome = true := by decide +kernel

/-- `test_stomp_server_bindings_yaml_empty_validation`, tests/models/bindings/test_stomp.py:40 -/
example : (do
  let v1 ← load .STOMPServerBindings (.dict [])
  check (!(V.isNone v1)) : Option Unit).isSome = true := by decide +kernel

/-- `test_stomp_channel_bindings_serialization`, tests/models/bindings/test_stomp.py:53 -/
example : (do
  let v1 ← make .STOMPChannelBindings []
  check (eq (dump v1) (.dict [])) : Option Unit).isSome = true := by decide +kernel

/-- `test_stomp_channel_bindings_python_validation_error`, tests/models/bindings/test_stomp.py:59 -/
example : (do
  raises (do
    discard (make .STOMPChannelBindings [(p!"some_field", (.str p!"value"))]) : Option Unit) : Option Unit).isSome = true := by decide +kernel

/-- `test_stomp_channel_bindings_yaml_validation_error`, tests/models/bindings/test_stomp.py:64 -/
example : (do
  raises (do
    discard (load .STOMPChannelBindings (.dict [(p!"some_field", (.str p!"value"))])) : Option Unit) : Option Unit).isSome = true := by decide +kernel

/-- `test_stomp_channel_bindings_yaml_empty_validation`, tests/models/bindings/test_stomp.py:74 -/
example : (do
  let v1 ← load .STOMPChannelBindings (.dict [])
  check (!(V.isNone v1)) : Option Unit).isSome = true := by decide +kernel

/-- `test_stomp_operation_bindings_serialization`, tests/models/bindings/test_stomp.py:87 -/
example : (do
  let v1 ← make .STOMPOperationBindings []
  check (eq (dump v1) (.dict [])) : Option Unit).isSome = true := by decide +kernel

/-- `test_stomp_operation_bindings_python_validation_error`, tests/models/bindings/test_stomp.py:93 -/
example : (do
  raises (do
    discard (make .STOMPOperationBindings [(p!"some_field", (.str p!"value"))]) : Option Unit) : Option Unit).isSome = true := by decide +kernel

/-- `test_stomp_operation_bindings_yaml_validation_error`, tests/models/bindings/test_stomp.py:98 -/
example : (do
  raises (do
    discard (load .STOMPOperationBindings (.dict [(p!"some_field", (.str p!"value"))])) : Option Unit) : Option Unit).isSome = true := by decide +kernel

/-- `test_stomp_operation_bindings_yaml_empty_validation`, tests/models/bindings/test_stomp.py:108 -/
example : (do
  let v1 ← load .STOMPOperationBindings (.dict [])
  check (!(V.isNone v1)) : Option Unit).isSome = true := by decide +kernel

/-- `test_stomp_message_bindings_serialization`, tests/models/bindings/test_stomp.py:121 -/
example : (do
  let v1 ← make .STOMPMessageBindings []
  check (eq (dump v1) (.dict [])) : Option Unit).isSome = true := by decide +kernel

/-- `test_stomp_message_bindings_python_validation_error`, tests/models/bindings/test_stomp.py:127 -/
example : (do
  raises (do
    discard (make .STOMPMessageBindings [(p!"some_field", (.str p!"value"))]) : Option Unit) : Option Unit).isSome = true := by decide +kernel

/-- `test_stomp_message_bindings_yaml_validation_error`, tests/models/bindings/test_stomp.py:132 -/
example : (do
  raises (do
    discard (load .STOMPMessageBindings (.dict [(p!"some_field", (.str p!"value"))])) : Option Unit) : Option Unit).isSome = true := by decide +kernel

/-- `test_stomp_message_bindings_yaml_empty_validation`, tests/models/bindings/test_stomp.py:142 -/
example : (do
  let v1 ← load .STOMPMessageBindings (.dict [])
  check (!(V.isNone v1)) : Option Unit).isSome = true := by decide +kernel

end Verif.Conformance
