import Verif.Conformance.Support

/-! Translated from tests/models/bindings/test_mercure.py by tools/gen_conformance.py. -/

set_option maxRecDepth 100000
set_option linter.unusedVariables false
namespace Verif.Conformance
open Verif Verif.Gen Verif.Pyd

/-- `test_mercure_server_bindings_serialization`, tests/models/bindings/test_mercure.py:19 -/
example : (do
  let v1 ← make .MercureServerBindings []
  check (eq (dump v1) (.dict [])) : Option Unit).isSome = true := by decide +kernel

/-- `test_mercure_server_bindings_python_validation_error`, tests/models/bindings/test_mercure.py:25 -/
example : (do
  raises (do
    discard (make .MercureServerBindings [(p!"some_field", (.str p!"value"))]) : Option Unit) : Option Unit).isSome = true := by decide +kernel

/-- `test_mercure_server_bindings_yaml_validation_error`, tests/models/bindings/test_mercure.py:30 -/
example : (do
  raises (do
    discard (load .MercureServerBindings (.dict [(p!"some_field", (.str p!"value"))])) : Option Unit) : Option Unit).isSome = true := by decide +kernel

/-- `test_mercure_server_bindings_yaml_empty_validation`, tests/models/bindings/test_mercure.py:40 -/
example : (do
  let v1 ← load .MercureServerBindings (.dict [])
  check (!(V.isNone v1)) : Option Unit).isSome = true := by decide +kernel

/-- `test_mercure_channel_bindings_serialization`, tests/models/bindings/test_mercure.py:53 -/
example : (do
  let v1 ← make .MercureChannelBindings []
  check (eq (dump v1) (.dict [])) : Option Unit).isSome = true := by decide +kernel

/-- `test_mercure_channel_bindings_python_validation_error`, tests/models/bindings/test_mercure.py:59 -/
example : (do
  raises (do
    discard (make .MercureChannelBindings [(p!"some_field", (.str p!"value"))]) : Option Unit) : Option Unit).isSome = true := by decide +kernel

/-- `test_mercure_channel_bindings_yaml_validation_error`, tests/models/bindings/test_mercure.py:64 -/
example : (do
  raises (do
    discard (load .MercureChannelBindings (.dict [(p!"some_field", (.str p!"value"))])) : Option Unit) : Option Unit).isSome = true := by decide +kernel

/-- `test_mercure_channel_bindings_yaml_empty_validation`, tests/models/bindings/test_mercure.py:74 -/
example : (do
  let v1 ← load .MercureChannelBindings (.dict [])
  check (!(V.isNone v1)) : Option Unit).isSome = true := by decide +kernel

/-- `test_mercure_operation_bindings_serialization`, tests/models/bindings/test_mercure.py:87 -/
example : (do
  let v1 ← make .MercureOperationBindings []
  check (eq (dump v1) (.dict [])) : Option Unit).isSome = true := by decide +kernel

/-- `test_mercure_operation_bindings_python_validation_error`, tests/models/bindings/test_mercure.py:93 -/
example : (do
  raises (do
    discard (make .MercureOperationBindings [(p!"some_field", (.str p!"value"))]) : Option Unit) : Option Unit).isSome = true := by decide +kernel

/-- `test_mercure_operation_bindings_yaml_validation_error`, tests/models/bindings/test_mercure.py:98 -/
example : (do
  raises (do
    discard (load .MercureOperationBindings (.dict [(p!"some_field", (.str p!"value"))])) : Option Unit) : Option Unit).isSome = true := by decide +kernel

/-- `test_mercure_operation_bindings_yaml_empty_validation`, tests/models/bindings/test_mercure.py:108 -/
example : (do
  let v1 ← load .MercureOperationBindings (.dict [])
  check (!(V.isNone v1)) : Option Unit).isSome = true := by decide +kernel

/-- `test_mercure_message_bindings_serialization`, tests/models/bindings/test_mercure.py:121 -/
example : (do
  let v1 ← make .MercureMessageBindings []
  check (eq (dump v1) (.dict [])) : Option Unit).isSome = true := by decide +kernel

/-- `test_mercure_message_bindings_python_validation_error`, tests/models/bindings/test_mercure.py:127 -/
example : (do
  raises (do
    discard (make .MercureMessageBindings [(p!"some_field", (.str p!"value"))]) : Option Unit) : Option Unit).isSome = true := by decide +kernel

/-- `test_mercure_message_bindings_yaml_validation_error`, tests/models/bindings/test_mercure.py:132 -/
example : (do
  raises (do
    discard (load .MercureMessageBindings (.dict [(p!"some_field", (.str p!"value"))])) : Option Unit) : Option Unit).isSome = true := by decide +kernel

/-- `test_mercure_message_bindings_yaml_empty_validation`, tests/models/bindings/test_mercure.py:142 -/
example : (do
  let v1 ← load .MercureMessageBindings (.dict [])
  check (!(V.isNone v1)) : Option Unit).isSome = true := by decide +kernel

end Verif.Conformance
