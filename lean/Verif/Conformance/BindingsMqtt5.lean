import Verif.Conformance.Support

/-! Translated from tests/models/bindings/test_mqtt5.py by tools/gen_conformance.py. -/

set_option maxRecDepth 100000
set_option linter.unusedVariables false
namespace Verif.Conformance
open Verif Verif.Gen Verif.Pyd

/-- `test_mqtt5_server_bindings_validation_case_server_binding_integer`, tests/models/bindings/test_mqtt5.py:85 -/
example : (do
  let v1 ← load .MQTT5ServerBindings (.dict [(p!"sessionExpiryInterval", (.int (60))), (p!"bindingVersion", (.str p!"0.2.0"))])
  check (!(V.isNone v1))
  let v2 ← get v1 p!"binding_version"
  check (eq v2 (.str p!"0.2.0")) : Option Unit).isSome = true := by decide +kernel

/-- `test_mqtt5_server_bindings_validation_case_server_binding_schema`, tests/models/bindings/test_mqtt5.py:85 -/
example : (do
  let v1 ← load .MQTT5ServerBindings (.dict [(p!"sessionExpiryInterval", (.dict [(p!"type", (.str p!"integer")), (p!"minimum", (.int (100)))])), (p!"bindingVersion", (.str p!"0.2.0"))])
  check (!(V.isNone v1))
  let v2 ← get v1 p!"binding_version"
  check (eq v2 (.str p!"0.2.0")) : Option Unit).isSome = true := by decide +kernel

/-- `test_mqtt5_server_bindings_serialization_case_mqtt5_server_binding_serialization_empty`, tests/models/bindings/test_mqtt5.py:100 -/
example : (do
  let v1 ← make .MQTT5ServerBindings []
  check (eq (dump v1) (.dict [(p!"bindingVersion", (.str p!"0.2.0"))])) : Option Unit).isSome = true := by decide +kernel

/-- `test_mqtt5_server_bindings_serialization_case_mqtt5_server_binding_serialization_integer`, tests/models/bindings/test_mqtt5.py:100 -/
example : (do
  let v1 ← make .MQTT5ServerBindings [(p!"session_expiry_interval", (.int (60)))]
  check (eq (dump v1) (.dict [(p!"sessionExpiryInterval", (.int (60))), (p!"bindingVersion", (.str p!"0.2.0"))])) : Option Unit).isSome = true := by decide +kernel

/-- `test_mqtt5_server_bindings_serialization_case_mqtt5_server_binding_serialization_schema`, tests/models/bindings/test_mqtt5.py:100 -/
example : (do
  let v1 ← make .Schema [(p!"type", (.str p!"integer")), (p!"minimum", (.int (100)))]
  let v2 ← make .MQTT5ServerBindings [(p!"session_expiry_interval", v1)]
  check (eq (dump v2) (.dict [(p!"sessionExpiryInterval", (.dict [(p!"type", (.str p!"integer")), (p!"minimum", (.int (100)))])), (p!"bindingVersion", (.str p!"0.2.0"))])) : Option Unit).isSome = true := by decide +kernel

/-- `test_mqtt5_server_binding_session_expiry_interval_schema_validation`, tests/models/bindings/test_mqtt5.py:109 -/
example : (do
  let v1 ← load .MQTT5ServerBindings (.dict [(p!"sessionExpiryInterval", (.dict [(p!"type", (.str p!"integer")), (p!"minimum", (.int (100)))])), (p!"bindingVersion", (.str p!"0.2.0"))])
  let v2 ← get v1 p!"session_expiry_interval"
  check (!(V.isNone v2))
  let v3 ← get v1 p!"session_expiry_interval"
  check (isA .Schema v3)
  let v4 ← get v1 p!"session_expiry_interval"
  let v5 ← get v4 p!"type"
  check (eq v5 (.str p!"integer"))
  let v6 ← get v1 p!"binding_version"
  check (eq v6 (.str p!"0.2.0")) : Option Unit).isSome = true := by decide +kernel

/-- `test_mqtt5_server_bindings_python_validation_error`, tests/models/bindings/test_mqtt5.py:128 -/
example : (do
  raises (do
    discard (make .MQTT5ServerBindings [(p!"some_field", (.str p!"value"))]) : Option Unit) : Option Unit).isSome = true := by decide +kernel

/-- `test_mqtt5_server_bindings_yaml_validation_error`, tests/models/bindings/test_mqtt5.py:133 -/
example : (do
  raises (do
    discard (load .MQTT5ServerBindings (.dict [(p!"some_field", (.str p!"value")), (p!"bindingVersion", (.str p!"0.2.0"))])) : Option Unit) : Option Unit).isSome = true := by decide +kernel

/-- `test_mqtt5_channel_bindings_serialization`, tests/models/bindings/test_mqtt5.py:148 -/
example : (do
  let v1 ← make .MQTT5ChannelBindings []
  check (eq (dump v1) (.dict [])) : Option Unit).isSome = true := by decide +kernel

/-- `test_mqtt5_channel_bindings_python_validation_error`, tests/models/bindings/test_mqtt5.py:154 -/
example : (do
  raises (do
    discard (make .MQTT5ChannelBindings [(p!"some_field", (.str p!"value"))]) : Option Unit) : Option Unit).isSome = true := by decide +kernel

/-- `test_mqtt5_channel_bindings_yaml_validation_error`, tests/models/bindings/test_mqtt5.py:159 -/
example : (do
  raises (do
    discard (load .MQTT5ChannelBindings (.dict [(p!"some_field", (.str p!"value"))])) : Option Unit) : Option Unit).isSome = true := by decide +kernel

/-- `test_mqtt5_channel_bindings_yaml_empty_validation`, tests/models/bindings/test_mqtt5.py:169 -/
example : (do
  let v1 ← load .MQTT5ChannelBindings (.dict [])
  check (!(V.isNone v1)) : Option Unit).isSome = true := by decide +kernel

/-- `test_mqtt5_operation_bindings_serialization`, tests/models/bindings/test_mqtt5.py:182 -/
example : (do
  let v1 ← make .MQTT5OperationBindings []
  check (eq (dump v1) (.dict [])) : Option Unit).isSome = true := by decide +kernel

/-- `test_mqtt5_operation_bindings_python_validation_error`, tests/models/bindings/test_mqtt5.py:188 -/
example : (do
  raises (do
    discard (make .MQTT5OperationBindings [(p!"some_field", (.str p!"value"))]) : Option Unit) : Option Unit).isSome = true := by decide +kernel

/-- `test_mqtt5_operation_bindings_yaml_validation_error`, tests/models/bindings/test_mqtt5.py:193 -/
example : (do
  raises (do
    discard (load .MQTT5OperationBindings (.dict [(p!"some_field", (.str p!"value"))])) : Option Unit) : Option Unit).isSome = true := by decide +kernel

/-- `test_mqtt5_operation_bindings_yaml_empty_validation`, tests/models/bindings/test_mqtt5.py:203 -/
example : (do
  let v1 ← load .MQTT5OperationBindings (.dict [])
  check (!(V.isNone v1)) : Option Unit).isSome = true := by decide +kernel

/-- `test_mqtt5_message_bindings_serialization`, tests/models/bindings/test_mqtt5.py:216 -/
example : (do
  let v1 ← make .MQTT5MessageBindings []
  check (eq (dump v1) (.dict [])) : Option Unit).isSome = true := by decide +kernel

/-- `test_mqtt5_message_bindings_python_validation_error`, tests/models/bindings/test_mqtt5.py:222 -/
example : (do
  raises (do
    discard (make .MQTT5MessageBindings [(p!"some_field", (.str p!"value"))]) : Option Unit) : Option Unit).isSome = true := by decide +kernel

/-- `test_mqtt5_message_bindings_yaml_validation_error`, tests/models/bindings/test_mqtt5.py:227 -/
example : (do
  raises (do
    discard (load .MQTT5MessageBindings (.dict [(p!"some_field", (.str p!"value"))])) : Option Unit) : Option Unit).isSome = true := by decide +kernel

/-- `test_mqtt5_message_bindings_yaml_empty_validation`, tests/models/bindings/test_mqtt5.py:237 -/
example : (do
  let v1 ← load .MQTT5MessageBindings (.dict [])
  check (!(V.isNone v1)) : Option Unit).isSome = true := by decide +kernel

end Verif.Conformance
