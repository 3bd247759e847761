import Verif.Conformance.Support

/-! Translated from tests/models/bindings/test_websockets.py by tools/gen_conformance.py. -/

set_option maxRecDepth 100000
set_option linter.unusedVariables false
namespace Verif.Conformance
open Verif Verif.Gen Verif.Pyd

/-- `test_websockets_server_bindings_serialization`, tests/models/bindings/test_websockets.py:135 -/
example : (do
  let v1 ← make .WebSocketsServerBindings []
  check (eq (dump v1) (.dict [])) : Option Unit).isSome = true := by decide +kernel

/-- `test_websockets_server_bindings_python_validation_error`, tests/models/bindings/test_websockets.py:141 -/
example : (do
  raises (do
    discard (make .WebSocketsServerBindings [(p!"some_field", (.str p!"value"))]) : Option Unit) : Option Unit).isSome = true := by decide +kernel

/-- `test_websockets_server_bindings_yaml_validation_error`, tests/models/bindings/test_websockets.py:146 -/
example : (do
  raises (do
    discard (load .WebSocketsServerBindings (.dict [(p!"some_field", (.str p!"value"))])) : Option Unit) : Option Unit).isSome = true := by decide +kernel

/-- `test_websockets_server_bindings_yaml_empty_validation`, tests/models/bindings/test_websockets.py:156 -/
example : (do
  let v1 ← load .WebSocketsServerBindings (.dict [])
  check (!(V.isNone v1)) : Option Unit).isSome = true := by decide +kernel

/-- `test_websockets_channel_bindings_validation_case_channel_binding_get`, tests/models/bindings/test_websockets.py:177 -/
example : (do
  let v1 ← load .WebSocketsChannelBindings (.dict [(p!"method", (.str p!"GET")), (p!"bindingVersion", (.str p!"0.1.0"))])
  check (!(V.isNone v1))
  let v2 ← get v1 p!"binding_version"
  check (eq v2 (.str p!"0.1.0")) : Option Unit).isSome = true := by decide +kernel

/-- `test_websockets_channel_bindings_validation_case_channel_binding_post_with_query`, tests/models/bindings/test_websockets.py:177 -/
example : (do
  let v1 ← load .WebSocketsChannelBindings (.dict [(p!"method", (.str p!"POST")), (p!"query", (.dict [(p!"type", (.str p!"object")), (p!"properties", (.dict [(p!"token", (.dict [(p!"type", (.str p!"string"))]))]))])), (p!"bindingVersion", (.str p!"0.1.0"))])
  check (!(V.isNone v1))
  let v2 ← get v1 p!"binding_version"
  check (eq v2 (.str p!"0.1.0")) : Option Unit).isSome = true := by decide +kernel

/-- `test_websockets_channel_bindings_validation_case_channel_binding_with_headers`, tests/models/bindings/test_websockets.py:177 -/
example : (do
  let v1 ← load .WebSocketsChannelBindings (.dict [(p!"method", (.str p!"GET")), (p!"headers", (.dict [(p!"type", (.str p!"object")), (p!"properties", (.dict [(p!"Authorization", (.dict [(p!"type", (.str p!"string"))]))]))])), (p!"bindingVersion", (.str p!"0.1.0"))])
  check (!(V.isNone v1))
  let v2 ← get v1 p!"binding_version"
  check (eq v2 (.str p!"0.1.0")) : Option Unit).isSome = true := by decide +kernel

/-- `test_websockets_channel_bindings_serialization_case_websockets_channel_binding_serialization_empty`, tests/models/bindings/test_websockets.py:193 -/
example : (do
  let v1 ← make .WebSocketsChannelBindings []
  check (eq (dump v1) (.dict [(p!"bindingVersion", (.str p!"0.1.0"))])) : Option Unit).isSome = true := by decide +kernel

/-- `test_websockets_channel_bindings_serialization_case_websockets_channel_binding_serialization_get`, tests/models/bindings/test_websockets.py:193 -/
example : (do
  let v1 ← make .WebSocketsChannelBindings [(p!"method", (.str p!"GET"))]
  check (eq (dump v1) (.dict [(p!"method", (.str p!"GET")), (p!"bindingVersion", (.str p!"0.1.0"))])) : Option Unit).isSome = true := by decide +kernel

/-- `test_websockets_channel_bindings_serialization_case_websockets_channel_binding_serialization_with_query`, tests/models/bindings/test_websockets.py:193 -/
example : (do
  let v1 ← make .Schema [(p!"type", (.str p!"string"))]
  let v2 ← make .Schema [(p!"type", (.str p!"object")), (p!"properties", (.dict [(p!"token", v1)]))]
  let v3 ← make .WebSocketsChannelBindings [(p!"method", (.str p!"POST")), (p!"query", v2)]
  check (eq (dump v3) (.dict [(p!"method", (.str p!"POST")), (p!"query", (.dict [(p!"type", (.str p!"object")), (p!"properties", (.dict [(p!"token", (.dict [(p!"type", (.str p!"string"))]))]))])), (p!"bindingVersion", (.str p!"0.1.0"))])) : Option Unit).isSome = true := by decide +kernel

/-- `test_websockets_channel_bindings_serialization_case_websockets_channel_binding_serialization_with_headers`, tests/models/bindings/test_websockets.py:193 -/
example : (do
  let v1 ← make .Schema [(p!"type", (.str p!"string"))]
  let v2 ← make .Schema [(p!"type", (.str p!"object")), (p!"properties", (.dict [(p!"Authorization", v1)]))]
  let v3 ← make .WebSocketsChannelBindings [(p!"method", (.str p!"GET")), (p!"headers", v2)]
  check (eq (dump v3) (.dict [(p!"method", (.str p!"GET")), (p!"headers", (.dict [(p!"type", (.str p!"object")), (p!"properties", (.dict [(p!"Authorization", (.dict [(p!"type", (.str p!"string"))]))]))])), (p!"bindingVersion", (.str p!"0.1.0"))])) : Option Unit).isSome = true := by decide +kernel

/-- `test_websockets_channel_binding_query_schema_validation`, tests/models/bindings/test_websockets.py:202 -/
example : (do
  let v1 ← load .WebSocketsChannelBindings (.dict [(p!"method", (.str p!"POST")), (p!"query", (.dict [(p!"type", (.str p!"object")), (p!"properties", (.dict [(p!"token", (.dict [(p!"type", (.str p!"string"))]))]))])), (p!"bindingVersion", (.str p!"0.1.0"))])
  let v2 ← get v1 p!"method"
  check (eq v2 (.str p!"POST"))
  let v3 ← get v1 p!"query"
  check (!(V.isNone v3))
  let v4 ← get v1 p!"query"
  check (isA .Schema v4)
  let v5 ← get v1 p!"query"
  let v6 ← get v5 p!"type"
  check (eq v6 (.str p!"object"))
  let v7 ← get v1 p!"binding_version"
  check (eq v7 (.str p!"0.1.0")) : Option Unit).isSome = true := by decide +kernel

/-- `test_websockets_channel_binding_headers_schema_validation`, tests/models/bindings/test_websockets.py:223 -/
example : (do
  let v1 ← load .WebSocketsChannelBindings (.dict [(p!"method", (.str p!"GET")), (p!"headers", (.dict [(p!"type", (.str p!"object")), (p!"properties", (.dict [(p!"Authorization", (.dict [(p!"type", (.str p!"string"))]))]))])), (p!"bindingVersion", (.str p!"0.1.0"))])
  let v2 ← get v1 p!"method"
  check (eq v2 (.str p!"GET"))
  let v3 ← get v1 p!"headers"
  check (!(V.isNone v3))
  let v4 ← get v1 p!"headers"
  check (isA .Schema v4)
  let v5 ← get v1 p!"headers"
  let v6 ← get v5 p!"type"
  check (eq v6 (.str p!"object"))
  let v7 ← get v1 p!"binding_version"
  check (eq v7 (.str p!"0.1.0")) : Option Unit).isSome = true := by decide +kernel

/-- `test_websockets_channel_bindings_python_validation_error`, tests/models/bindings/test_websockets.py:244 -/
example : (do
  raises (do
    discard (make .WebSocketsChannelBindings [(p!"method", (.str p!"GET")), (p!"invalid_field", (.str p!"value"))]) : Option Unit) : Option Unit).isSome = true := by decide +kernel

/-- `test_websockets_channel_bindings_yaml_validation_error`, tests/models/bindings/test_websockets.py:249 -/
example : (do
  raises (do
    discard (load .WebSocketsChannelBindings (.dict [(p!"method", (.str p!"GET")), (p!"invalid_field", (.str p!"value")), (p!"bindingVersion", (.str p!"0.1.0"))])) : Option Unit) : Option Unit).isSome = true := by decide +kernel

/-- `test_websockets_operation_bindings_serialization`, tests/models/bindings/test_websockets.py:265 -/
example : (do
  let v1 ← make .WebSocketsOperationBindings []
  check (eq (dump v1) (.dict [])) : Option Unit).isSome = true := by decide +kernel

/-- `test_websockets_operation_bindings_python_validation_error`, tests/models/bindings/test_websockets.py:271 -/
example : (do
  raises (do
    discard (make .WebSocketsOperationBindings [(p!"some_field", (.str p!"value"))]) : Option Unit) : Option Unit).isSome = true := by decide +kernel

/-- `test_websockets_operation_bindings_yaml_validation_error`, tests/models/bindings/test_websockets.py:276 -/
example : (do
  raises (do
    discard (load .WebSocketsOperationBindings (.dict [(p!"some_field", (.str p!"value"))])) : Option Unit) : Option Unit).isSome = true := by decide +kernel

/-- `test_websockets_operation_bindings_yaml_empty_validation`, tests/models/bindings/test_websockets.py:286 -/
example : (do
  let v1 ← load .WebSocketsOperationBindings (.dict [])
  check (!(V.isNone v1)) : Option Unit).isSome = true := by decide +kernel

/-- `test_websockets_message_bindings_serialization`, tests/models/bindings/test_websockets.py:299 -/
example : (do
  let v1 ← make .WebSocketsMessageBindings []
  check (eq (dump v1) (.dict [])) : Option Unit).isSome = true := by decide +kernel

/-- `test_websockets_message_bindings_python_validation_error`, tests/models/bindings/test_websockets.py:305 -/
example : (do
  raises (do
    discard (make .WebSocketsMessageBindings [(p!"some_field", (.str p!"value"))]) : Option Unit) : Option Unit).isSome = true := by decide +kernel

/-- `test_websockets_message_bindings_yaml_validation_error`, tests/models/bindings/test_websockets.py:310 -/
example : (do
  raises (do
    discard (load .WebSocketsMessageBindings (.dict [(p!"some_field", (.str p!"value"))])) : Option Unit) : Option Unit).isSome = true := by decide +kernel

/-- `test_websockets_message_bindings_yaml_empty_validation`, tests/models/bindings/test_websockets.py:320 -/
example : (do
  let v1 ← load .WebSocketsMessageBindings (.dict [])
  check (!(V.isNone v1)) : Option Unit).isSome = true := by decide +kernel

end Verif.Conformance
