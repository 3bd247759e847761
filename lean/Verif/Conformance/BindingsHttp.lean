import Verif.Conformance.Support

/-! Translated from tests/models/bindings/test_http.py by tools/gen_conformance.py. -/

set_option maxRecDepth 100000
set_option linter.unusedVariables false
namespace Verif.Conformance
open Verif Verif.Gen Verif.Pyd

/-- `test_http_server_bindings_serialization`, tests/models/bindings/test_http.py:155 -/
example : (do
  let v1 ← make .HTTPServerBindings []
  check (eq (dump v1) (.dict [])) : Option Unit).isSome = true := by decide +kernel

/-- `test_http_server_bindings_python_validation_error`, tests/models/bindings/test_http.py:161 -/
example : (do
  raises (do
    discard (make .HTTPServerBindings [(p!"some_field", (.str p!"value"))]) : Option Unit) : Option Unit).isSome = true := by decide +kernel

/-- `test_http_server_bindings_yaml_validation_error`, tests/models/bindings/test_http.py:166 -/
example : (do
  raises (do
    discard (load .HTTPServerBindings (.dict [(p!"some_field", (.str p!"value"))])) : Option Unit) : Option Unit).isSome = true := by decide +kernel

/-- `test_http_server_bindings_yaml_empty_validation`, tests/models/bindings/test_http.py:176 -/
example : (do
  let v1 ← load .HTTPServerBindings (.dict [])
  check (!(V.isNone v1)) : Option Unit).isSome = true := by decide +kernel

/-- `test_http_channel_bindings_serialization`, tests/models/bindings/test_http.py:189 -/
example : (do
  let v1 ← make .HTTPChannelBindings []
  check (eq (dump v1) (.dict [])) : Option Unit).isSome = true := by decide +kernel

/-- `test_http_channel_bindings_python_validation_error`, tests/models/bindings/test_http.py:195 -/
example : (do
  raises (do
    discard (make .HTTPChannelBindings [(p!"some_field", (.str p!"value"))]) : Option Unit) : Option Unit).isSome = true := by decide +kernel

/-- `test_http_channel_bindings_yaml_validation_error`, tests/models/bindings/test_http.py:200 -/
example : (do
  raises (do
    discard (load .HTTPChannelBindings (.dict [(p!"some_field", (.str p!"value"))])) : Option Unit) : Option Unit).isSome = true := by decide +kernel

/-- `test_http_channel_bindings_yaml_empty_validation`, tests/models/bindings/test_http.py:210 -/
example : (do
  let v1 ← load .HTTPChannelBindings (.dict [])
  check (!(V.isNone v1)) : Option Unit).isSome = true := by decide +kernel

/-- `test_http_operation_bindings_validation_case_operation_binding_get`, tests/models/bindings/test_http.py:227 -/
example : (do
  let v1 ← load .HTTPOperationBindings (.dict [(p!"method", (.str p!"GET")), (p!"query", (.dict [(p!"type", (.str p!"object")), (p!"required", (.list [(.str p!"companyId")])), (p!"properties", (.dict [(p!"companyId", (.dict [(p!"type", (.str p!"number")), (p!"minimum", (.int (1))), (p!"description", (.str p!"The Id of the company."))]))])), (p!"additionalProperties", (.bool false))])), (p!"bindingVersion", (.str p!"0.3.0"))])
  check (!(V.isNone v1))
  let v2 ← get v1 p!"binding_version"
  check (eq v2 (.str p!"0.3.0")) : Option Unit).isSome = true := by decide +kernel

/-- `test_http_operation_bindings_validation_case_operation_binding_post`, tests/models/bindings/test_http.py:227 -/
example : (do
  let v1 ← load .HTTPOperationBindings (.dict [(p!"method", (.str p!"POST")), (p!"bindingVersion", (.str p!"0.3.0"))])
  check (!(V.isNone v1))
  let v2 ← get v1 p!"binding_version"
  check (eq v2 (.str p!"0.3.0")) : Option Unit).isSome = true := by decide +kernel

/-- `test_http_operation_bindings_serialization_case_operation_binding_serialization_post`, tests/models/bindings/test_http.py:241 -/
example : (do
  let v1 ← make .HTTPOperationBindings [(p!"method", (.str p!"POST"))]
  check (eq (dump v1) (.dict [(p!"method", (.str p!"POST")), (p!"bindingVersion", (.str p!"0.3.0"))])) : Option Unit).isSome = true := by decide +kernel

/-- `test_http_operation_bindings_serialization_case_operation_binding_serialization_get`, tests/models/bindings/test_http.py:241 -/
example : (do
  let v1 ← make .Schema [(p!"type", (.str p!"number")), (p!"minimum", (.int (1))), (p!"description", (.str p!"The Id of the company."))]
  let v2 ← make .Schema [(p!"type", (.str p!"object")), (p!"required", (.list [(.str p!"companyId")])), (p!"properties", (.dict [(p!"companyId", v1)])), (p!"additional_properties", (.bool false))]
  let v3 ← make .HTTPOperationBindings [(p!"method", (.str p!"GET")), (p!"query", v2)]
  check (eq (dump v3) (.dict [(p!"method", (.str p!"GET")), (p!"query", (.dict [(p!"type", (.str p!"object")), (p!"required", (.list [(.str p!"companyId")])), (p!"properties", (.dict [(p!"companyId", (.dict [(p!"type", (.str p!"number")), (p!"minimum", (.int (1))), (p!"description", (.str p!"The Id of the company."))]))])), (p!"additional_properties", (.bool false))])), (p!"bindingVersion", (.str p!"0.3.0"))])) : Option Unit).isSome = true := by decide +kernel

/-- `test_http_operation_binding_query_schema_validation`, tests/models/bindings/test_http.py:250 -/
example : (do
  let v1 ← load .HTTPOperationBindings (.dict [(p!"method", (.str p!"GET")), (p!"query", (.dict [(p!"type", (.str p!"object")), (p!"required", (.list [(.str p!"companyId")])), (p!"properties", (.dict [(p!"companyId", (.dict [(p!"type", (.str p!"number")), (p!"minimum", (.int (1)))]))]))])), (p!"bindingVersion", (.str p!"0.3.0"))])
  let v2 ← get v1 p!"method"
  check (eq v2 (.str p!"GET"))
  let v3 ← get v1 p!"query"
  check (!(V.isNone v3))
  let v4 ← get v1 p!"query"
  check (isA .Schema v4)
  let v5 ← get v1 p!"query"
  let v6 ← get v5 p!"type"
  check (eq v6 (.str p!"object"))
  let v7 ← get v1 p!"binding_version"
  check (eq v7 (.str p!"0.3.0")) : Option Unit).isSome = true := by decide +kernel

/-- `test_http_operation_bindings_python_validation_error`, tests/models/bindings/test_http.py:274 -/
example : (do
  raises (do
    discard (make .HTTPOperationBindings [(p!"method", (.str p!"GET")), (p!"some_field", (.str p!"value"))]) : Option Unit) : Option Unit).isSome = true := by decide +kernel

/-- `test_http_operation_bindings_yaml_validation_error`, tests/models/bindings/test_http.py:279 -/
example : (do
  raises (do
    discard (load .HTTPOperationBindings (.dict [(p!"method", (.str p!"GET")), (p!"some_field", (.str p!"value")), (p!"bindingVersion", (.str p!"0.3.0"))])) : Option Unit) : Option Unit).isSome = true := by decide +kernel

/-- `test_http_message_bindings_validation_case_message_binding_with_headers`, tests/models/bindings/test_http.py:296 -/
example : (do
  let v1 ← load .HTTPMessageBindings (.dict [(p!"statusCode", (.int (200))), (p!"headers", (.dict [(p!"type", (.str p!"object")), (p!"properties", (.dict [(p!"Content-Type", (.dict [(p!"type", (.str p!"string")), (p!"enum", (.list [(.str p!"application/json")]))]))]))])), (p!"bindingVersion", (.str p!"0.3.0"))])
  check (!(V.isNone v1))
  let v2 ← get v1 p!"binding_version"
  check (eq v2 (.str p!"0.3.0")) : Option Unit).isSome = true := by decide +kernel

/-- `test_http_message_bindings_serialization_case_message_binding_serialization_empty`, tests/models/bindings/test_http.py:310 -/
example : (do
  let v1 ← make .HTTPMessageBindings []
  check (eq (dump v1) (.dict [(p!"bindingVersion", (.str p!"0.3.0"))])) : Option Unit).isSome = true := by decide +kernel

/-- `test_http_message_bindings_serialization_case_message_binding_serialization_with_headers`, tests/models/bindings/test_http.py:310 -/
example : (do
  let v1 ← make .Schema [(p!"type", (.str p!"string")), (p!"enum", (.list [(.str p!"application/json")]))]
  let v2 ← make .Schema [(p!"type", (.str p!"object")), (p!"properties", (.dict [(p!"Content-Type", v1)]))]
  let v3 ← make .HTTPMessageBindings [(p!"status_code", (.int (200))), (p!"headers", v2)]
  check (eq (dump v3) (.dict [(p!"statusCode", (.int (200))), (p!"headers", (.dict [(p!"type", (.str p!"object")), (p!"properties", (.dict [(p!"Content-Type", (.dict [(p!"type", (.str p!"string")), (p!"enum", (.list [(.str p!"application/json")]))]))]))])), (p!"bindingVersion", (.str p!"0.3.0"))])) : Option Unit).isSome = true := by decide +kernel

/-- `test_http_message_binding_all_fields_validation`, tests/models/bindings/test_http.py:319 -/
example : (do
  let v1 ← load .HTTPMessageBindings (.dict [(p!"statusCode", (.int (200))), (p!"headers", (.dict [(p!"type", (.str p!"object")), (p!"properties", (.dict [(p!"Content-Type", (.dict [(p!"type", (.str p!"string")), (p!"enum", (.list [(.str p!"application/json")]))]))]))])), (p!"bindingVersion", (.str p!"0.3.0"))])
  let v2 ← get v1 p!"status_code"
  check (eq v2 (.int (200)))
  let v3 ← get v1 p!"headers"
  check (!(V.isNone v3))
  let v4 ← get v1 p!"headers"
  check (isA .Schema v4)
  let v5 ← get v1 p!"headers"
  let v6 ← get v5 p!"type"
  check (eq v6 (.str p!"object"))
  let v7 ← get v1 p!"binding_version"
  check (eq v7 (.str p!"0.3.0")) : Option Unit).isSome = true := by decide +kernel

/-- `test_http_message_bindings_python_validation_error`, tests/models/bindings/test_http.py:341 -/
example : (do
  raises (do
    discard (make .HTTPMessageBindings [(p!"some_field", (.str p!"value"))]) : Option Unit) : Option Unit).isSome = true := by decide +kernel

/-- `test_http_message_bindings_yaml_validation_error`, tests/models/bindings/test_http.py:346 -/
example : (do
  raises (do
    discard (load .HTTPMessageBindings (.dict [(p!"some_field", (.str p!"value")), (p!"bindingVersion", (.str p!"0.3.0"))])) : Option Unit) : Option Unit).isSome = true := by decide +kernel

end Verif.Conformance
