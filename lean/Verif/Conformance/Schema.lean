import Verif.Conformance.Support

/-! Translated from tests/models/test_schema.py by tools/gen_conformance.py. -/

set_option maxRecDepth 100000
set_option linter.unusedVariables false
namespace Verif.Conformance
open Verif Verif.Gen Verif.Pyd

/-- `test_schema_validation_case_schema_basic`, tests/models/test_schema.py:172 -/
example : (do
  let v1 ← load .Schema (.dict [(p!"type", (.str p!"object"))])
  check (!(V.isNone v1))
  let v2 ← get v1 p!"type"
  check (eq v2 (.str p!"object")) : Option Unit).isSome = true := by decide +kernel

/-- `test_schema_validation_case_schema_full`, tests/models/test_schema.py:172 -/
example : (do
  let v1 ← load .Schema (.dict [(p!"type", (.str p!"object")), (p!"properties", (.dict [(p!"displayName", (.dict [(p!"type", (.str p!"string")), (p!"description", (.str p!"Name of the user"))])), (p!"email", (.dict [(p!"type", (.str p!"string")), (p!"format", (.str p!"email")), (p!"description", (.str p!"Email of the user"))]))])), (p!"required", (.list [(.str p!"displayName"), (.str p!"email")])), (p!"discriminator", (.str p!"userType")), (p!"deprecated", (.bool false)), (p!"externalDocs", (.dict [(p!"description", (.str p!"Find more info here")), (p!"url", (.str p!"https://example.com"))]))])
  check (!(V.isNone v1))
  let v2 ← get v1 p!"type"
  check (eq v2 (.str p!"object")) : Option Unit).isSome = true := by decide +kernel

/-- `test_schema_serialization_case_schema_serialization_basic`, tests/models/test_schema.py:189 -/
example : (do
  let v1 ← make .Schema [(p!"type", (.str p!"object"))]
  check (eq (dump v1) (.dict [(p!"type", (.str p!"object"))])) : Option Unit).isSome = true := by decide +kernel

/-- `test_schema_serialization_case_schema_serialization_with_discriminator`, tests/models/test_schema.py:189 -/
example : (do
  let v1 ← make .Schema [(p!"type", (.str p!"string"))]
  let v2 ← make .Schema [(p!"type", (.str p!"object")), (p!"discriminator", (.str p!"userType")), (p!"properties", (.dict [(p!"name", v1)]))]
  check (eq (dump v2) (.dict [(p!"type", (.str p!"object")), (p!"discriminator", (.str p!"userType")), (p!"properties", (.dict [(p!"name", (.dict [(p!"type", (.str p!"string"))]))]))])) : Option Unit).isSome = true := by decide +kernel

/-- `test_schema_serialization_case_schema_serialization_with_external_docs`, tests/models/test_schema.py:189 -/
example : (do
  let v1 ← make .ExternalDocumentation [(p!"url", (.str p!"https://example.com")), (p!"description", (.str p!"Find more info here"))]
  let v2 ← make .Schema [(p!"type", (.str p!"object")), (p!"external_docs", v1)]
  check (eq (dump v2) (.dict [(p!"type", (.str p!"object")), (p!"externalDocs", (.dict [(p!"url", (.url .any ((urlForm p!"https://example.com/").getD []))), (p!"description", (.str p!"Find more info here"))]))])) : Option Unit).isSome = true := by decide +kernel

/-- `test_schema_serialization_case_schema_serialization_with_reference_external_docs`, tests/models/test_schema.py:189 -/
example : (do
  let v1 ← make .Reference [(p!"ref", (.str p!"#/components/externalDocs/infoDocs"))]
  let v2 ← make .Schema [(p!"type", (.str p!"object")), (p!"external_docs", v1)]
  check (eq (dump v2) (.dict [(p!"type", (.str p!"object")), (p!"externalDocs", (.dict [(p!"$ref", (.str p!"#/components/externalDocs/infoDocs"))]))])) : Option Unit).isSome = true := by decide +kernel

/-- `test_schema_with_discriminator_validation`, tests/models/test_schema.py:194 -/
example : (do
  let v1 ← load .Schema (.dict [(p!"type", (.str p!"object")), (p!"discriminator", (.str p!"userType")), (p!"properties", (.dict [(p!"name", (.dict [(p!"type", (.str p!"string"))]))]))])
  let v2 ← get v1 p!"discriminator"
  check (eq v2 (.str p!"userType")) : Option Unit).isSome = true := by decide +kernel

/-- `test_schema_with_external_docs_validation`, tests/models/test_schema.py:208 -/
example : (do
  let v1 ← load .Schema (.dict [(p!"type", (.str p!"object")), (p!"externalDocs", (.dict [(p!"description", (.str p!"Find more info here")), (p!"url", (.str p!"https://example.com"))]))])
  let v2 ← get v1 p!"external_docs"
  check (!(V.isNone v2))
  let v3 ← get v1 p!"external_docs"
  let v4 ← get v3 p!"url"
  check (eq (strOf v4) (.str p!"https://example.com/")) : Option Unit).isSome = true := by decide +kernel

/-- `test_schema_with_reference_external_docs_validation`, tests/models/test_schema.py:222 -/
example : (do
  let v1 ← load .Schema (.dict [(p!"type", (.str p!"object")), (p!"externalDocs", (.dict [(p!"$ref", (.str p!"#/components/externalDocs/infoDocs"))]))])
  let v2 ← get v1 p!"external_docs"
  check (!(V.isNone v2))
  let v3 ← get v1 p!"external_docs"
  check (isA .Reference v3)
  let v4 ← get v1 p!"external_docs"
  let v5 ← get v4 p!"ref"
  check (eq v5 (.str p!"#/components/externalDocs/infoDocs")) : Option Unit).isSome = true := by decide +kernel

/-- `test_multi_format_schema_validation_case_multi_format_schema_basic`, tests/models/test_schema.py:244 -/
example : (do
  let v1 ← load .MultiFormatSchema (.dict [(p!"schema", (.dict [(p!"type", (.str p!"object")), (p!"properties", (.dict [(p!"name", (.dict [(p!"type", (.str p!"string"))]))]))]))])
  check (!(V.isNone v1))
  let v2 ← get v1 p!"schema"
  check (!(V.isNone v2)) : Option Unit).isSome = true := by decide +kernel

/-- `test_multi_format_schema_validation_case_multi_format_schema_avro`, tests/models/test_schema.py:244 -/
example : (do
  let v1 ← load .MultiFormatSchema (.dict [(p!"schemaFormat", (.str p!"application/vnd.apache.avro+yaml;version=1.9.0")), (p!"schema", (.dict [(p!"$ref", (.str p!"./user-create.avsc"))]))])
  check (!(V.isNone v1))
  let v2 ← get v1 p!"schema"
  check (!(V.isNone v2)) : Option Unit).isSome = true := by decide +kernel

/-- `test_multi_format_schema_serialization_case_multi_format_schema_serialization_default`, tests/models/test_schema.py:258 -/
example : (do
  let v1 ← make .Schema [(p!"type", (.str p!"string"))]
  let v2 ← make .Schema [(p!"type", (.str p!"object")), (p!"properties", (.dict [(p!"name", v1)]))]
  let v3 ← make .MultiFormatSchema [(p!"schema", v2)]
  check (eq (dump v3) (.dict [(p!"schemaFormat", (.str p!"application/vnd.aai.asyncapi;version=3.0.0")), (p!"schema", (.dict [(p!"type", (.str p!"object")), (p!"properties", (.dict [(p!"name", (.dict [(p!"type", (.str p!"string"))]))]))]))])) : Option Unit).isSome = true := by decide +kernel

/-- `test_multi_format_schema_serialization_case_multi_format_schema_serialization_avro`, tests/models/test_schema.py:258 -/
example : (do
  let v1 ← make .Reference [(p!"ref", (.str p!"./user-create.avsc"))]
  let v2 ← make .MultiFormatSchema [(p!"schema_format", (.str p!"application/vnd.apache.avro+yaml;version=1.9.0")), (p!"schema", v1)]
  check (eq (dump v2) (.dict [(p!"schemaFormat", (.str p!"application/vnd.apache.avro+yaml;version=1.9.0")), (p!"schema", (.dict [(p!"$ref", (.str p!"./user-create.avsc"))]))])) : Option Unit).isSome = true := by decide +kernel

/-- `test_multi_format_schema_default_format_validation`, tests/models/test_schema.py:267 -/
example : (do
  let v1 ← load .MultiFormatSchema (.dict [(p!"schema", (.dict [(p!"type", (.str p!"object")), (p!"properties", (.dict [(p!"name", (.dict [(p!"type", (.str p!"string"))]))]))]))])
  let v2 ← get v1 p!"schema_format"
  check (eq v2 (.str p!"application/vnd.aai.asyncapi;version=3.0.0")) : Option Unit).isSome = true := by decide +kernel

end Verif.Conformance
