import Verif.Conformance.Support

/-! Translated from tests/validators/test_external_docs_ref_validator.py by tools/gen_conformance.py. -/

set_option maxRecDepth 100000
set_option linter.unusedVariables false
namespace Verif.Conformance
open Verif Verif.Gen Verif.Pyd

/-- `test_external_docs_ref_validator_validates_info_refs`, tests/validators/test_external_docs_ref_validator.py:16 -/
example : (do
  let v1 ← make .AsyncAPI3 [(p!"asyncapi", (.str p!"3.0.0")), (p!"info", (.dict [(p!"title", (.str p!"Test API")), (p!"version", (.str p!"1.0.0")), (p!"externalDocs", (.dict [(p!"$ref", (.str p!"#/components/externalDocs/main"))]))])), (p!"components", (.dict [(p!"externalDocs", (.dict [(p!"main", (.dict [(p!"url", (.str p!"https://example.com"))]))]))])), (p!"extra_validators", (.list [(.proc 2)]))]
  check (!(V.isNone v1)) : Option Unit).isSome = true := by decide +kernel

/-- `test_external_docs_ref_validator_invalid_path`, tests/validators/test_external_docs_ref_validator.py:36 -/
example : (do
  raises (do
    discard (make .AsyncAPI3 [(p!"asyncapi", (.str p!"3.0.0")), (p!"info", (.dict [(p!"title", (.str p!"Test API")), (p!"version", (.str p!"1.0.0")), (p!"externalDocs", (.dict [(p!"$ref", (.str p!"#/docs/main"))]))])), (p!"components", (.dict [(p!"externalDocs", (.dict [(p!"main", (.dict [(p!"url", (.str p!"https://example.com"))]))]))])), (p!"extra_validators", (.list [(.proc 2)]))]) : Option Unit)
  says docText p!"must point to #/components/externalDocs/" (make .AsyncAPI3 [(p!"asyncapi", (.str p!"3.0.0")), (p!"info", (.dict [(p!"title", (.str p!"Test API")), (p!"version", (.str p!"1.0.0")), (p!"externalDocs", (.dict [(p!"$ref", (.str p!"#/docs/main"))]))])), (p!"components", (.dict [(p!"externalDocs", (.dict [(p!"main", (.dict [(p!"url", (.str p!"https://example.com"))]))]))]))]) : Option Unit).isSome = true := by decide +kernel

/-- `test_external_docs_ref_validator_nonexistent_ref`, tests/validators/test_external_docs_ref_validator.py:56 -/
example : (do
  raises (do
    discard (make .AsyncAPI3 [(p!"asyncapi", (.str p!"3.0.0")), (p!"info", (.dict [(p!"title", (.str p!"Test API")), (p!"version", (.str p!"1.0.0")), (p!"externalDocs", (.dict [(p!"$ref", (.str p!"#/components/externalDocs/nonexistent"))]))])), (p!"components", (.dict [(p!"externalDocs", (.dict [(p!"main", (.dict [(p!"url", (.str p!"https://example.com"))]))]))])), (p!"extra_validators", (.list [(.proc 2)]))]) : Option Unit)
  says docText p!"does not exist in components/externalDocs" (make .AsyncAPI3 [(p!"asyncapi", (.str p!"3.0.0")), (p!"info", (.dict [(p!"title", (.str p!"Test API")), (p!"version", (.str p!"1.0.0")), (p!"externalDocs", (.dict [(p!"$ref", (.str p!"#/components/externalDocs/nonexistent"))]))])), (p!"components", (.dict [(p!"externalDocs", (.dict [(p!"main", (.dict [(p!"url", (.str p!"https://example.com"))]))]))]))]) : Option Unit).isSome = true := by decide +kernel

/-- `test_external_docs_ref_validator_validates_servers_refs`, tests/validators/test_external_docs_ref_validator.py:76 -/
example : (do
  let v1 ← make .AsyncAPI3 [(p!"asyncapi", (.str p!"3.0.0")), (p!"info", (.dict [(p!"title", (.str p!"Test")), (p!"version", (.str p!"1.0"))])), (p!"servers", (.dict [(p!"prod", (.dict [(p!"host", (.str p!"example.com")), (p!"protocol", (.str p!"mqtt")), (p!"externalDocs", (.dict [(p!"$ref", (.str p!"#/components/externalDocs/server"))]))]))])), (p!"components", (.dict [(p!"externalDocs", (.dict [(p!"server", (.dict [(p!"url", (.str p!"https://example.com/server"))]))]))])), (p!"extra_validators", (.list [(.proc 2)]))]
  check (!(V.isNone v1)) : Option Unit).isSome = true := by decide +kernel

/-- `test_external_docs_ref_validator_validates_channels_refs`, tests/validators/test_external_docs_ref_validator.py:97 -/
example : (do
  let v1 ← make .AsyncAPI3 [(p!"asyncapi", (.str p!"3.0.0")), (p!"info", (.dict [(p!"title", (.str p!"Test")), (p!"version", (.str p!"1.0"))])), (p!"channels", (.dict [(p!"user_signup", (.dict [(p!"address", (.str p!"user/signup")), (p!"externalDocs", (.dict [(p!"$ref", (.str p!"#/components/externalDocs/channel"))]))]))])), (p!"components", (.dict [(p!"externalDocs", (.dict [(p!"channel", (.dict [(p!"url", (.str p!"https://example.com/channel"))]))]))])), (p!"extra_validators", (.list [(.proc 2)]))]
  check (!(V.isNone v1)) : Option Unit).isSome = true := by decide +kernel

/-- `test_external_docs_ref_validator_validates_operations_refs`, tests/validators/test_external_docs_ref_validator.py:117 -/
example : (do
  let v1 ← make .AsyncAPI3 [(p!"asyncapi", (.str p!"3.0.0")), (p!"info", (.dict [(p!"title", (.str p!"Test")), (p!"version", (.str p!"1.0"))])), (p!"operations", (.dict [(p!"signup", (.dict [(p!"action", (.str p!"receive")), (p!"channel", (.dict [(p!"$ref", (.str p!"#/channels/user_signup"))])), (p!"externalDocs", (.dict [(p!"$ref", (.str p!"#/components/externalDocs/op"))]))]))])), (p!"channels", (.dict [(p!"user_signup", (.dict [(p!"address", (.str p!"user/signup"))]))])), (p!"components", (.dict [(p!"externalDocs", (.dict [(p!"op", (.dict [(p!"url", (.str p!"https://example.com/op"))]))]))])), (p!"extra_validators", (.list [(.proc 2)]))]
  check (!(V.isNone v1)) : Option Unit).isSome = true := by decide +kernel

/-- `test_external_docs_ref_validator_validates_messages_refs`, tests/validators/test_external_docs_ref_validator.py:139 -/
example : (do
  let v1 ← make .AsyncAPI3 [(p!"asyncapi", (.str p!"3.0.0")), (p!"info", (.dict [(p!"title", (.str p!"Test")), (p!"version", (.str p!"1.0"))])), (p!"channels", (.dict [(p!"test", (.dict [(p!"address", (.str p!"test")), (p!"messages", (.dict [(p!"msg", (.dict [(p!"payload", (.dict [(p!"type", (.str p!"string"))])), (p!"externalDocs", (.dict [(p!"$ref", (.str p!"#/components/externalDocs/msg"))]))]))]))]))])), (p!"components", (.dict [(p!"externalDocs", (.dict [(p!"msg", (.dict [(p!"url", (.str p!"https://example.com/msg"))]))]))])), (p!"extra_validators", (.list [(.proc 2)]))]
  check (!(V.isNone v1)) : Option Unit).isSome = true := by decide +kernel

/-- `test_external_docs_ref_validator_validates_tags_refs`, tests/validators/test_external_docs_ref_validator.py:164 -/
example : (do
  let v1 ← make .AsyncAPI3 [(p!"asyncapi", (.str p!"3.0.0")), (p!"info", (.dict [(p!"title", (.str p!"Test")), (p!"version", (.str p!"1.0")), (p!"tags", (.list [(.dict [(p!"name", (.str p!"tag1")), (p!"externalDocs", (.dict [(p!"$ref", (.str p!"#/components/externalDocs/tag"))]))])]))])), (p!"components", (.dict [(p!"externalDocs", (.dict [(p!"tag", (.dict [(p!"url", (.str p!"https://example.com/tag"))]))]))])), (p!"extra_validators", (.list [(.proc 2)]))]
  check (!(V.isNone v1)) : Option Unit).isSome = true := by decide +kernel

/-- `test_external_docs_ref_validator_validates_components_tags_refs`, tests/validators/test_external_docs_ref_validator.py:187 -/
example : (do
  let v1 ← make .AsyncAPI3 [(p!"asyncapi", (.str p!"3.0.0")), (p!"info", (.dict [(p!"title", (.str p!"Test")), (p!"version", (.str p!"1.0"))])), (p!"components", (.dict [(p!"tags", (.dict [(p!"t1", (.dict [(p!"name", (.str p!"t1")), (p!"externalDocs", (.dict [(p!"$ref", (.str p!"#/components/externalDocs/tag"))]))]))])), (p!"externalDocs", (.dict [(p!"tag", (.dict [(p!"url", (.str p!"https://example.com/tag"))]))]))])), (p!"extra_validators", (.list [(.proc 2)]))]
  check (!(V.isNone v1)) : Option Unit).isSome = true := by decide +kernel

/-- `test_external_docs_ref_validator_validates_schemas_refs`, tests/validators/test_external_docs_ref_validator.py:207 -/
example : (do
  let v1 ← make .AsyncAPI3 [(p!"asyncapi", (.str p!"3.0.0")), (p!"info", (.dict [(p!"title", (.str p!"Test")), (p!"version", (.str p!"1.0"))])), (p!"components", (.dict [(p!"schemas", (.dict [(p!"User", (.dict [(p!"type", (.str p!"object")), (p!"externalDocs", (.dict [(p!"$ref", (.str p!"#/components/externalDocs/schema"))]))]))])), (p!"externalDocs", (.dict [(p!"schema", (.dict [(p!"url", (.str p!"https://example.com/schema"))]))]))])), (p!"extra_validators", (.list [(.proc 2)]))]
  check (!(V.isNone v1)) : Option Unit).isSome = true := by decide +kernel

/-- `test_external_docs_ref_validator_external_warning`, tests/validators/test_external_docs_ref_validator.py:227 -/
example : (do
  let v1 ← make .AsyncAPI3 [(p!"asyncapi", (.str p!"3.0.0")), (p!"info", (.dict [(p!"title", (.str p!"Test")), (p!"version", (.str p!"1.0")), (p!"externalDocs", (.dict [(p!"$ref", (.str p!"https://example.com/external.json"))]))])), (p!"extra_validators", (.list [(.proc 2)]))]
  check (true) : Option Unit).isSome = true := by decide +kernel

/-- `test_external_docs_ref_validator_validates_operation_traits_refs`, tests/validators/test_external_docs_ref_validator.py:243 -/
example : (do
  let v1 ← make .AsyncAPI3 [(p!"asyncapi", (.str p!"3.0.0")), (p!"info", (.dict [(p!"title", (.str p!"Test")), (p!"version", (.str p!"1.0"))])), (p!"components", (.dict [(p!"operationTraits", (.dict [(p!"trait1", (.dict [(p!"externalDocs", (.dict [(p!"$ref", (.str p!"#/components/externalDocs/trait"))]))]))])), (p!"externalDocs", (.dict [(p!"trait", (.dict [(p!"url", (.str p!"https://example.com/trait"))]))]))])), (p!"extra_validators", (.list [(.proc 2)]))]
  check (!(V.isNone v1)) : Option Unit).isSome = true := by decide +kernel

/-- `test_external_docs_ref_validator_validates_message_traits_refs`, tests/validators/test_external_docs_ref_validator.py:262 -/
example : (do
  let v1 ← make .AsyncAPI3 [(p!"asyncapi", (.str p!"3.0.0")), (p!"info", (.dict [(p!"title", (.str p!"Test")), (p!"version", (.str p!"1.0"))])), (p!"components", (.dict [(p!"messageTraits", (.dict [(p!"trait1", (.dict [(p!"externalDocs", (.dict [(p!"$ref", (.str p!"#/components/externalDocs/trait"))]))]))])), (p!"externalDocs", (.dict [(p!"trait", (.dict [(p!"url", (.str p!"https://example.com/trait"))]))]))])), (p!"extra_validators", (.list [(.proc 2)]))]
  check (!(V.isNone v1)) : Option Unit).isSome = true := by decide +kernel

/-- `test_external_docs_ref_validator_validates_components_refs`, tests/validators/test_external_docs_ref_validator.py:281 -/
example : (do
  let v1 ← make .AsyncAPI3 [(p!"asyncapi", (.str p!"3.0.0")), (p!"info", (.dict [(p!"title", (.str p!"Test")), (p!"version", (.str p!"1.0"))])), (p!"components", (.dict [(p!"externalDocs", (.dict [(p!"doc1", (.dict [(p!"$ref", (.str p!"#/components/externalDocs/doc2"))])), (p!"doc2", (.dict [(p!"url", (.str p!"https://example.com/2"))]))]))])), (p!"extra_validators", (.list [(.proc 2)]))]
  check (!(V.isNone v1)) : Option Unit).isSome = true := by decide +kernel

/-- `test_external_docs_ref_validator_validates_components_servers_refs`, tests/validators/test_external_docs_ref_validator.py:296 -/
example : (do
  let v1 ← make .AsyncAPI3 [(p!"asyncapi", (.str p!"3.0.0")), (p!"info", (.dict [(p!"title", (.str p!"Test")), (p!"version", (.str p!"1.0"))])), (p!"components", (.dict [(p!"servers", (.dict [(p!"s1", (.dict [(p!"host", (.str p!"h1")), (p!"protocol", (.str p!"mqtt")), (p!"externalDocs", (.dict [(p!"$ref", (.str p!"#/components/externalDocs/d1"))]))]))])), (p!"externalDocs", (.dict [(p!"d1", (.dict [(p!"url", (.str p!"https://example.com/d1"))]))]))])), (p!"extra_validators", (.list [(.proc 2)]))]
  check (!(V.isNone v1)) : Option Unit).isSome = true := by decide +kernel

/-- `test_external_docs_ref_validator_validates_components_channels_refs`, tests/validators/test_external_docs_ref_validator.py:319 -/
example : (do
  let v1 ← make .AsyncAPI3 [(p!"asyncapi", (.str p!"3.0.0")), (p!"info", (.dict [(p!"title", (.str p!"Test")), (p!"version", (.str p!"1.0"))])), (p!"components", (.dict [(p!"channels", (.dict [(p!"c1", (.dict [(p!"address", (.str p!"a1")), (p!"externalDocs", (.dict [(p!"$ref", (.str p!"#/components/externalDocs/d1"))]))]))])), (p!"externalDocs", (.dict [(p!"d1", (.dict [(p!"url", (.str p!"https://example.com/d1"))]))]))])), (p!"extra_validators", (.list [(.proc 2)]))]
  check (!(V.isNone v1)) : Option Unit).isSome = true := by decide +kernel

/-- `test_external_docs_ref_validator_validates_components_operations_refs`, tests/validators/test_external_docs_ref_validator.py:341 -/
example : (do
  let v1 ← make .AsyncAPI3 [(p!"asyncapi", (.str p!"3.0.0")), (p!"info", (.dict [(p!"title", (.str p!"Test")), (p!"version", (.str p!"1.0"))])), (p!"components", (.dict [(p!"operations", (.dict [(p!"o1", (.dict [(p!"action", (.str p!"receive")), (p!"channel", (.dict [(p!"$ref", (.str p!"#/components/channels/c1"))])), (p!"externalDocs", (.dict [(p!"$ref", (.str p!"#/components/externalDocs/d1"))]))]))])), (p!"channels", (.dict [(p!"c1", (.dict [(p!"address", (.str p!"a1"))]))])), (p!"externalDocs", (.dict [(p!"d1", (.dict [(p!"url", (.str p!"https://example.com/d1"))]))]))])), (p!"extra_validators", (.list [(.proc 2)]))]
  check (!(V.isNone v1)) : Option Unit).isSome = true := by decide +kernel

/-- `test_external_docs_ref_validator_validates_components_messages_refs`, tests/validators/test_external_docs_ref_validator.py:365 -/
example : (do
  let v1 ← make .AsyncAPI3 [(p!"asyncapi", (.str p!"3.0.0")), (p!"info", (.dict [(p!"title", (.str p!"Test")), (p!"version", (.str p!"1.0"))])), (p!"components", (.dict [(p!"messages", (.dict [(p!"m1", (.dict [(p!"payload", (.dict [(p!"type", (.str p!"string"))])), (p!"externalDocs", (.dict [(p!"$ref", (.str p!"#/components/externalDocs/d1"))]))]))])), (p!"externalDocs", (.dict [(p!"d1", (.dict [(p!"url", (.str p!"https://example.com/d1"))]))]))])), (p!"extra_validators", (.list [(.proc 2)]))]
  check (!(V.isNone v1)) : Option Unit).isSome = true := by decide +kernel

/-- `test_external_docs_ref_validator_validates_channels_messages_headers_refs`, tests/validators/test_external_docs_ref_validator.py:387 -/
example : (do
  let v1 ← make .AsyncAPI3 [(p!"asyncapi", (.str p!"3.0.0")), (p!"info", (.dict [(p!"title", (.str p!"Test")), (p!"version", (.str p!"1.0"))])), (p!"channels", (.dict [(p!"test", (.dict [(p!"address", (.str p!"test")), (p!"messages", (.dict [(p!"msg", (.dict [(p!"payload", (.dict [(p!"type", (.str p!"string"))])), (p!"headers", (.dict [(p!"type", (.str p!"object")), (p!"externalDocs", (.dict [(p!"$ref", (.str p!"#/components/externalDocs/header_docs"))]))]))]))]))]))])), (p!"components", (.dict [(p!"externalDocs", (.dict [(p!"header_docs", (.dict [(p!"url", (.str p!"https://example.com/header"))]))]))])), (p!"extra_validators", (.list [(.proc 2)]))]
  check (!(V.isNone v1)) : Option Unit).isSome = true := by decide +kernel

/-- `test_external_docs_ref_validator_validates_channels_messages_payload_refs`, tests/validators/test_external_docs_ref_validator.py:419 -/
example : (do
  let v1 ← make .AsyncAPI3 [(p!"asyncapi", (.str p!"3.0.0")), (p!"info", (.dict [(p!"title", (.str p!"Test")), (p!"version", (.str p!"1.0"))])), (p!"channels", (.dict [(p!"test", (.dict [(p!"address", (.str p!"test")), (p!"messages", (.dict [(p!"msg", (.dict [(p!"headers", (.dict [(p!"type", (.str p!"object"))])), (p!"payload", (.dict [(p!"type", (.str p!"string")), (p!"externalDocs", (.dict [(p!"$ref", (.str p!"#/components/externalDocs/payload_docs"))]))]))]))]))]))])), (p!"components", (.dict [(p!"externalDocs", (.dict [(p!"payload_docs", (.dict [(p!"url", (.str p!"https://example.com/payload"))]))]))])), (p!"extra_validators", (.list [(.proc 2)]))]
  check (!(V.isNone v1)) : Option Unit).isSome = true := by decide +kernel

/-- `test_external_docs_ref_validator_validates_channels_messages_tags_refs`, tests/validators/test_external_docs_ref_validator.py:451 -/
example : (do
  let v1 ← make .AsyncAPI3 [(p!"asyncapi", (.str p!"3.0.0")), (p!"info", (.dict [(p!"title", (.str p!"Test")), (p!"version", (.str p!"1.0"))])), (p!"channels", (.dict [(p!"test", (.dict [(p!"address", (.str p!"test")), (p!"messages", (.dict [(p!"msg", (.dict [(p!"payload", (.dict [(p!"type", (.str p!"string"))])), (p!"tags", (.list [(.dict [(p!"name", (.str p!"tag1")), (p!"externalDocs", (.dict [(p!"$ref", (.str p!"#/components/externalDocs/tag_docs"))]))])]))]))]))]))])), (p!"components", (.dict [(p!"externalDocs", (.dict [(p!"tag_docs", (.dict [(p!"url", (.str p!"https://example.com/tag"))]))]))])), (p!"extra_validators", (.list [(.proc 2)]))]
  check (!(V.isNone v1)) : Option Unit).isSome = true := by decide +kernel

/-- `test_external_docs_ref_validator_validates_channels_messages_traits_refs`, tests/validators/test_external_docs_ref_validator.py:485 -/
example : (do
  let v1 ← make .AsyncAPI3 [(p!"asyncapi", (.str p!"3.0.0")), (p!"info", (.dict [(p!"title", (.str p!"Test")), (p!"version", (.str p!"1.0"))])), (p!"channels", (.dict [(p!"test", (.dict [(p!"address", (.str p!"test")), (p!"messages", (.dict [(p!"msg", (.dict [(p!"payload", (.dict [(p!"type", (.str p!"string"))])), (p!"traits", (.list [(.dict [(p!"externalDocs", (.dict [(p!"$ref", (.str p!"#/components/externalDocs/trait_docs"))]))])]))]))]))]))])), (p!"components", (.dict [(p!"externalDocs", (.dict [(p!"trait_docs", (.dict [(p!"url", (.str p!"https://example.com/trait"))]))]))])), (p!"extra_validators", (.list [(.proc 2)]))]
  check (!(V.isNone v1)) : Option Unit).isSome = true := by decide +kernel

/-- `test_external_docs_ref_validator_validates_channels_messages_traits_headers_refs`, tests/validators/test_external_docs_ref_validator.py:518 -/
example : (do
  let v1 ← make .AsyncAPI3 [(p!"asyncapi", (.str p!"3.0.0")), (p!"info", (.dict [(p!"title", (.str p!"Test")), (p!"version", (.str p!"1.0"))])), (p!"channels", (.dict [(p!"test", (.dict [(p!"address", (.str p!"test")), (p!"messages", (.dict [(p!"msg", (.dict [(p!"payload", (.dict [(p!"type", (.str p!"string"))])), (p!"traits", (.list [(.dict [(p!"headers", (.dict [(p!"type", (.str p!"object")), (p!"externalDocs", (.dict [(p!"$ref", (.str p!"#/components/externalDocs/trait_header_docs"))]))]))])]))]))]))]))])), (p!"components", (.dict [(p!"externalDocs", (.dict [(p!"trait_header_docs", (.dict [(p!"url", (.str p!"https://example.com/trait_header"))]))]))])), (p!"extra_validators", (.list [(.proc 2)]))]
  check (!(V.isNone v1)) : Option Unit).isSome = true := by decide +kernel

/-- `test_external_docs_ref_validator_validates_channels_messages_traits_tags_refs`, tests/validators/test_external_docs_ref_validator.py:554 -/
example : (do
  let v1 ← make .AsyncAPI3 [(p!"asyncapi", (.str p!"3.0.0")), (p!"info", (.dict [(p!"title", (.str p!"Test")), (p!"version", (.str p!"1.0"))])), (p!"channels", (.dict [(p!"test", (.dict [(p!"address", (.str p!"test")), (p!"messages", (.dict [(p!"msg", (.dict [(p!"payload", (.dict [(p!"type", (.str p!"string"))])), (p!"traits", (.list [(.dict [(p!"tags", (.list [(.dict [(p!"name", (.str p!"trait_tag")), (p!"externalDocs", (.dict [(p!"$ref", (.str p!"#/components/externalDocs/trait_tag_docs"))]))])]))])]))]))]))]))])), (p!"components", (.dict [(p!"externalDocs", (.dict [(p!"trait_tag_docs", (.dict [(p!"url", (.str p!"https://example.com/trait_tag"))]))]))])), (p!"extra_validators", (.list [(.proc 2)]))]
  check (!(V.isNone v1)) : Option Unit).isSome = true := by decide +kernel

/-- `test_external_docs_ref_validator_validates_operations_tags_refs`, tests/validators/test_external_docs_ref_validator.py:592 -/
example : (do
  let v1 ← make .AsyncAPI3 [(p!"asyncapi", (.str p!"3.0.0")), (p!"info", (.dict [(p!"title", (.str p!"Test")), (p!"version", (.str p!"1.0"))])), (p!"operations", (.dict [(p!"op1", (.dict [(p!"action", (.str p!"receive")), (p!"channel", (.dict [(p!"$ref", (.str p!"#/channels/test"))])), (p!"tags", (.list [(.dict [(p!"name", (.str p!"op_tag")), (p!"externalDocs", (.dict [(p!"$ref", (.str p!"#/components/externalDocs/op_tag_docs"))]))])]))]))])), (p!"channels", (.dict [(p!"test", (.dict [(p!"address", (.str p!"test"))]))])), (p!"components", (.dict [(p!"externalDocs", (.dict [(p!"op_tag_docs", (.dict [(p!"url", (.str p!"https://example.com/op_tag"))]))]))])), (p!"extra_validators", (.list [(.proc 2)]))]
  check (!(V.isNone v1)) : Option Unit).isSome = true := by decide +kernel

/-- `test_external_docs_ref_validator_validates_operations_traits_refs`, tests/validators/test_external_docs_ref_validator.py:621 -/
example : (do
  let v1 ← make .AsyncAPI3 [(p!"asyncapi", (.str p!"3.0.0")), (p!"info", (.dict [(p!"title", (.str p!"Test")), (p!"version", (.str p!"1.0"))])), (p!"operations", (.dict [(p!"op1", (.dict [(p!"action", (.str p!"receive")), (p!"channel", (.dict [(p!"$ref", (.str p!"#/channels/test"))])), (p!"traits", (.list [(.dict [(p!"externalDocs", (.dict [(p!"$ref", (.str p!"#/components/externalDocs/op_trait_docs"))]))])]))]))])), (p!"channels", (.dict [(p!"test", (.dict [(p!"address", (.str p!"test"))]))])), (p!"components", (.dict [(p!"externalDocs", (.dict [(p!"op_trait_docs", (.dict [(p!"url", (.str p!"https://example.com/op_trait"))]))]))])), (p!"extra_validators", (.list [(.proc 2)]))]
  check (!(V.isNone v1)) : Option Unit).isSome = true := by decide +kernel

/-- `test_external_docs_ref_validator_validates_operations_traits_tags_refs`, tests/validators/test_external_docs_ref_validator.py:649 -/
example : (do
  let v1 ← make .AsyncAPI3 [(p!"asyncapi", (.str p!"3.0.0")), (p!"info", (.dict [(p!"title", (.str p!"Test")), (p!"version", (.str p!"1.0"))])), (p!"operations", (.dict [(p!"op1", (.dict [(p!"action", (.str p!"receive")), (p!"channel", (.dict [(p!"$ref", (.str p!"#/channels/test"))])), (p!"traits", (.list [(.dict [(p!"tags", (.list [(.dict [(p!"name", (.str p!"op_trait_tag")), (p!"externalDocs", (.dict [(p!"$ref", (.str p!"#/components/externalDocs/op_trait_tag_docs"))]))])]))])]))]))])), (p!"channels", (.dict [(p!"test", (.dict [(p!"address", (.str p!"test"))]))])), (p!"components", (.dict [(p!"externalDocs", (.dict [(p!"op_trait_tag_docs", (.dict [(p!"url", (.str p!"https://example.com/op_trait_tag"))]))]))])), (p!"extra_validators", (.list [(.proc 2)]))]
  check (!(V.isNone v1)) : Option Unit).isSome = true := by decide +kernel

/-- `test_external_docs_ref_validator_validates_components_messages_headers_refs`, tests/validators/test_external_docs_ref_validator.py:684 -/
example : (do
  let v1 ← make .AsyncAPI3 [(p!"asyncapi", (.str p!"3.0.0")), (p!"info", (.dict [(p!"title", (.str p!"Test")), (p!"version", (.str p!"1.0"))])), (p!"components", (.dict [(p!"messages", (.dict [(p!"m1", (.dict [(p!"payload", (.dict [(p!"type", (.str p!"string"))])), (p!"headers", (.dict [(p!"type", (.str p!"object")), (p!"externalDocs", (.dict [(p!"$ref", (.str p!"#/components/externalDocs/comp_msg_header_docs"))]))]))]))])), (p!"externalDocs", (.dict [(p!"comp_msg_header_docs", (.dict [(p!"url", (.str p!"https://example.com/comp_msg_header"))]))]))])), (p!"extra_validators", (.list [(.proc 2)]))]
  check (!(V.isNone v1)) : Option Unit).isSome = true := by decide +kernel

/-- `test_external_docs_ref_validator_validates_components_messages_payload_refs`, tests/validators/test_external_docs_ref_validator.py:713 -/
example : (do
  let v1 ← make .AsyncAPI3 [(p!"asyncapi", (.str p!"3.0.0")), (p!"info", (.dict [(p!"title", (.str p!"Test")), (p!"version", (.str p!"1.0"))])), (p!"components", (.dict [(p!"messages", (.dict [(p!"m1", (.dict [(p!"headers", (.dict [(p!"type", (.str p!"object"))])), (p!"payload", (.dict [(p!"type", (.str p!"string")), (p!"externalDocs", (.dict [(p!"$ref", (.str p!"#/components/externalDocs/comp_msg_payload_docs"))]))]))]))])), (p!"externalDocs", (.dict [(p!"comp_msg_payload_docs", (.dict [(p!"url", (.str p!"https://example.com/comp_msg_payload"))]))]))])), (p!"extra_validators", (.list [(.proc 2)]))]
  check (!(V.isNone v1)) : Option Unit).isSome = true := by decide +kernel

/-- `test_external_docs_ref_validator_validates_components_message_traits_headers_refs`, tests/validators/test_external_docs_ref_validator.py:742 -/
example : (do
  let v1 ← make .AsyncAPI3 [(p!"asyncapi", (.str p!"3.0.0")), (p!"info", (.dict [(p!"title", (.str p!"Test")), (p!"version", (.str p!"1.0"))])), (p!"components", (.dict [(p!"messageTraits", (.dict [(p!"mt1", (.dict [(p!"headers", (.dict [(p!"type", (.str p!"object")), (p!"externalDocs", (.dict [(p!"$ref", (.str p!"#/components/externalDocs/comp_mt_header_docs"))]))]))]))])), (p!"externalDocs", (.dict [(p!"comp_mt_header_docs", (.dict [(p!"url", (.str p!"https://example.com/comp_mt_header"))]))]))])), (p!"extra_validators", (.list [(.proc 2)]))]
  check (!(V.isNone v1)) : Option Unit).isSome = true := by decide +kernel

/-- `test_external_docs_ref_validator_handles_missing_info_tags`, tests/validators/test_external_docs_ref_validator.py:770 -/
example : (do
  let v1 ← make .AsyncAPI3 [(p!"asyncapi", (.str p!"3.0.0")), (p!"info", (.dict [(p!"title", (.str p!"Test")), (p!"version", (.str p!"1.0"))])), (p!"extra_validators", (.list [(.proc 2)]))]
  check (!(V.isNone v1)) : Option Unit).isSome = true := by decide +kernel

/-- `test_external_docs_ref_validator_handles_empty_collections`, tests/validators/test_external_docs_ref_validator.py:779 -/
example : (do
  let v1 ← make .AsyncAPI3 [(p!"asyncapi", (.str p!"3.0.0")), (p!"info", (.dict [(p!"title", (.str p!"Test")), (p!"version", (.str p!"1.0"))])), (p!"servers", (.dict [])), (p!"channels", (.dict [])), (p!"operations", (.dict [])), (p!"components", (.dict [])), (p!"extra_validators", (.list [(.proc 2)]))]
  check (!(V.isNone v1)) : Option Unit).isSome = true := by decide +kernel

/-- `test_external_docs_ref_validator_handles_empty_components_collections`, tests/validators/test_external_docs_ref_validator.py:792 -/
example : (do
  let v1 ← make .AsyncAPI3 [(p!"asyncapi", (.str p!"3.0.0")), (p!"info", (.dict [(p!"title", (.str p!"Test")), (p!"version", (.str p!"1.0"))])), (p!"components", (.dict [(p!"servers", (.dict [])), (p!"channels", (.dict [])), (p!"operations", (.dict [])), (p!"messages", (.dict [])), (p!"messageTraits", (.dict [])), (p!"schemas", (.dict [])), (p!"tags", (.dict []))])), (p!"extra_validators", (.list [(.proc 2)]))]
  check (!(V.isNone v1)) : Option Unit).isSome = true := by decide +kernel

/-- `test_external_docs_ref_validator_handles_reference_messages_in_channels`, tests/validators/test_external_docs_ref_validator.py:812 -/
example : (do
  let v1 ← make .AsyncAPI3 [(p!"asyncapi", (.str p!"3.0.0")), (p!"info", (.dict [(p!"title", (.str p!"Test")), (p!"version", (.str p!"1.0"))])), (p!"channels", (.dict [(p!"test", (.dict [(p!"address", (.str p!"test")), (p!"messages", (.dict [(p!"msg", (.dict [(p!"$ref", (.str p!"#/components/messages/shared"))]))]))]))])), (p!"components", (.dict [(p!"messages", (.dict [(p!"shared", (.dict [(p!"payload", (.dict [(p!"type", (.str p!"string"))]))]))]))])), (p!"extra_validators", (.list [(.proc 2)]))]
  check (!(V.isNone v1)) : Option Unit).isSome = true := by decide +kernel

/-- `test_external_docs_ref_validator_handles_messages_without_payload`, tests/validators/test_external_docs_ref_validator.py:834 -/
example : (do
  let v1 ← make .AsyncAPI3 [(p!"asyncapi", (.str p!"3.0.0")), (p!"info", (.dict [(p!"title", (.str p!"Test")), (p!"version", (.str p!"1.0"))])), (p!"channels", (.dict [(p!"test", (.dict [(p!"address", (.str p!"test")), (p!"messages", (.dict [(p!"msg", (.dict [(p!"headers", (.dict [(p!"type", (.str p!"object"))]))]))]))]))])), (p!"extra_validators", (.list [(.proc 2)]))]
  check (!(V.isNone v1)) : Option Unit).isSome = true := by decide +kernel

/-- `test_external_docs_ref_validator_handles_reference_traits_in_messages`, tests/validators/test_external_docs_ref_validator.py:854 -/
example : (do
  let v1 ← make .AsyncAPI3 [(p!"asyncapi", (.str p!"3.0.0")), (p!"info", (.dict [(p!"title", (.str p!"Test")), (p!"version", (.str p!"1.0"))])), (p!"channels", (.dict [(p!"test", (.dict [(p!"address", (.str p!"test")), (p!"messages", (.dict [(p!"msg", (.dict [(p!"payload", (.dict [(p!"type", (.str p!"string"))])), (p!"traits", (.list [(.dict [(p!"$ref", (.str p!"#/components/messageTraits/shared"))])]))]))]))]))])), (p!"components", (.dict [(p!"messageTraits", (.dict [(p!"shared", (.dict []))]))])), (p!"extra_validators", (.list [(.proc 2)]))]
  check (!(V.isNone v1)) : Option Unit).isSome = true := by decide +kernel

/-- `test_external_docs_ref_validator_handles_messages_without_traits`, tests/validators/test_external_docs_ref_validator.py:881 -/
example : (do
  let v1 ← make .AsyncAPI3 [(p!"asyncapi", (.str p!"3.0.0")), (p!"info", (.dict [(p!"title", (.str p!"Test")), (p!"version", (.str p!"1.0"))])), (p!"channels", (.dict [(p!"test", (.dict [(p!"address", (.str p!"test")), (p!"messages", (.dict [(p!"msg", (.dict [(p!"payload", (.dict [(p!"type", (.str p!"string"))]))]))]))]))])), (p!"extra_validators", (.list [(.proc 2)]))]
  check (!(V.isNone v1)) : Option Unit).isSome = true := by decide +kernel

/-- `test_external_docs_ref_validator_handles_reference_traits_in_operations`, tests/validators/test_external_docs_ref_validator.py:901 -/
example : (do
  let v1 ← make .AsyncAPI3 [(p!"asyncapi", (.str p!"3.0.0")), (p!"info", (.dict [(p!"title", (.str p!"Test")), (p!"version", (.str p!"1.0"))])), (p!"operations", (.dict [(p!"op1", (.dict [(p!"action", (.str p!"receive")), (p!"channel", (.dict [(p!"$ref", (.str p!"#/channels/test"))])), (p!"traits", (.list [(.dict [(p!"$ref", (.str p!"#/components/operationTraits/shared"))])]))]))])), (p!"channels", (.dict [(p!"test", (.dict [(p!"address", (.str p!"test"))]))])), (p!"components", (.dict [(p!"operationTraits", (.dict [(p!"shared", (.dict []))]))])), (p!"extra_validators", (.list [(.proc 2)]))]
  check (!(V.isNone v1)) : Option Unit).isSome = true := by decide +kernel

/-- `test_external_docs_ref_validator_handles_operations_without_traits`, tests/validators/test_external_docs_ref_validator.py:925 -/
example : (do
  let v1 ← make .AsyncAPI3 [(p!"asyncapi", (.str p!"3.0.0")), (p!"info", (.dict [(p!"title", (.str p!"Test")), (p!"version", (.str p!"1.0"))])), (p!"operations", (.dict [(p!"op1", (.dict [(p!"action", (.str p!"receive")), (p!"channel", (.dict [(p!"$ref", (.str p!"#/channels/test"))]))]))])), (p!"channels", (.dict [(p!"test", (.dict [(p!"address", (.str p!"test"))]))])), (p!"extra_validators", (.list [(.proc 2)]))]
  check (!(V.isNone v1)) : Option Unit).isSome = true := by decide +kernel

/-- `test_external_docs_ref_validator_handles_reference_messages_in_components`, tests/validators/test_external_docs_ref_validator.py:944 -/
example : (do
  let v1 ← make .AsyncAPI3 [(p!"asyncapi", (.str p!"3.0.0")), (p!"info", (.dict [(p!"title", (.str p!"Test")), (p!"version", (.str p!"1.0"))])), (p!"components", (.dict [(p!"messages", (.dict [(p!"m1", (.dict [(p!"$ref", (.str p!"#/components/messages/shared"))])), (p!"shared", (.dict [(p!"payload", (.dict [(p!"type", (.str p!"string"))]))]))]))])), (p!"extra_validators", (.list [(.proc 2)]))]
  check (!(V.isNone v1)) : Option Unit).isSome = true := by decide +kernel

/-- `test_external_docs_ref_validator_handles_components_messages_without_payload`, tests/validators/test_external_docs_ref_validator.py:961 -/
example : (do
  let v1 ← make .AsyncAPI3 [(p!"asyncapi", (.str p!"3.0.0")), (p!"info", (.dict [(p!"title", (.str p!"Test")), (p!"version", (.str p!"1.0"))])), (p!"components", (.dict [(p!"messages", (.dict [(p!"m1", (.dict [(p!"headers", (.dict [(p!"type", (.str p!"object"))]))]))]))])), (p!"extra_validators", (.list [(.proc 2)]))]
  check (!(V.isNone v1)) : Option Unit).isSome = true := by decide +kernel

/-- `test_external_docs_ref_validator_handles_reference_tags_in_components`, tests/validators/test_external_docs_ref_validator.py:980 -/
example : (do
  let v1 ← make .AsyncAPI3 [(p!"asyncapi", (.str p!"3.0.0")), (p!"info", (.dict [(p!"title", (.str p!"Test")), (p!"version", (.str p!"1.0"))])), (p!"components", (.dict [(p!"tags", (.dict [(p!"t1", (.dict [(p!"$ref", (.str p!"#/components/tags/shared"))])), (p!"shared", (.dict [(p!"name", (.str p!"shared"))]))]))])), (p!"extra_validators", (.list [(.proc 2)]))]
  check (!(V.isNone v1)) : Option Unit).isSome = true := by decide +kernel

/-- `test_external_docs_ref_validator_handles_operations_without_tags`, tests/validators/test_external_docs_ref_validator.py:997 -/
example : (do
  let v1 ← make .AsyncAPI3 [(p!"asyncapi", (.str p!"3.0.0")), (p!"info", (.dict [(p!"title", (.str p!"Test")), (p!"version", (.str p!"1.0"))])), (p!"operations", (.dict [(p!"op1", (.dict [(p!"action", (.str p!"receive")), (p!"channel", (.dict [(p!"$ref", (.str p!"#/channels/test"))]))]))])), (p!"channels", (.dict [(p!"test", (.dict [(p!"address", (.str p!"test"))]))])), (p!"extra_validators", (.list [(.proc 2)]))]
  check (!(V.isNone v1)) : Option Unit).isSome = true := by decide +kernel

/-- `test_external_docs_ref_validator_handles_trait_tags_with_references`, tests/validators/test_external_docs_ref_validator.py:1014 -/
example : (do
  let v1 ← make .AsyncAPI3 [(p!"asyncapi", (.str p!"3.0.0")), (p!"info", (.dict [(p!"title", (.str p!"Test")), (p!"version", (.str p!"1.0"))])), (p!"operations", (.dict [(p!"op1", (.dict [(p!"action", (.str p!"receive")), (p!"channel", (.dict [(p!"$ref", (.str p!"#/channels/test"))])), (p!"traits", (.list [(.dict [(p!"tags", (.list [(.dict [(p!"$ref", (.str p!"#/components/tags/shared"))])]))])]))]))])), (p!"channels", (.dict [(p!"test", (.dict [(p!"address", (.str p!"test"))]))])), (p!"components", (.dict [(p!"tags", (.dict [(p!"shared", (.dict [(p!"name", (.str p!"shared"))]))]))])), (p!"extra_validators", (.list [(.proc 2)]))]
  check (!(V.isNone v1)) : Option Unit).isSome = true := by decide +kernel

/-- `test_external_docs_ref_validator_handles_info_tags_with_references`, tests/validators/test_external_docs_ref_validator.py:1038 -/
example : (do
  let v1 ← make .AsyncAPI3 [(p!"asyncapi", (.str p!"3.0.0")), (p!"info", (.dict [(p!"title", (.str p!"Test")), (p!"version", (.str p!"1.0")), (p!"tags", (.list [(.dict [(p!"$ref", (.str p!"#/components/tags/shared"))])]))])), (p!"components", (.dict [(p!"tags", (.dict [(p!"shared", (.dict [(p!"name", (.str p!"shared"))]))]))])), (p!"extra_validators", (.list [(.proc 2)]))]
  check (!(V.isNone v1)) : Option Unit).isSome = true := by decide +kernel

/-- `test_external_docs_ref_validator_handles_message_trait_tags_with_references`, tests/validators/test_external_docs_ref_validator.py:1058 -/
example : (do
  let v1 ← make .AsyncAPI3 [(p!"asyncapi", (.str p!"3.0.0")), (p!"info", (.dict [(p!"title", (.str p!"Test")), (p!"version", (.str p!"1.0"))])), (p!"channels", (.dict [(p!"test", (.dict [(p!"address", (.str p!"test")), (p!"messages", (.dict [(p!"msg", (.dict [(p!"payload", (.dict [(p!"type", (.str p!"string"))])), (p!"traits", (.list [(.dict [(p!"tags", (.list [(.dict [(p!"$ref", (.str p!"#/components/tags/shared"))])]))])]))]))]))]))])), (p!"components", (.dict [(p!"tags", (.dict [(p!"shared", (.dict [(p!"name", (.str p!"shared"))]))]))])), (p!"extra_validators", (.list [(.proc 2)]))]
  check (!(V.isNone v1)) : Option Unit).isSome = true := by decide +kernel

end Verif.Conformance
