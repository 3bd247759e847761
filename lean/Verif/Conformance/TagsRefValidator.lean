import Verif.Conformance.Support

/-! Translated from tests/validators/test_tags_ref_validator.py by tools/gen_conformance.py. -/

set_option maxRecDepth 100000
set_option linter.unusedVariables false
namespace Verif.Conformance
open Verif Verif.Gen Verif.Pyd

/-- `test_tags_ref_validator_validates_info_tags_refs`, tests/validators/test_tags_ref_validator.py:16 -/
example : (do
  let v1 ← make .AsyncAPI3 [(p!"asyncapi", (.str p!"3.0.0")), (p!"info", (.dict [(p!"title", (.str p!"Test API")), (p!"version", (.str p!"1.0.0")), (p!"tags", (.list [(.dict [(p!"$ref", (.str p!"#/components/tags/prod"))])]))])), (p!"components", (.dict [(p!"tags", (.dict [(p!"prod", (.dict [(p!"name", (.str p!"prod")), (p!"description", (.str p!"Production environment"))]))]))])), (p!"extra_validators", (.list [(.proc 1)]))]
  check (!(V.isNone v1)) : Option Unit).isSome = true := by decide +kernel

/-- `test_tags_ref_validator_invalid_info_tags_ref_path`, tests/validators/test_tags_ref_validator.py:40 -/
example : (do
  raises (do
    discard (make .AsyncAPI3 [(p!"asyncapi", (.str p!"3.0.0")), (p!"info", (.dict [(p!"title", (.str p!"Test API")), (p!"version", (.str p!"1.0.0")), (p!"tags", (.list [(.dict [(p!"$ref", (.str p!"#/tags/prod"))])]))])), (p!"components", (.dict [(p!"tags", (.dict [(p!"prod", (.dict [(p!"name", (.str p!"prod")), (p!"description", (.str p!"Production environment"))]))]))])), (p!"extra_validators", (.list [(.proc 1)]))]) : Option Unit)
  says tagText p!"must point to #/components/tags/" (make .AsyncAPI3 [(p!"asyncapi", (.str p!"3.0.0")), (p!"info", (.dict [(p!"title", (.str p!"Test API")), (p!"version", (.str p!"1.0.0")), (p!"tags", (.list [(.dict [(p!"$ref", (.str p!"#/tags/prod"))])]))])), (p!"components", (.dict [(p!"tags", (.dict [(p!"prod", (.dict [(p!"name", (.str p!"prod")), (p!"description", (.str p!"Production environment"))]))]))]))]) : Option Unit).isSome = true := by decide +kernel

/-- `test_tags_ref_validator_info_tags_ref_to_nonexistent_tag`, tests/validators/test_tags_ref_validator.py:61 -/
example : (do
  raises (do
    discard (make .AsyncAPI3 [(p!"asyncapi", (.str p!"3.0.0")), (p!"info", (.dict [(p!"title", (.str p!"Test API")), (p!"version", (.str p!"1.0.0")), (p!"tags", (.list [(.dict [(p!"$ref", (.str p!"#/components/tags/nonexistent"))])]))])), (p!"components", (.dict [(p!"tags", (.dict [(p!"existing", (.dict [(p!"name", (.str p!"existing")), (p!"description", (.str p!"Existing tag"))]))]))])), (p!"extra_validators", (.list [(.proc 1)]))]) : Option Unit)
  says tagText p!"does not exist in components/tags" (make .AsyncAPI3 [(p!"asyncapi", (.str p!"3.0.0")), (p!"info", (.dict [(p!"title", (.str p!"Test API")), (p!"version", (.str p!"1.0.0")), (p!"tags", (.list [(.dict [(p!"$ref", (.str p!"#/components/tags/nonexistent"))])]))])), (p!"components", (.dict [(p!"tags", (.dict [(p!"existing", (.dict [(p!"name", (.str p!"existing")), (p!"description", (.str p!"Existing tag"))]))]))]))]) : Option Unit).isSome = true := by decide +kernel

/-- `test_tags_ref_validator_validates_channels_tags_refs`, tests/validators/test_tags_ref_validator.py:82 -/
example : (do
  let v1 ← make .AsyncAPI3 [(p!"asyncapi", (.str p!"3.0.0")), (p!"info", (.dict [(p!"title", (.str p!"Test API")), (p!"version", (.str p!"1.0.0"))])), (p!"channels", (.dict [(p!"test", (.dict [(p!"address", (.str p!"/test")), (p!"tags", (.list [(.dict [(p!"$ref", (.str p!"#/components/tags/prod"))])]))]))])), (p!"components", (.dict [(p!"tags", (.dict [(p!"prod", (.dict [(p!"name", (.str p!"prod")), (p!"description", (.str p!"Production environment"))]))]))])), (p!"extra_validators", (.list [(.proc 1)]))]
  check (!(V.isNone v1)) : Option Unit).isSome = true := by decide +kernel

/-- `test_tags_ref_validator_invalid_channels_tags_ref_path`, tests/validators/test_tags_ref_validator.py:108 -/
example : (do
  raises (do
    discard (make .AsyncAPI3 [(p!"asyncapi", (.str p!"3.0.0")), (p!"info", (.dict [(p!"title", (.str p!"Test API")), (p!"version", (.str p!"1.0.0"))])), (p!"channels", (.dict [(p!"test", (.dict [(p!"address", (.str p!"/test")), (p!"tags", (.list [(.dict [(p!"$ref", (.str p!"#/tags/prod"))])]))]))])), (p!"components", (.dict [(p!"tags", (.dict [(p!"prod", (.dict [(p!"name", (.str p!"prod")), (p!"description", (.str p!"Production environment"))]))]))])), (p!"extra_validators", (.list [(.proc 1)]))]) : Option Unit)
  says tagText p!"must point to #/components/tags/" (make .AsyncAPI3 [(p!"asyncapi", (.str p!"3.0.0")), (p!"info", (.dict [(p!"title", (.str p!"Test API")), (p!"version", (.str p!"1.0.0"))])), (p!"channels", (.dict [(p!"test", (.dict [(p!"address", (.str p!"/test")), (p!"tags", (.list [(.dict [(p!"$ref", (.str p!"#/tags/prod"))])]))]))])), (p!"components", (.dict [(p!"tags", (.dict [(p!"prod", (.dict [(p!"name", (.str p!"prod")), (p!"description", (.str p!"Production environment"))]))]))]))]) : Option Unit).isSome = true := by decide +kernel

/-- `test_tags_ref_validator_channels_tags_ref_to_nonexistent_tag`, tests/validators/test_tags_ref_validator.py:131 -/
example : (do
  raises (do
    discard (make .AsyncAPI3 [(p!"asyncapi", (.str p!"3.0.0")), (p!"info", (.dict [(p!"title", (.str p!"Test API")), (p!"version", (.str p!"1.0.0"))])), (p!"channels", (.dict [(p!"test", (.dict [(p!"address", (.str p!"/test")), (p!"tags", (.list [(.dict [(p!"$ref", (.str p!"#/components/tags/nonexistent"))])]))]))])), (p!"components", (.dict [(p!"tags", (.dict [(p!"existing", (.dict [(p!"name", (.str p!"existing")), (p!"description", (.str p!"Existing tag"))]))]))])), (p!"extra_validators", (.list [(.proc 1)]))]) : Option Unit)
  says tagText p!"does not exist in components/tags" (make .AsyncAPI3 [(p!"asyncapi", (.str p!"3.0.0")), (p!"info", (.dict [(p!"title", (.str p!"Test API")), (p!"version", (.str p!"1.0.0"))])), (p!"channels", (.dict [(p!"test", (.dict [(p!"address", (.str p!"/test")), (p!"tags", (.list [(.dict [(p!"$ref", (.str p!"#/components/tags/nonexistent"))])]))]))])), (p!"components", (.dict [(p!"tags", (.dict [(p!"existing", (.dict [(p!"name", (.str p!"existing")), (p!"description", (.str p!"Existing tag"))]))]))]))]) : Option Unit).isSome = true := by decide +kernel

/-- `test_tags_ref_validator_validates_operations_tags_refs`, tests/validators/test_tags_ref_validator.py:154 -/
example : (do
  let v1 ← make .AsyncAPI3 [(p!"asyncapi", (.str p!"3.0.0")), (p!"info", (.dict [(p!"title", (.str p!"Test API")), (p!"version", (.str p!"1.0.0"))])), (p!"operations", (.dict [(p!"sendMessage", (.dict [(p!"action", (.str p!"send")), (p!"channel", (.dict [(p!"$ref", (.str p!"#/channels/test"))])), (p!"tags", (.list [(.dict [(p!"$ref", (.str p!"#/components/tags/prod"))])]))]))])), (p!"channels", (.dict [(p!"test", (.dict [(p!"address", (.str p!"/test"))]))])), (p!"components", (.dict [(p!"tags", (.dict [(p!"prod", (.dict [(p!"name", (.str p!"prod")), (p!"description", (.str p!"Production environment"))]))]))])), (p!"extra_validators", (.list [(.proc 1)]))]
  check (!(V.isNone v1)) : Option Unit).isSome = true := by decide +kernel

/-- `test_tags_ref_validator_invalid_operations_tags_ref_path`, tests/validators/test_tags_ref_validator.py:184 -/
example : (do
  raises (do
    discard (make .AsyncAPI3 [(p!"asyncapi", (.str p!"3.0.0")), (p!"info", (.dict [(p!"title", (.str p!"Test API")), (p!"version", (.str p!"1.0.0"))])), (p!"operations", (.dict [(p!"sendMessage", (.dict [(p!"action", (.str p!"send")), (p!"channel", (.dict [(p!"$ref", (.str p!"#/channels/test"))])), (p!"tags", (.list [(.dict [(p!"$ref", (.str p!"#/tags/prod"))])]))]))])), (p!"channels", (.dict [(p!"test", (.dict [(p!"address", (.str p!"/test"))]))])), (p!"components", (.dict [(p!"tags", (.dict [(p!"prod", (.dict [(p!"name", (.str p!"prod")), (p!"description", (.str p!"Production environment"))]))]))])), (p!"extra_validators", (.list [(.proc 1)]))]) : Option Unit)
  says tagText p!"must point to #/components/tags/" (make .AsyncAPI3 [(p!"asyncapi", (.str p!"3.0.0")), (p!"info", (.dict [(p!"title", (.str p!"Test API")), (p!"version", (.str p!"1.0.0"))])), (p!"operations", (.dict [(p!"sendMessage", (.dict [(p!"action", (.str p!"send")), (p!"channel", (.dict [(p!"$ref", (.str p!"#/channels/test"))])), (p!"tags", (.list [(.dict [(p!"$ref", (.str p!"#/tags/prod"))])]))]))])), (p!"channels", (.dict [(p!"test", (.dict [(p!"address", (.str p!"/test"))]))])), (p!"components", (.dict [(p!"tags", (.dict [(p!"prod", (.dict [(p!"name", (.str p!"prod")), (p!"description", (.str p!"Production environment"))]))]))]))]) : Option Unit).isSome = true := by decide +kernel

/-- `test_tags_ref_validator_operations_tags_ref_to_nonexistent_tag`, tests/validators/test_tags_ref_validator.py:211 -/
example : (do
  raises (do
    discard (make .AsyncAPI3 [(p!"asyncapi", (.str p!"3.0.0")), (p!"info", (.dict [(p!"title", (.str p!"Test API")), (p!"version", (.str p!"1.0.0"))])), (p!"operations", (.dict [(p!"sendMessage", (.dict [(p!"action", (.str p!"send")), (p!"channel", (.dict [(p!"$ref", (.str p!"#/channels/test"))])), (p!"tags", (.list [(.dict [(p!"$ref", (.str p!"#/components/tags/nonexistent"))])]))]))])), (p!"channels", (.dict [(p!"test", (.dict [(p!"address", (.str p!"/test"))]))])), (p!"components", (.dict [(p!"tags", (.dict [(p!"existing", (.dict [(p!"name", (.str p!"existing")), (p!"description", (.str p!"Existing tag"))]))]))])), (p!"extra_validators", (.list [(.proc 1)]))]) : Option Unit)
  says tagText p!"does not exist in components/tags" (make .AsyncAPI3 [(p!"asyncapi", (.str p!"3.0.0")), (p!"info", (.dict [(p!"title", (.str p!"Test API")), (p!"version", (.str p!"1.0.0"))])), (p!"operations", (.dict [(p!"sendMessage", (.dict [(p!"action", (.str p!"send")), (p!"channel", (.dict [(p!"$ref", (.str p!"#/channels/test"))])), (p!"tags", (.list [(.dict [(p!"$ref", (.str p!"#/components/tags/nonexistent"))])]))]))])), (p!"channels", (.dict [(p!"test", (.dict [(p!"address", (.str p!"/test"))]))])), (p!"components", (.dict [(p!"tags", (.dict [(p!"existing", (.dict [(p!"name", (.str p!"existing")), (p!"description", (.str p!"Existing tag"))]))]))]))]) : Option Unit).isSome = true := by decide +kernel

/-- `test_tags_ref_validator_validates_servers_tags_refs`, tests/validators/test_tags_ref_validator.py:238 -/
example : (do
  let v1 ← make .AsyncAPI3 [(p!"asyncapi", (.str p!"3.0.0")), (p!"info", (.dict [(p!"title", (.str p!"Test API")), (p!"version", (.str p!"1.0.0"))])), (p!"servers", (.dict [(p!"prod", (.dict [(p!"host", (.str p!"api.example.com")), (p!"protocol", (.str p!"https")), (p!"tags", (.list [(.dict [(p!"$ref", (.str p!"#/components/tags/prod"))])]))]))])), (p!"components", (.dict [(p!"tags", (.dict [(p!"prod", (.dict [(p!"name", (.str p!"prod")), (p!"description", (.str p!"Production environment"))]))]))])), (p!"extra_validators", (.list [(.proc 1)]))]
  check (!(V.isNone v1)) : Option Unit).isSome = true := by decide +kernel

/-- `test_tags_ref_validator_invalid_servers_tags_ref_path`, tests/validators/test_tags_ref_validator.py:265 -/
example : (do
  raises (do
    discard (make .AsyncAPI3 [(p!"asyncapi", (.str p!"3.0.0")), (p!"info", (.dict [(p!"title", (.str p!"Test API")), (p!"version", (.str p!"1.0.0"))])), (p!"servers", (.dict [(p!"prod", (.dict [(p!"host", (.str p!"api.example.com")), (p!"protocol", (.str p!"https")), (p!"tags", (.list [(.dict [(p!"$ref", (.str p!"#/tags/prod"))])]))]))])), (p!"components", (.dict [(p!"tags", (.dict [(p!"prod", (.dict [(p!"name", (.str p!"prod")), (p!"description", (.str p!"Production environment"))]))]))])), (p!"extra_validators", (.list [(.proc 1)]))]) : Option Unit)
  says tagText p!"must point to #/components/tags/" (make .AsyncAPI3 [(p!"asyncapi", (.str p!"3.0.0")), (p!"info", (.dict [(p!"title", (.str p!"Test API")), (p!"version", (.str p!"1.0.0"))])), (p!"servers", (.dict [(p!"prod", (.dict [(p!"host", (.str p!"api.example.com")), (p!"protocol", (.str p!"https")), (p!"tags", (.list [(.dict [(p!"$ref", (.str p!"#/tags/prod"))])]))]))])), (p!"components", (.dict [(p!"tags", (.dict [(p!"prod", (.dict [(p!"name", (.str p!"prod")), (p!"description", (.str p!"Production environment"))]))]))]))]) : Option Unit).isSome = true := by decide +kernel

/-- `test_tags_ref_validator_servers_tags_ref_to_nonexistent_tag`, tests/validators/test_tags_ref_validator.py:289 -/
example : (do
  raises (do
    discard (make .AsyncAPI3 [(p!"asyncapi", (.str p!"3.0.0")), (p!"info", (.dict [(p!"title", (.str p!"Test API")), (p!"version", (.str p!"1.0.0"))])), (p!"servers", (.dict [(p!"prod", (.dict [(p!"host", (.str p!"api.example.com")), (p!"protocol", (.str p!"https")), (p!"tags", (.list [(.dict [(p!"$ref", (.str p!"#/components/tags/nonexistent"))])]))]))])), (p!"components", (.dict [(p!"tags", (.dict [(p!"existing", (.dict [(p!"name", (.str p!"existing")), (p!"description", (.str p!"Existing tag"))]))]))])), (p!"extra_validators", (.list [(.proc 1)]))]) : Option Unit)
  says tagText p!"does not exist in components/tags" (make .AsyncAPI3 [(p!"asyncapi", (.str p!"3.0.0")), (p!"info", (.dict [(p!"title", (.str p!"Test API")), (p!"version", (.str p!"1.0.0"))])), (p!"servers", (.dict [(p!"prod", (.dict [(p!"host", (.str p!"api.example.com")), (p!"protocol", (.str p!"https")), (p!"tags", (.list [(.dict [(p!"$ref", (.str p!"#/components/tags/nonexistent"))])]))]))])), (p!"components", (.dict [(p!"tags", (.dict [(p!"existing", (.dict [(p!"name", (.str p!"existing")), (p!"description", (.str p!"Existing tag"))]))]))]))]) : Option Unit).isSome = true := by decide +kernel

/-- `test_tags_ref_validator_validates_components_messages_tags_refs`, tests/validators/test_tags_ref_validator.py:313 -/
example : (do
  let v1 ← make .AsyncAPI3 [(p!"asyncapi", (.str p!"3.0.0")), (p!"info", (.dict [(p!"title", (.str p!"Test API")), (p!"version", (.str p!"1.0.0"))])), (p!"components", (.dict [(p!"messages", (.dict [(p!"testMessage", (.dict [(p!"payload", (.dict [(p!"type", (.str p!"string"))])), (p!"tags", (.list [(.dict [(p!"$ref", (.str p!"#/components/tags/prod"))])]))]))])), (p!"tags", (.dict [(p!"prod", (.dict [(p!"name", (.str p!"prod")), (p!"description", (.str p!"Production environment"))]))]))])), (p!"extra_validators", (.list [(.proc 1)]))]
  check (!(V.isNone v1)) : Option Unit).isSome = true := by decide +kernel

/-- `test_tags_ref_validator_components_messages_tags_ref_to_nonexistent_tag`, tests/validators/test_tags_ref_validator.py:339 -/
example : (do
  raises (do
    discard (make .AsyncAPI3 [(p!"asyncapi", (.str p!"3.0.0")), (p!"info", (.dict [(p!"title", (.str p!"Test API")), (p!"version", (.str p!"1.0.0"))])), (p!"components", (.dict [(p!"messages", (.dict [(p!"testMessage", (.dict [(p!"payload", (.dict [(p!"type", (.str p!"string"))])), (p!"tags", (.list [(.dict [(p!"$ref", (.str p!"#/components/tags/nonexistent"))])]))]))])), (p!"tags", (.dict [(p!"existing", (.dict [(p!"name", (.str p!"existing")), (p!"description", (.str p!"Existing tag"))]))]))])), (p!"extra_validators", (.list [(.proc 1)]))]) : Option Unit)
  says tagText p!"does not exist in components/tags" (make .AsyncAPI3 [(p!"asyncapi", (.str p!"3.0.0")), (p!"info", (.dict [(p!"title", (.str p!"Test API")), (p!"version", (.str p!"1.0.0"))])), (p!"components", (.dict [(p!"messages", (.dict [(p!"testMessage", (.dict [(p!"payload", (.dict [(p!"type", (.str p!"string"))])), (p!"tags", (.list [(.dict [(p!"$ref", (.str p!"#/components/tags/nonexistent"))])]))]))])), (p!"tags", (.dict [(p!"existing", (.dict [(p!"name", (.str p!"existing")), (p!"description", (.str p!"Existing tag"))]))]))]))]) : Option Unit).isSome = true := by decide +kernel

/-- `test_tags_ref_validator_validates_components_channels_tags_refs`, tests/validators/test_tags_ref_validator.py:364 -/
example : (do
  let v1 ← make .AsyncAPI3 [(p!"asyncapi", (.str p!"3.0.0")), (p!"info", (.dict [(p!"title", (.str p!"Test API")), (p!"version", (.str p!"1.0.0"))])), (p!"components", (.dict [(p!"channels", (.dict [(p!"test", (.dict [(p!"address", (.str p!"/test")), (p!"tags", (.list [(.dict [(p!"$ref", (.str p!"#/components/tags/prod"))])]))]))])), (p!"tags", (.dict [(p!"prod", (.dict [(p!"name", (.str p!"prod")), (p!"description", (.str p!"Production environment"))]))]))])), (p!"extra_validators", (.list [(.proc 1)]))]
  check (!(V.isNone v1)) : Option Unit).isSome = true := by decide +kernel

/-- `test_tags_ref_validator_components_channels_tags_ref_to_nonexistent_tag`, tests/validators/test_tags_ref_validator.py:390 -/
example : (do
  raises (do
    discard (make .AsyncAPI3 [(p!"asyncapi", (.str p!"3.0.0")), (p!"info", (.dict [(p!"title", (.str p!"Test API")), (p!"version", (.str p!"1.0.0"))])), (p!"components", (.dict [(p!"channels", (.dict [(p!"test", (.dict [(p!"address", (.str p!"/test")), (p!"tags", (.list [(.dict [(p!"$ref", (.str p!"#/components/tags/nonexistent"))])]))]))])), (p!"tags", (.dict [(p!"existing", (.dict [(p!"name", (.str p!"existing")), (p!"description", (.str p!"Existing tag"))]))]))])), (p!"extra_validators", (.list [(.proc 1)]))]) : Option Unit)
  says tagText p!"does not exist in components/tags" (make .AsyncAPI3 [(p!"asyncapi", (.str p!"3.0.0")), (p!"info", (.dict [(p!"title", (.str p!"Test API")), (p!"version", (.str p!"1.0.0"))])), (p!"components", (.dict [(p!"channels", (.dict [(p!"test", (.dict [(p!"address", (.str p!"/test")), (p!"tags", (.list [(.dict [(p!"$ref", (.str p!"#/components/tags/nonexistent"))])]))]))])), (p!"tags", (.dict [(p!"existing", (.dict [(p!"name", (.str p!"existing")), (p!"description", (.str p!"Existing tag"))]))]))]))]) : Option Unit).isSome = true := by decide +kernel

/-- `test_tags_ref_validator_validates_components_operations_tags_refs`, tests/validators/test_tags_ref_validator.py:415 -/
example : (do
  let v1 ← make .AsyncAPI3 [(p!"asyncapi", (.str p!"3.0.0")), (p!"info", (.dict [(p!"title", (.str p!"Test API")), (p!"version", (.str p!"1.0.0"))])), (p!"channels", (.dict [(p!"test", (.dict [(p!"address", (.str p!"/test"))]))])), (p!"components", (.dict [(p!"operations", (.dict [(p!"sendMessage", (.dict [(p!"action", (.str p!"send")), (p!"channel", (.dict [(p!"$ref", (.str p!"#/channels/test"))])), (p!"tags", (.list [(.dict [(p!"$ref", (.str p!"#/components/tags/prod"))])]))]))])), (p!"tags", (.dict [(p!"prod", (.dict [(p!"name", (.str p!"prod")), (p!"description", (.str p!"Production environment"))]))]))])), (p!"extra_validators", (.list [(.proc 1)]))]
  check (!(V.isNone v1)) : Option Unit).isSome = true := by decide +kernel

/-- `test_tags_ref_validator_components_operations_tags_ref_to_nonexistent_tag`, tests/validators/test_tags_ref_validator.py:445 -/
example : (do
  raises (do
    discard (make .AsyncAPI3 [(p!"asyncapi", (.str p!"3.0.0")), (p!"info", (.dict [(p!"title", (.str p!"Test API")), (p!"version", (.str p!"1.0.0"))])), (p!"channels", (.dict [(p!"test", (.dict [(p!"address", (.str p!"/test"))]))])), (p!"components", (.dict [(p!"operations", (.dict [(p!"sendMessage", (.dict [(p!"action", (.str p!"send")), (p!"channel", (.dict [(p!"$ref", (.str p!"#/channels/test"))])), (p!"tags", (.list [(.dict [(p!"$ref", (.str p!"#/components/tags/nonexistent"))])]))]))])), (p!"tags", (.dict [(p!"existing", (.dict [(p!"name", (.str p!"existing")), (p!"description", (.str p!"Existing tag"))]))]))])), (p!"extra_validators", (.list [(.proc 1)]))]) : Option Unit)
  says tagText p!"does not exist in components/tags" (make .AsyncAPI3 [(p!"asyncapi", (.str p!"3.0.0")), (p!"info", (.dict [(p!"title", (.str p!"Test API")), (p!"version", (.str p!"1.0.0"))])), (p!"channels", (.dict [(p!"test", (.dict [(p!"address", (.str p!"/test"))]))])), (p!"components", (.dict [(p!"operations", (.dict [(p!"sendMessage", (.dict [(p!"action", (.str p!"send")), (p!"channel", (.dict [(p!"$ref", (.str p!"#/channels/test"))])), (p!"tags", (.list [(.dict [(p!"$ref", (.str p!"#/components/tags/nonexistent"))])]))]))])), (p!"tags", (.dict [(p!"existing", (.dict [(p!"name", (.str p!"existing")), (p!"description", (.str p!"Existing tag"))]))]))]))]) : Option Unit).isSome = true := by decide +kernel

/-- `test_tags_ref_validator_info_without_tags_attr`, tests/validators/test_tags_ref_validator.py:474 -/
example : (do
  let v1 ← make .AsyncAPI3 [(p!"asyncapi", (.str p!"3.0.0")), (p!"info", (.dict [(p!"title", (.str p!"Test API")), (p!"version", (.str p!"1.0.0"))])), (p!"extra_validators", (.list [(.proc 1)]))]
  check (!(V.isNone v1)) : Option Unit).isSome = true := by decide +kernel

/-- `test_tags_ref_validator_info_empty_tags`, tests/validators/test_tags_ref_validator.py:489 -/
example : (do
  let v1 ← make .AsyncAPI3 [(p!"asyncapi", (.str p!"3.0.0")), (p!"info", (.dict [(p!"title", (.str p!"Test API")), (p!"version", (.str p!"1.0.0")), (p!"tags", (.list []))])), (p!"extra_validators", (.list [(.proc 1)]))]
  check (!(V.isNone v1)) : Option Unit).isSome = true := by decide +kernel

/-- `test_tags_ref_validator_channels_without_tags_attr`, tests/validators/test_tags_ref_validator.py:504 -/
example : (do
  let v1 ← make .AsyncAPI3 [(p!"asyncapi", (.str p!"3.0.0")), (p!"info", (.dict [(p!"title", (.str p!"Test API")), (p!"version", (.str p!"1.0.0"))])), (p!"channels", (.dict [(p!"test", (.dict [(p!"address", (.str p!"/test"))]))])), (p!"extra_validators", (.list [(.proc 1)]))]
  check (!(V.isNone v1)) : Option Unit).isSome = true := by decide +kernel

/-- `test_tags_ref_validator_channels_empty_tags`, tests/validators/test_tags_ref_validator.py:521 -/
example : (do
  let v1 ← make .AsyncAPI3 [(p!"asyncapi", (.str p!"3.0.0")), (p!"info", (.dict [(p!"title", (.str p!"Test API")), (p!"version", (.str p!"1.0.0"))])), (p!"channels", (.dict [(p!"test", (.dict [(p!"address", (.str p!"/test")), (p!"tags", (.list []))]))])), (p!"extra_validators", (.list [(.proc 1)]))]
  check (!(V.isNone v1)) : Option Unit).isSome = true := by decide +kernel

/-- `test_tags_ref_validator_external_info_tags_ref_warning`, tests/validators/test_tags_ref_validator.py:538 -/
example : (do
  let v1 ← make .AsyncAPI3 [(p!"asyncapi", (.str p!"3.0.0")), (p!"info", (.dict [(p!"title", (.str p!"Test API")), (p!"version", (.str p!"1.0.0")), (p!"tags", (.list [(.dict [(p!"$ref", (.str p!"https://external.example.com/tags/prod"))])]))])), (p!"extra_validators", (.list [(.proc 1)]))]
  check (!(V.isNone v1))
  check (true) : Option Unit).isSome = true := by decide +kernel

/-- `test_tags_ref_validator_tags_with_inline_objects_and_refs`, tests/validators/test_tags_ref_validator.py:560 -/
example : (do
  let v1 ← make .AsyncAPI3 [(p!"asyncapi", (.str p!"3.0.0")), (p!"info", (.dict [(p!"title", (.str p!"Test API")), (p!"version", (.str p!"1.0.0")), (p!"tags", (.list [(.dict [(p!"name", (.str p!"inline")), (p!"description", (.str p!"Inline tag"))]), (.dict [(p!"$ref", (.str p!"#/components/tags/prod"))])]))])), (p!"components", (.dict [(p!"tags", (.dict [(p!"prod", (.dict [(p!"name", (.str p!"prod")), (p!"description", (.str p!"Production environment"))]))]))])), (p!"extra_validators", (.list [(.proc 1)]))]
  check (!(V.isNone v1)) : Option Unit).isSome = true := by decide +kernel

/-- `test_tags_ref_validator_missing_components_tags`, tests/validators/test_tags_ref_validator.py:586 -/
example : (do
  raises (do
    discard (make .AsyncAPI3 [(p!"asyncapi", (.str p!"3.0.0")), (p!"info", (.dict [(p!"title", (.str p!"Test API")), (p!"version", (.str p!"1.0.0")), (p!"tags", (.list [(.dict [(p!"$ref", (.str p!"#/components/tags/prod"))])]))])), (p!"components", (.dict [])), (p!"extra_validators", (.list [(.proc 1)]))]) : Option Unit)
  says tagText p!"does not exist in components/tags" (make .AsyncAPI3 [(p!"asyncapi", (.str p!"3.0.0")), (p!"info", (.dict [(p!"title", (.str p!"Test API")), (p!"version", (.str p!"1.0.0")), (p!"tags", (.list [(.dict [(p!"$ref", (.str p!"#/components/tags/prod"))])]))])), (p!"components", (.dict []))]) : Option Unit).isSome = true := by decide +kernel

/-- `test_tags_ref_validator_validates_components_servers_tags_refs`, tests/validators/test_tags_ref_validator.py:602 -/
example : (do
  let v1 ← make .AsyncAPI3 [(p!"asyncapi", (.str p!"3.0.0")), (p!"info", (.dict [(p!"title", (.str p!"Test API")), (p!"version", (.str p!"1.0.0"))])), (p!"components", (.dict [(p!"servers", (.dict [(p!"prod", (.dict [(p!"host", (.str p!"api.example.com")), (p!"protocol", (.str p!"https")), (p!"tags", (.list [(.dict [(p!"$ref", (.str p!"#/components/tags/prod"))])]))]))])), (p!"tags", (.dict [(p!"prod", (.dict [(p!"name", (.str p!"prod")), (p!"description", (.str p!"Production environment"))]))]))])), (p!"extra_validators", (.list [(.proc 1)]))]
  check (!(V.isNone v1)) : Option Unit).isSome = true := by decide +kernel

/-- `test_tags_ref_validator_validates_components_operation_traits_tags_refs`, tests/validators/test_tags_ref_validator.py:626 -/
example : (do
  let v1 ← make .AsyncAPI3 [(p!"asyncapi", (.str p!"3.0.0")), (p!"info", (.dict [(p!"title", (.str p!"Test API")), (p!"version", (.str p!"1.0.0"))])), (p!"components", (.dict [(p!"operationTraits", (.dict [(p!"testTrait", (.dict [(p!"tags", (.list [(.dict [(p!"$ref", (.str p!"#/components/tags/prod"))])]))]))])), (p!"tags", (.dict [(p!"prod", (.dict [(p!"name", (.str p!"prod")), (p!"description", (.str p!"Production environment"))]))]))])), (p!"extra_validators", (.list [(.proc 1)]))]
  check (!(V.isNone v1)) : Option Unit).isSome = true := by decide +kernel

/-- `test_tags_ref_validator_validates_components_message_traits_tags_refs`, tests/validators/test_tags_ref_validator.py:650 -/
example : (do
  let v1 ← make .AsyncAPI3 [(p!"asyncapi", (.str p!"3.0.0")), (p!"info", (.dict [(p!"title", (.str p!"Test API")), (p!"version", (.str p!"1.0.0"))])), (p!"components", (.dict [(p!"messageTraits", (.dict [(p!"testTrait", (.dict [(p!"tags", (.list [(.dict [(p!"$ref", (.str p!"#/components/tags/prod"))])]))]))])), (p!"tags", (.dict [(p!"prod", (.dict [(p!"name", (.str p!"prod")), (p!"description", (.str p!"Production environment"))]))]))])), (p!"extra_validators", (.list [(.proc 1)]))]
  check (!(V.isNone v1)) : Option Unit).isSome = true := by decide +kernel

/-- `test_tags_ref_validator_validates_channels_messages_tags_refs`, tests/validators/test_tags_ref_validator.py:674 -/
example : (do
  let v1 ← make .AsyncAPI3 [(p!"asyncapi", (.str p!"3.0.0")), (p!"info", (.dict [(p!"title", (.str p!"Test API")), (p!"version", (.str p!"1.0.0"))])), (p!"channels", (.dict [(p!"test", (.dict [(p!"address", (.str p!"/test")), (p!"messages", (.dict [(p!"testMsg", (.dict [(p!"payload", (.dict [(p!"type", (.str p!"string"))])), (p!"tags", (.list [(.dict [(p!"$ref", (.str p!"#/components/tags/prod"))])]))]))]))]))])), (p!"components", (.dict [(p!"tags", (.dict [(p!"prod", (.dict [(p!"name", (.str p!"prod")), (p!"description", (.str p!"Production environment"))]))]))])), (p!"extra_validators", (.list [(.proc 1)]))]
  check (!(V.isNone v1)) : Option Unit).isSome = true := by decide +kernel

/-- `test_tags_ref_validator_validates_components_channels_messages_tags_refs`, tests/validators/test_tags_ref_validator.py:702 -/
example : (do
  let v1 ← make .AsyncAPI3 [(p!"asyncapi", (.str p!"3.0.0")), (p!"info", (.dict [(p!"title", (.str p!"Test API")), (p!"version", (.str p!"1.0.0"))])), (p!"components", (.dict [(p!"channels", (.dict [(p!"test", (.dict [(p!"address", (.str p!"/test")), (p!"messages", (.dict [(p!"testMsg", (.dict [(p!"payload", (.dict [(p!"type", (.str p!"string"))])), (p!"tags", (.list [(.dict [(p!"$ref", (.str p!"#/components/tags/prod"))])]))]))]))]))])), (p!"tags", (.dict [(p!"prod", (.dict [(p!"name", (.str p!"prod")), (p!"description", (.str p!"Production environment"))]))]))])), (p!"extra_validators", (.list [(.proc 1)]))]
  check (!(V.isNone v1)) : Option Unit).isSome = true := by decide +kernel

/-- `test_tags_ref_validator_raises_error_for_nested_message_tags`, tests/validators/test_tags_ref_validator.py:732 -/
example : (do
  raises (do
    discard (make .AsyncAPI3 [(p!"asyncapi", (.str p!"3.0.0")), (p!"info", (.dict [(p!"title", (.str p!"Test API")), (p!"version", (.str p!"1.0.0"))])), (p!"channels", (.dict [(p!"test", (.dict [(p!"address", (.str p!"/test")), (p!"messages", (.dict [(p!"testMsg", (.dict [(p!"payload", (.dict [(p!"type", (.str p!"string"))])), (p!"tags", (.list [(.dict [(p!"$ref", (.str p!"#/components/tags/nonexistent"))])]))]))]))]))])), (p!"components", (.dict [(p!"tags", (.dict [(p!"prod", (.dict [(p!"name", (.str p!"prod"))]))]))])), (p!"extra_validators", (.list [(.proc 1)]))]) : Option Unit)
  says tagText p!"does not exist in components/tags" (make .AsyncAPI3 [(p!"asyncapi", (.str p!"3.0.0")), (p!"info", (.dict [(p!"title", (.str p!"Test API")), (p!"version", (.str p!"1.0.0"))])), (p!"channels", (.dict [(p!"test", (.dict [(p!"address", (.str p!"/test")), (p!"messages", (.dict [(p!"testMsg", (.dict [(p!"payload", (.dict [(p!"type", (.str p!"string"))])), (p!"tags", (.list [(.dict [(p!"$ref", (.str p!"#/components/tags/nonexistent"))])]))]))]))]))])), (p!"components", (.dict [(p!"tags", (.dict [(p!"prod", (.dict [(p!"name", (.str p!"prod"))]))]))]))]) : Option Unit).isSome = true := by decide +kernel

/-- `test_tags_ref_validator_validates_components_tags_refs`, tests/validators/test_tags_ref_validator.py:757 -/
example : (do
  let v1 ← make .AsyncAPI3 [(p!"asyncapi", (.str p!"3.0.0")), (p!"info", (.dict [(p!"title", (.str p!"Test API")), (p!"version", (.str p!"1.0.0"))])), (p!"components", (.dict [(p!"tags", (.dict [(p!"prod", (.dict [(p!"$ref", (.str p!"#/components/tags/base"))])), (p!"base", (.dict [(p!"name", (.str p!"base")), (p!"description", (.str p!"Base tag"))]))]))])), (p!"extra_validators", (.list [(.proc 1)]))]
  check (!(V.isNone v1)) : Option Unit).isSome = true := by decide +kernel

/-- `test_tags_ref_validator_invalid_components_tags_ref`, tests/validators/test_tags_ref_validator.py:772 -/
example : (do
  raises (do
    discard (make .AsyncAPI3 [(p!"asyncapi", (.str p!"3.0.0")), (p!"info", (.dict [(p!"title", (.str p!"Test API")), (p!"version", (.str p!"1.0.0"))])), (p!"components", (.dict [(p!"tags", (.dict [(p!"prod", (.dict [(p!"$ref", (.str p!"#/components/tags/nonexistent"))]))]))])), (p!"extra_validators", (.list [(.proc 1)]))]) : Option Unit)
  says tagText p!"does not exist in components/tags" (make .AsyncAPI3 [(p!"asyncapi", (.str p!"3.0.0")), (p!"info", (.dict [(p!"title", (.str p!"Test API")), (p!"version", (.str p!"1.0.0"))])), (p!"components", (.dict [(p!"tags", (.dict [(p!"prod", (.dict [(p!"$ref", (.str p!"#/components/tags/nonexistent"))]))]))]))]) : Option Unit).isSome = true := by decide +kernel

end Verif.Conformance
