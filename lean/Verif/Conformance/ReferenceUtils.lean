import Verif.Conformance.Support

/-! Translated from tests/validators/test_reference_utils.py by tools/gen_conformance.py. -/

set_option maxRecDepth 100000
set_option linter.unusedVariables false
namespace Verif.Conformance
open Verif Verif.Gen Verif.Pyd

/-- `test_is_external_reference_http_true`, tests/validators/test_reference_utils.py:91 -/
example : (do
  check (Resolve.isExternal p!"https://example.com") : Option Unit).isSome = true := by decide +kernel

/-- `test_is_external_reference_internal_false`, tests/validators/test_reference_utils.py:94 -/
example : (do
  check (!(Resolve.isExternal p!"#/channels/test")) : Option Unit).isSome = true := by decide +kernel

/-- `test_parse_reference_path_unsupported_format`, tests/validators/test_reference_utils.py:97 -/
example : (do
  raises (do
    check (Resolve.parsePath p!"channels/test").toOption.isSome : Option Unit) : Option Unit).isSome = true := by decide +kernel

/-- `test_parse_reference_path_invalid_path`, tests/validators/test_reference_utils.py:101 -/
example : (do
  raises (do
    check (Resolve.parsePath p!"#").toOption.isSome : Option Unit) : Option Unit).isSome = true := by decide +kernel

/-- `test_resolve_reference_external_returns_none`, tests/validators/test_reference_utils.py:105 -/
example : (do
  let v1 ← make .AsyncAPI3 [(p!"asyncapi", (.str p!"3.0.0")), (p!"info", (.dict [(p!"title", (.str p!"Test API")), (p!"version", (.str p!"1.0.0"))])), (p!"channels", (.dict [(p!"test", (.dict [(p!"address", (.str p!"test")), (p!"messages", (.dict [(p!"msg", (.dict [(p!"payload", (.dict [(p!"type", (.str p!"object"))]))]))]))]))])), (p!"components", (.dict [(p!"messages", (.dict [(p!"refMessage", (.dict [(p!"$ref", (.str p!"#/channels/test/messages/msg"))]))]))]))]
  let v2 ← resolve p!"http://example.com/schema" v1
  check (v2.isNone) : Option Unit).isSome = true := by decide +kernel

/-- `test_resolve_reference_external_logs_warning`, tests/validators/test_reference_utils.py:109 -/
example : (do
  let v1 ← make .AsyncAPI3 [(p!"asyncapi", (.str p!"3.0.0")), (p!"info", (.dict [(p!"title", (.str p!"Test API")), (p!"version", (.str p!"1.0.0"))])), (p!"channels", (.dict [(p!"test", (.dict [(p!"address", (.str p!"test")), (p!"messages", (.dict [(p!"msg", (.dict [(p!"payload", (.dict [(p!"type", (.str p!"object"))]))]))]))]))])), (p!"components", (.dict [(p!"messages", (.dict [(p!"refMessage", (.dict [(p!"$ref", (.str p!"#/channels/test/messages/msg"))]))]))]))]
  let v2 ← resolve p!"http://example.com/schema" v1
  check (true) : Option Unit).isSome = true := by decide +kernel

/-- `test_resolve_reference_follows_reference_chain_returns_result`, tests/validators/test_reference_utils.py:125 -/
example : (do
  let v1 ← make .AsyncAPI3 [(p!"asyncapi", (.str p!"3.0.0")), (p!"info", (.dict [(p!"title", (.str p!"Test API")), (p!"version", (.str p!"1.0.0"))])), (p!"channels", (.dict [(p!"test", (.dict [(p!"address", (.str p!"test")), (p!"messages", (.dict [(p!"msg", (.dict [(p!"payload", (.dict [(p!"type", (.str p!"object"))]))]))]))]))])), (p!"components", (.dict [(p!"messages", (.dict [(p!"refMessage", (.dict [(p!"$ref", (.str p!"#/channels/test/messages/msg"))]))]))]))]
  let v2 ← resolve p!"#/components/messages/refMessage" v1
  check (!(v2.isNone)) : Option Unit).isSome = true := by decide +kernel

/-- `test_resolve_reference_follows_reference_chain_path`, tests/validators/test_reference_utils.py:130 -/
example : (do
  let v1 ← make .AsyncAPI3 [(p!"asyncapi", (.str p!"3.0.0")), (p!"info", (.dict [(p!"title", (.str p!"Test API")), (p!"version", (.str p!"1.0.0"))])), (p!"channels", (.dict [(p!"test", (.dict [(p!"address", (.str p!"test")), (p!"messages", (.dict [(p!"msg", (.dict [(p!"payload", (.dict [(p!"type", (.str p!"object"))]))]))]))]))])), (p!"components", (.dict [(p!"messages", (.dict [(p!"refMessage", (.dict [(p!"$ref", (.str p!"#/channels/test/messages/msg"))]))]))]))]
  let v2 ← resolve p!"#/components/messages/refMessage" v1
  check (((v2.map (·.2)).getD []) == p!"spec.channels.test.messages.msg") : Option Unit).isSome = true := by decide +kernel

/-- `test_resolve_reference_follows_reference_chain_type`, tests/validators/test_reference_utils.py:135 -/
example : (do
  let v1 ← make .AsyncAPI3 [(p!"asyncapi", (.str p!"3.0.0")), (p!"info", (.dict [(p!"title", (.str p!"Test API")), (p!"version", (.str p!"1.0.0"))])), (p!"channels", (.dict [(p!"test", (.dict [(p!"address", (.str p!"test")), (p!"messages", (.dict [(p!"msg", (.dict [(p!"payload", (.dict [(p!"type", (.str p!"object"))]))]))]))]))])), (p!"components", (.dict [(p!"messages", (.dict [(p!"refMessage", (.dict [(p!"$ref", (.str p!"#/channels/test/messages/msg"))]))]))]))]
  let v2 ← resolve p!"#/components/messages/refMessage" v1
  check (v2.map (·.1) == some (.cls .Message)) : Option Unit).isSome = true := by decide +kernel

/-- `test_resolve_reference_invalid_format`, tests/validators/test_reference_utils.py:140 -/
example : (do
  let v1 ← make .AsyncAPI3 [(p!"asyncapi", (.str p!"3.0.0")), (p!"info", (.dict [(p!"title", (.str p!"Test API")), (p!"version", (.str p!"1.0.0"))])), (p!"channels", (.dict [(p!"test", (.dict [(p!"address", (.str p!"test")), (p!"messages", (.dict [(p!"msg", (.dict [(p!"payload", (.dict [(p!"type", (.str p!"object"))]))]))]))]))])), (p!"components", (.dict [(p!"messages", (.dict [(p!"refMessage", (.dict [(p!"$ref", (.str p!"#/channels/test/messages/msg"))]))]))]))]
  raises (do
    discard (resolve p!"invalid" v1) : Option Unit) : Option Unit).isSome = true := by decide +kernel

end Verif.Conformance
