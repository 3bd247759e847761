import Verif.Conformance.Support

/-! Translated from tests/models/test_message.py by tools/gen_conformance.py. -/

set_option maxRecDepth 100000
set_option linter.unusedVariables false
namespace Verif.Conformance
open Verif Verif.Gen Verif.Pyd

/-- `test_message_example_validation_case_message_example_basic`, tests/models/test_message.py:394 -/
example : (do
  let v1 ← load .MessageExample (.dict [(p!"headers", (.dict [(p!"correlationId", (.str p!"my-correlation-id")), (p!"applicationInstanceId", (.str p!"myInstanceId"))])), (p!"payload", (.dict [(p!"user", (.dict [(p!"someUserKey", (.str p!"someUserValue"))]))]))])
  check (!(V.isNone v1))
  let v2 ← get v1 p!"headers"
  let v3 ← get v1 p!"payload"
  check ((!(V.isNone v2)) || (!(V.isNone v3))) : Option Unit).isSome = true := by decide +kernel

/-- `test_message_example_validation_case_message_example_full`, tests/models/test_message.py:394 -/
example : (do
  let v1 ← load .MessageExample (.dict [(p!"name", (.str p!"SimpleSignup")), (p!"summary", (.str p!"A simple UserSignup example message")), (p!"headers", (.dict [(p!"correlationId", (.str p!"my-correlation-id")), (p!"applicationInstanceId", (.str p!"myInstanceId"))])), (p!"payload", (.dict [(p!"user", (.dict [(p!"someUserKey", (.str p!"someUserValue"))])), (p!"signup", (.dict [(p!"someSignupKey", (.str p!"someSignupValue"))]))]))])
  check (!(V.isNone v1))
  let v2 ← get v1 p!"headers"
  let v3 ← get v1 p!"payload"
  check ((!(V.isNone v2)) || (!(V.isNone v3))) : Option Unit).isSome = true := by decide +kernel

/-- `test_message_example_serialization_case_message_example_serialization_basic`, tests/models/test_message.py:412 -/
example : (do
  let v1 ← make .MessageExample [(p!"headers", (.dict [(p!"correlationId", (.str p!"my-correlation-id")), (p!"applicationInstanceId", (.str p!"myInstanceId"))])), (p!"payload", (.dict [(p!"user", (.dict [(p!"someUserKey", (.str p!"someUserValue"))]))]))]
  check (eq (dump v1) (.dict [(p!"headers", (.dict [(p!"correlationId", (.str p!"my-correlation-id")), (p!"applicationInstanceId", (.str p!"myInstanceId"))])), (p!"payload", (.dict [(p!"user", (.dict [(p!"someUserKey", (.str p!"someUserValue"))]))]))])) : Option Unit).isSome = true := by decide +kernel

/-- `test_message_example_serialization_case_message_example_serialization_full`, tests/models/test_message.py:412 -/
example : (do
  let v1 ← make .MessageExample [(p!"name", (.str p!"SimpleSignup")), (p!"summary", (.str p!"A simple UserSignup example message")), (p!"headers", (.dict [(p!"correlationId", (.str p!"my-correlation-id")), (p!"applicationInstanceId", (.str p!"myInstanceId"))])), (p!"payload", (.dict [(p!"user", (.dict [(p!"someUserKey", (.str p!"someUserValue"))])), (p!"signup", (.dict [(p!"someSignupKey", (.str p!"someSignupValue"))]))]))]
  check (eq (dump v1) (.dict [(p!"name", (.str p!"SimpleSignup")), (p!"summary", (.str p!"A simple UserSignup example message")), (p!"headers", (.dict [(p!"correlationId", (.str p!"my-correlation-id")), (p!"applicationInstanceId", (.str p!"myInstanceId"))])), (p!"payload", (.dict [(p!"user", (.dict [(p!"someUserKey", (.str p!"someUserValue"))])), (p!"signup", (.dict [(p!"someSignupKey", (.str p!"someSignupValue"))]))]))])) : Option Unit).isSome = true := by decide +kernel

/-- `test_message_example_serialization_case_message_example_serialization_headers_only`, tests/models/test_message.py:412 -/
example : (do
  let v1 ← make .MessageExample [(p!"headers", (.dict [(p!"correlationId", (.str p!"my-correlation-id"))]))]
  check (eq (dump v1) (.dict [(p!"headers", (.dict [(p!"correlationId", (.str p!"my-correlation-id"))]))])) : Option Unit).isSome = true := by decide +kernel

/-- `test_message_example_serialization_case_message_example_serialization_payload_only`, tests/models/test_message.py:412 -/
example : (do
  let v1 ← make .MessageExample [(p!"payload", (.dict [(p!"user", (.dict [(p!"someUserKey", (.str p!"someUserValue"))]))]))]
  check (eq (dump v1) (.dict [(p!"payload", (.dict [(p!"user", (.dict [(p!"someUserKey", (.str p!"someUserValue"))]))]))])) : Option Unit).isSome = true := by decide +kernel

/-- `test_message_example_validation_error_no_headers_or_payload`, tests/models/test_message.py:421 -/
example : (do
  raises (do
    discard (load .MessageExample (.dict [(p!"name", (.str p!"InvalidExample")), (p!"summary", (.str p!"This should fail validation"))])) : Option Unit) : Option Unit).isSome = true := by decide +kernel

/-- `test_message_trait_validation_case_message_trait_basic`, tests/models/test_message.py:442 -/
example : (do
  let v1 ← load .MessageTrait (.dict [(p!"contentType", (.str p!"application/json"))])
  check (!(V.isNone v1))
  let v2 ← get v1 p!"content_type"
  check (eq v2 (.str p!"application/json")) : Option Unit).isSome = true := by decide +kernel

/-- `test_message_trait_validation_case_message_trait_full`, tests/models/test_message.py:442 -/
example : (do
  let v1 ← load .MessageTrait (.dict [(p!"contentType", (.str p!"application/json")), (p!"name", (.str p!"CommonMessage")), (p!"title", (.str p!"Common Message")), (p!"summary", (.str p!"Common message trait")), (p!"description", (.str p!"A common message trait")), (p!"headers", (.dict [(p!"type", (.str p!"object")), (p!"properties", (.dict [(p!"correlationId", (.dict [(p!"type", (.str p!"string"))]))]))]))])
  check (!(V.isNone v1))
  let v2 ← get v1 p!"content_type"
  check (eq v2 (.str p!"application/json")) : Option Unit).isSome = true := by decide +kernel

/-- `test_message_trait_serialization_case_message_trait_serialization_empty`, tests/models/test_message.py:458 -/
example : (do
  let v1 ← make .MessageTrait []
  check (eq (dump v1) (.dict [])) : Option Unit).isSome = true := by decide +kernel

/-- `test_message_trait_serialization_case_message_trait_serialization_basic`, tests/models/test_message.py:458 -/
example : (do
  let v1 ← make .MessageTrait [(p!"content_type", (.str p!"application/json"))]
  check (eq (dump v1) (.dict [(p!"contentType", (.str p!"application/json"))])) : Option Unit).isSome = true := by decide +kernel

/-- `test_message_trait_serialization_case_message_trait_serialization_with_headers`, tests/models/test_message.py:458 -/
example : (do
  let v1 ← make .Schema [(p!"type", (.str p!"string"))]
  let v2 ← make .Schema [(p!"type", (.str p!"object")), (p!"properties", (.dict [(p!"correlationId", v1)]))]
  let v3 ← make .MessageTrait [(p!"content_type", (.str p!"application/json")), (p!"headers", v2)]
  check (eq (dump v3) (.dict [(p!"contentType", (.str p!"application/json")), (p!"headers", (.dict [(p!"type", (.str p!"object")), (p!"properties", (.dict [(p!"correlationId", (.dict [(p!"type", (.str p!"string"))]))]))]))])) : Option Unit).isSome = true := by decide +kernel

/-- `test_message_trait_with_headers_validation`, tests/models/test_message.py:467 -/
example : (do
  let v1 ← load .MessageTrait (.dict [(p!"contentType", (.str p!"application/json")), (p!"headers", (.dict [(p!"type", (.str p!"object")), (p!"properties", (.dict [(p!"correlationId", (.dict [(p!"type", (.str p!"string"))]))]))]))])
  let v2 ← get v1 p!"content_type"
  check (eq v2 (.str p!"application/json"))
  let v3 ← get v1 p!"headers"
  check (!(V.isNone v3))
  let v4 ← get v1 p!"headers"
  check (isA .Schema v4)
  let v5 ← get v1 p!"headers"
  let v6 ← get v5 p!"type"
  check (eq v6 (.str p!"object")) : Option Unit).isSome = true := by decide +kernel

/-- `test_message_validation_case_message_basic`, tests/models/test_message.py:493 -/
example : (do
  let v1 ← load .Message (.dict [(p!"payload", (.dict [(p!"type", (.str p!"object")), (p!"properties", (.dict [(p!"displayName", (.dict [(p!"type", (.str p!"string"))])), (p!"email", (.dict [(p!"type", (.str p!"string")), (p!"format", (.str p!"email"))]))]))]))])
  check (!(V.isNone v1))
  let v2 ← get v1 p!"payload"
  check (!(V.isNone v2)) : Option Unit).isSome = true := by decide +kernel

/-- `test_message_validation_case_message_full`, tests/models/test_message.py:493 -/
example : (do
  let v1 ← load .Message (.dict [(p!"name", (.str p!"UserSignup")), (p!"title", (.str p!"User signup")), (p!"summary", (.str p!"Action to sign a user up.")), (p!"description", (.str p!"A longer description")), (p!"contentType", (.str p!"application/json")), (p!"tags", (.list [(.dict [(p!"name", (.str p!"user"))]), (.dict [(p!"name", (.str p!"signup"))])])), (p!"headers", (.dict [(p!"type", (.str p!"object")), (p!"properties", (.dict [(p!"correlationId", (.dict [(p!"description", (.str p!"Correlation ID set by application")), (p!"type", (.str p!"string"))]))]))])), (p!"payload", (.dict [(p!"type", (.str p!"object")), (p!"properties", (.dict [(p!"user", (.dict [(p!"$ref", (.str p!"#/components/schemas/userCreate"))]))]))])), (p!"correlationId", (.dict [(p!"description", (.str p!"Default Correlation ID")), (p!"location", (.str p!"$message.header#/correlationId"))])), (p!"examples", (.list [(.dict [(p!"name", (.str p!"SimpleSignup")), (p!"summary", (.str p!"A simple UserSignup example message")), (p!"headers", (.dict [(p!"correlationId", (.str p!"my-correlation-id"))])), (p!"payload", (.dict [(p!"user", (.dict [(p!"someUserKey", (.str p!"someUserValue"))]))]))])]))])
  check (!(V.isNone v1))
  let v2 ← get v1 p!"payload"
  check (!(V.isNone v2)) : Option Unit).isSome = true := by decide +kernel

/-- `test_message_serialization_case_message_serialization_empty`, tests/models/test_message.py:511 -/
example : (do
  let v1 ← make .Message []
  check (eq (dump v1) (.dict [])) : Option Unit).isSome = true := by decide +kernel

/-- `test_message_serialization_case_message_serialization_basic`, tests/models/test_message.py:511 -/
example : (do
  let v1 ← make .Schema [(p!"type", (.str p!"string"))]
  let v2 ← make .Schema [(p!"type", (.str p!"string")), (p!"format", (.str p!"email"))]
  let v3 ← make .Schema [(p!"type", (.str p!"object")), (p!"properties", (.dict [(p!"displayName", v1), (p!"email", v2)]))]
  let v4 ← make .Message [(p!"payload", v3)]
  check (eq (dump v4) (.dict [(p!"payload", (.dict [(p!"type", (.str p!"object")), (p!"properties", (.dict [(p!"displayName", (.dict [(p!"type", (.str p!"string"))])), (p!"email", (.dict [(p!"type", (.str p!"string")), (p!"format", (.str p!"email"))]))]))]))])) : Option Unit).isSome = true := by decide +kernel

/-- `test_message_serialization_case_message_serialization_with_reference_payload`, tests/models/test_message.py:511 -/
example : (do
  let v1 ← make .Reference [(p!"ref", (.str p!"#/components/schemas/userCreate"))]
  let v2 ← make .Message [(p!"payload", v1)]
  check (eq (dump v2) (.dict [(p!"payload", (.dict [(p!"$ref", (.str p!"#/components/schemas/userCreate"))]))])) : Option Unit).isSome = true := by decide +kernel

/-- `test_message_serialization_case_message_serialization_with_examples`, tests/models/test_message.py:511 -/
example : (do
  let v1 ← make .Schema [(p!"type", (.str p!"object"))]
  let v2 ← make .MessageExample [(p!"name", (.str p!"SimpleSignup")), (p!"summary", (.str p!"A simple UserSignup example message")), (p!"headers", (.dict [(p!"correlationId", (.str p!"my-correlation-id"))])), (p!"payload", (.dict [(p!"user", (.dict [(p!"someUserKey", (.str p!"someUserValue"))]))]))]
  let v3 ← make .Message [(p!"payload", v1), (p!"examples", (.list [v2]))]
  check (eq (dump v3) (.dict [(p!"payload", (.dict [(p!"type", (.str p!"object"))])), (p!"examples", (.list [(.dict [(p!"name", (.str p!"SimpleSignup")), (p!"summary", (.str p!"A simple UserSignup example message")), (p!"headers", (.dict [(p!"correlationId", (.str p!"my-correlation-id"))])), (p!"payload", (.dict [(p!"user", (.dict [(p!"someUserKey", (.str p!"someUserValue"))]))]))])]))])) : Option Unit).isSome = true := by decide +kernel

/-- `test_message_serialization_case_message_serialization_with_traits`, tests/models/test_message.py:511 -/
example : (do
  let v1 ← make .Schema [(p!"type", (.str p!"object"))]
  let v2 ← make .Reference [(p!"ref", (.str p!"#/components/messageTraits/commonHeaders"))]
  let v3 ← make .Message [(p!"payload", v1), (p!"traits", (.list [v2]))]
  check (eq (dump v3) (.dict [(p!"payload", (.dict [(p!"type", (.str p!"object"))])), (p!"traits", (.list [(.dict [(p!"$ref", (.str p!"#/components/messageTraits/commonHeaders"))])]))])) : Option Unit).isSome = true := by decide +kernel

/-- `test_message_with_examples_validation`, tests/models/test_message.py:516 -/
example : (do
  let v1 ← load .Message (.dict [(p!"payload", (.dict [(p!"type", (.str p!"object"))])), (p!"examples", (.list [(.dict [(p!"name", (.str p!"SimpleSignup")), (p!"summary", (.str p!"A simple UserSignup example message")), (p!"headers", (.dict [(p!"correlationId", (.str p!"my-correlation-id"))])), (p!"payload", (.dict [(p!"user", (.dict [(p!"someUserKey", (.str p!"someUserValue"))]))]))])]))])
  let v2 ← get v1 p!"examples"
  check (!(V.isNone v2))
  let v3 ← get v1 p!"examples"
  check (len v3 == 1)
  let v4 ← get v1 p!"examples"
  let v5 ← nth v4 0
  check (isA .MessageExample v5)
  let v6 ← get v1 p!"examples"
  let v7 ← nth v6 0
  let v8 ← get v7 p!"name"
  check (eq v8 (.str p!"SimpleSignup"))
  let v9 ← get v1 p!"examples"
  let v10 ← nth v9 0
  let v11 ← get v10 p!"summary"
  check (eq v11 (.str p!"A simple UserSignup example message")) : Option Unit).isSome = true := by decide +kernel

/-- `test_message_with_traits_validation`, tests/models/test_message.py:539 -/
example : (do
  let v1 ← load .Message (.dict [(p!"payload", (.dict [(p!"type", (.str p!"object"))])), (p!"traits", (.list [(.dict [(p!"$ref", (.str p!"#/components/messageTraits/commonHeaders"))])]))])
  let v2 ← get v1 p!"traits"
  check (!(V.isNone v2))
  let v3 ← get v1 p!"traits"
  check (len v3 == 1)
  let v4 ← get v1 p!"traits"
  let v5 ← nth v4 0
  check (isA .Reference v5)
  let v6 ← get v1 p!"traits"
  let v7 ← nth v6 0
  let v8 ← get v7 p!"ref"
  check (eq v8 (.str p!"#/components/messageTraits/commonHeaders")) : Option Unit).isSome = true := by decide +kernel

/-- `test_message_with_reference_payload_validation`, tests/models/test_message.py:555 -/
example : (do
  let v1 ← load .Message (.dict [(p!"payload", (.dict [(p!"$ref", (.str p!"#/components/schemas/userCreate"))]))])
  let v2 ← get v1 p!"payload"
  check (!(V.isNone v2))
  let v3 ← get v1 p!"payload"
  check (isA .Reference v3)
  let v4 ← get v1 p!"payload"
  let v5 ← get v4 p!"ref"
  check (eq v5 (.str p!"#/components/schemas/userCreate")) : Option Unit).isSome = true := by decide +kernel

/-- `test_messages_validation_case_messages_basic`, tests/models/test_message.py:576 -/
example : (do
  let v1 ← load .Messages (.dict [(p!"UserSignedUp", (.dict [(p!"payload", (.dict [(p!"type", (.str p!"object")), (p!"properties", (.dict [(p!"displayName", (.dict [(p!"type", (.str p!"string"))])), (p!"email", (.dict [(p!"type", (.str p!"string")), (p!"format", (.str p!"email"))]))]))]))])), (p!"UserLoggedOut", (.dict [(p!"payload", (.dict [(p!"type", (.str p!"object")), (p!"properties", (.dict [(p!"userId", (.dict [(p!"type", (.str p!"string"))]))]))]))]))])
  check (!(V.isNone v1))
  let v2 ← get v1 p!"root"
  check (isDict v2)
  let v3 ← get v1 p!"root"
  check (decide (len v3 > 0)) : Option Unit).isSome = true := by decide +kernel

/-- `test_messages_validation_case_messages_with_references`, tests/models/test_message.py:576 -/
example : (do
  let v1 ← load .Messages (.dict [(p!"UserSignedUp", (.dict [(p!"$ref", (.str p!"#/components/messages/UserSignedUp"))])), (p!"UserLoggedOut", (.dict [(p!"$ref", (.str p!"#/components/messages/UserLoggedOut"))]))])
  check (!(V.isNone v1))
  let v2 ← get v1 p!"root"
  check (isDict v2)
  let v3 ← get v1 p!"root"
  check (decide (len v3 > 0)) : Option Unit).isSome = true := by decide +kernel

/-- `test_messages_validation_errors_case_messages_invalid_key_spaces`, tests/models/test_message.py:592 -/
example : (do
  raises (do
    discard (load .Messages (.dict [(p!"user signed up", (.dict [(p!"payload", (.dict [(p!"type", (.str p!"object"))]))]))])) : Option Unit) : Option Unit).isSome = true := by decide +kernel

/-- `test_messages_validation_errors_case_messages_invalid_key_special_chars`, tests/models/test_message.py:592 -/
example : (do
  raises (do
    discard (load .Messages (.dict [(p!"user@signed@up", (.dict [(p!"payload", (.dict [(p!"type", (.str p!"object"))]))]))])) : Option Unit) : Option Unit).isSome = true := by decide +kernel

/-- `test_messages_validation_errors_case_messages_invalid_key_parentheses`, tests/models/test_message.py:592 -/
example : (do
  raises (do
    discard (load .Messages (.dict [(p!"user(signed)up", (.dict [(p!"payload", (.dict [(p!"type", (.str p!"object"))]))]))])) : Option Unit) : Option Unit).isSome = true := by decide +kernel

/-- `test_messages_empty_dict_validation`, tests/models/test_message.py:600 -/
example : (do
  let v1 ← load .Messages (.dict [])
  check (!(V.isNone v1))
  let v2 ← get v1 p!"root"
  check (eq v2 (.dict []))
  let v3 ← get v1 p!"root"
  check (len v3 == 0) : Option Unit).isSome = true := by decide +kernel

/-- `test_messages_iteration`, tests/models/test_message.py:607 -/
example : (do
  let v1 ← make .Schema [(p!"type", (.str p!"string"))]
  let v2 ← make .Schema [(p!"type", (.str p!"string")), (p!"format", (.str p!"email"))]
  let v3 ← make .Schema [(p!"type", (.str p!"object")), (p!"properties", (.dict [(p!"displayName", v1), (p!"email", v2)]))]
  let v4 ← make .Message [(p!"payload", v3)]
  let v5 ← make .Schema [(p!"type", (.str p!"string"))]
  let v6 ← make .Schema [(p!"type", (.str p!"object")), (p!"properties", (.dict [(p!"userId", v5)]))]
  let v7 ← make .Message [(p!"payload", v6)]
  let v8 ← make .Messages [(p!"root", (.dict [(p!"UserSignedUp", v4), (p!"UserLoggedOut", v7)]))]
  check (len (listOf v8) == 2)
  check (member p!"UserSignedUp" (listOf v8))
  check (member p!"UserLoggedOut" (listOf v8)) : Option Unit).isSome = true := by decide +kernel

/-- `test_messages_getitem`, tests/models/test_message.py:636 -/
example : (do
  let v1 ← make .Schema [(p!"type", (.str p!"string"))]
  let v2 ← make .Schema [(p!"type", (.str p!"string")), (p!"format", (.str p!"email"))]
  let v3 ← make .Schema [(p!"type", (.str p!"object")), (p!"properties", (.dict [(p!"displayName", v1), (p!"email", v2)]))]
  let v4 ← make .Message [(p!"payload", v3)]
  let v5 ← make .Schema [(p!"type", (.str p!"string"))]
  let v6 ← make .Schema [(p!"type", (.str p!"object")), (p!"properties", (.dict [(p!"userId", v5)]))]
  let v7 ← make .Message [(p!"payload", v6)]
  let v8 ← make .Messages [(p!"root", (.dict [(p!"UserSignedUp", v4), (p!"UserLoggedOut", v7)]))]
  let v9 ← item v8 p!"UserSignedUp"
  check (eq v9 v4)
  let v10 ← item v8 p!"UserLoggedOut"
  check (eq v10 v7) : Option Unit).isSome = true := by decide +kernel

/-- `test_messages_getattr`, tests/models/test_message.py:663 -/
example : (do
  let v1 ← make .Schema [(p!"type", (.str p!"string"))]
  let v2 ← make .Schema [(p!"type", (.str p!"string")), (p!"format", (.str p!"email"))]
  let v3 ← make .Schema [(p!"type", (.str p!"object")), (p!"properties", (.dict [(p!"displayName", v1), (p!"email", v2)]))]
  let v4 ← make .Message [(p!"payload", v3)]
  let v5 ← make .Schema [(p!"type", (.str p!"string"))]
  let v6 ← make .Schema [(p!"type", (.str p!"object")), (p!"properties", (.dict [(p!"userId", v5)]))]
  let v7 ← make .Message [(p!"payload", v6)]
  let v8 ← make .Messages [(p!"root", (.dict [(p!"UserSignedUp", v4), (p!"UserLoggedOut", v7)]))]
  let v9 ← item v8 p!"UserSignedUp"
  check (eq v9 v4)
  let v10 ← item v8 p!"UserLoggedOut"
  check (eq v10 v7) : Option Unit).isSome = true := by decide +kernel

end Verif.Conformance
