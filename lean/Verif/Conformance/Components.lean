import Verif.Conformance.Support

/-! Translated from tests/models/test_components.py by tools/gen_conformance.py. -/

set_option maxRecDepth 100000
set_option linter.unusedVariables false
namespace Verif.Conformance
open Verif Verif.Gen Verif.Pyd

/-- `test_schemas_validation_case_schemas_basic`, tests/models/test_components.py:515 -/
example : (do
  let v1 ← load .Schemas (.dict [(p!"user", (.dict [(p!"type", (.str p!"object")), (p!"properties", (.dict [(p!"name", (.dict [(p!"type", (.str p!"string"))]))]))])), (p!"order", (.dict [(p!"type", (.str p!"object")), (p!"properties", (.dict [(p!"id", (.dict [(p!"type", (.str p!"integer"))]))]))]))])
  check (!(V.isNone v1))
  let v2 ← get v1 p!"root"
  check (isDict v2)
  let v3 ← get v1 p!"root"
  check (decide (len v3 > 0)) : Option Unit).isSome = true := by decide +kernel

/-- `test_schemas_validation_case_schemas_with_references`, tests/models/test_components.py:515 -/
example : (do
  let v1 ← load .Schemas (.dict [(p!"user", (.dict [(p!"$ref", (.str p!"#/components/schemas/user"))])), (p!"order", (.dict [(p!"$ref", (.str p!"#/components/schemas/order"))]))])
  check (!(V.isNone v1))
  let v2 ← get v1 p!"root"
  check (isDict v2)
  let v3 ← get v1 p!"root"
  check (decide (len v3 > 0)) : Option Unit).isSome = true := by decide +kernel

/-- `test_schemas_validation_errors_case_schemas_invalid_key_spaces`, tests/models/test_components.py:531 -/
example : (do
  raises (do
    discard (load .Schemas (.dict [(p!"user schema", (.dict [(p!"type", (.str p!"object"))]))])) : Option Unit)
  check (true) : Option Unit).isSome = true := by decide +kernel

/-- `test_schemas_validation_errors_case_schemas_invalid_key_special_chars`, tests/models/test_components.py:531 -/
example : (do
  raises (do
    discard (load .Schemas (.dict [(p!"user@schema", (.dict [(p!"type", (.str p!"object"))]))])) : Option Unit)
  check (true) : Option Unit).isSome = true := by decide +kernel

/-- `test_schemas_validation_errors_case_schemas_invalid_key_parentheses`, tests/models/test_components.py:531 -/
example : (do
  raises (do
    discard (load .Schemas (.dict [(p!"user(schema)", (.dict [(p!"type", (.str p!"object"))]))])) : Option Unit)
  check (true) : Option Unit).isSome = true := by decide +kernel

/-- `test_schemas_empty_dict_validation`, tests/models/test_components.py:540 -/
example : (do
  let v1 ← load .Schemas (.dict [])
  check (!(V.isNone v1))
  let v2 ← get v1 p!"root"
  check (eq v2 (.dict []))
  let v3 ← get v1 p!"root"
  check (len v3 == 0) : Option Unit).isSome = true := by decide +kernel

/-- `test_schemas_iteration`, tests/models/test_components.py:547 -/
example : (do
  let v1 ← make .Schema [(p!"type", (.str p!"string"))]
  let v2 ← make .Schema [(p!"type", (.str p!"object")), (p!"properties", (.dict [(p!"name", v1)]))]
  let v3 ← make .Schema [(p!"type", (.str p!"integer"))]
  let v4 ← make .Schema [(p!"type", (.str p!"object")), (p!"properties", (.dict [(p!"id", v3)]))]
  let v5 ← make .Schemas [(p!"root", (.dict [(p!"user", v2), (p!"order", v4)]))]
  check (len (listOf v5) == 2)
  check (member p!"user" (listOf v5))
  check (member p!"order" (listOf v5)) : Option Unit).isSome = true := by decide +kernel

/-- `test_schemas_getitem`, tests/models/test_components.py:563 -/
example : (do
  let v1 ← make .Schema [(p!"type", (.str p!"string"))]
  let v2 ← make .Schema [(p!"type", (.str p!"object")), (p!"properties", (.dict [(p!"name", v1)]))]
  let v3 ← make .Schema [(p!"type", (.str p!"integer"))]
  let v4 ← make .Schema [(p!"type", (.str p!"object")), (p!"properties", (.dict [(p!"id", v3)]))]
  let v5 ← make .Schemas [(p!"root", (.dict [(p!"user", v2), (p!"order", v4)]))]
  let v6 ← item v5 p!"user"
  check (eq v6 v2)
  let v7 ← item v5 p!"order"
  check (eq v7 v4) : Option Unit).isSome = true := by decide +kernel

/-- `test_schemas_getattr`, tests/models/test_components.py:577 -/
example : (do
  let v1 ← make .Schema [(p!"type", (.str p!"string"))]
  let v2 ← make .Schema [(p!"type", (.str p!"object")), (p!"properties", (.dict [(p!"name", v1)]))]
  let v3 ← make .Schema [(p!"type", (.str p!"integer"))]
  let v4 ← make .Schema [(p!"type", (.str p!"object")), (p!"properties", (.dict [(p!"id", v3)]))]
  let v5 ← make .Schemas [(p!"root", (.dict [(p!"user", v2), (p!"order", v4)]))]
  let v6 ← item v5 p!"user"
  check (eq v6 v2)
  let v7 ← item v5 p!"order"
  check (eq v7 v4) : Option Unit).isSome = true := by decide +kernel

/-- `test_channels_validation_case_channels_basic`, tests/models/test_components.py:694 -/
example : (do
  let v1 ← load .Channels (.dict [(p!"userChannel", (.dict [(p!"address", (.str p!"user/signedup"))])), (p!"adminChannel", (.dict [(p!"address", (.str p!"admin/events"))]))])
  check (!(V.isNone v1))
  let v2 ← get v1 p!"root"
  check (isDict v2)
  let v3 ← get v1 p!"root"
  check (decide (len v3 > 0)) : Option Unit).isSome = true := by decide +kernel

/-- `test_channels_validation_case_channels_with_references`, tests/models/test_components.py:694 -/
example : (do
  let v1 ← load .Channels (.dict [(p!"userChannel", (.dict [(p!"$ref", (.str p!"#/components/channels/userChannel"))])), (p!"adminChannel", (.dict [(p!"$ref", (.str p!"#/components/channels/adminChannel"))]))])
  check (!(V.isNone v1))
  let v2 ← get v1 p!"root"
  check (isDict v2)
  let v3 ← get v1 p!"root"
  check (decide (len v3 > 0)) : Option Unit).isSome = true := by decide +kernel

/-- `test_channels_validation_errors_case_channels_invalid_key_spaces`, tests/models/test_components.py:710 -/
example : (do
  raises (do
    discard (load .Channels (.dict [(p!"user channel", (.dict [(p!"address", (.str p!"user/signedup"))]))])) : Option Unit)
  check (true) : Option Unit).isSome = true := by decide +kernel

/-- `test_channels_validation_errors_case_channels_invalid_key_special_chars`, tests/models/test_components.py:710 -/
example : (do
  raises (do
    discard (load .Channels (.dict [(p!"user@channel", (.dict [(p!"address", (.str p!"user/signedup"))]))])) : Option Unit)
  check (true) : Option Unit).isSome = true := by decide +kernel

/-- `test_channels_validation_errors_case_channels_invalid_key_parentheses`, tests/models/test_components.py:710 -/
example : (do
  raises (do
    discard (load .Channels (.dict [(p!"user(channel)", (.dict [(p!"address", (.str p!"user/signedup"))]))])) : Option Unit)
  check (true) : Option Unit).isSome = true := by decide +kernel

/-- `test_channels_empty_dict_validation`, tests/models/test_components.py:719 -/
example : (do
  let v1 ← load .Channels (.dict [])
  check (!(V.isNone v1))
  let v2 ← get v1 p!"root"
  check (eq v2 (.dict []))
  let v3 ← get v1 p!"root"
  check (len v3 == 0) : Option Unit).isSome = true := by decide +kernel

/-- `test_channels_iteration`, tests/models/test_components.py:726 -/
example : (do
  let v1 ← make .Channel [(p!"address", (.str p!"user/signedup"))]
  let v2 ← make .Channel [(p!"address", (.str p!"admin/events"))]
  let v3 ← make .Channels [(p!"root", (.dict [(p!"userChannel", v1), (p!"adminChannel", v2)]))]
  check (len (listOf v3) == 2)
  check (member p!"userChannel" (listOf v3))
  check (member p!"adminChannel" (listOf v3)) : Option Unit).isSome = true := by decide +kernel

/-- `test_channels_getitem`, tests/models/test_components.py:742 -/
example : (do
  let v1 ← make .Channel [(p!"address", (.str p!"user/signedup"))]
  let v2 ← make .Channel [(p!"address", (.str p!"admin/events"))]
  let v3 ← make .Channels [(p!"root", (.dict [(p!"userChannel", v1), (p!"adminChannel", v2)]))]
  let v4 ← item v3 p!"userChannel"
  check (eq v4 v1)
  let v5 ← item v3 p!"adminChannel"
  check (eq v5 v2) : Option Unit).isSome = true := by decide +kernel

/-- `test_channels_getattr`, tests/models/test_components.py:756 -/
example : (do
  let v1 ← make .Channel [(p!"address", (.str p!"user/signedup"))]
  let v2 ← make .Channel [(p!"address", (.str p!"admin/events"))]
  let v3 ← make .Channels [(p!"root", (.dict [(p!"userChannel", v1), (p!"adminChannel", v2)]))]
  let v4 ← item v3 p!"userChannel"
  check (eq v4 v1)
  let v5 ← item v3 p!"adminChannel"
  check (eq v5 v2) : Option Unit).isSome = true := by decide +kernel

/-- `test_operations_validation_case_operations_basic`, tests/models/test_components.py:845 -/
example : (do
  let v1 ← load .Operations (.dict [(p!"sendUserSignup", (.dict [(p!"action", (.str p!"send")), (p!"channel", (.dict [(p!"$ref", (.str p!"#/channels/userChannel"))]))])), (p!"receiveUserSignup", (.dict [(p!"action", (.str p!"receive")), (p!"channel", (.dict [(p!"$ref", (.str p!"#/channels/userChannel"))]))]))])
  check (!(V.isNone v1))
  let v2 ← get v1 p!"root"
  check (isDict v2)
  let v3 ← get v1 p!"root"
  check (decide (len v3 > 0)) : Option Unit).isSome = true := by decide +kernel

/-- `test_operations_validation_case_operations_with_references`, tests/models/test_components.py:845 -/
example : (do
  let v1 ← load .Operations (.dict [(p!"sendUserSignup", (.dict [(p!"$ref", (.str p!"#/components/operations/sendUserSignup"))])), (p!"receiveUserSignup", (.dict [(p!"$ref", (.str p!"#/components/operations/receiveUserSignup"))]))])
  check (!(V.isNone v1))
  let v2 ← get v1 p!"root"
  check (isDict v2)
  let v3 ← get v1 p!"root"
  check (decide (len v3 > 0)) : Option Unit).isSome = true := by decide +kernel

/-- `test_operations_validation_errors_case_operations_invalid_key_spaces`, tests/models/test_components.py:861 -/
example : (do
  raises (do
    discard (load .Operations (.dict [(p!"send user signup", (.dict [(p!"action", (.str p!"send")), (p!"channel", (.dict [(p!"$ref", (.str p!"#/channels/userChannel"))]))]))])) : Option Unit)
  check (true) : Option Unit).isSome = true := by decide +kernel

/-- `test_operations_validation_errors_case_operations_invalid_key_special_chars`, tests/models/test_components.py:861 -/
example : (do
  raises (do
    discard (load .Operations (.dict [(p!"send@user@signup", (.dict [(p!"action", (.str p!"send")), (p!"channel", (.dict [(p!"$ref", (.str p!"#/channels/userChannel"))]))]))])) : Option Unit)
  check (true) : Option Unit).isSome = true := by decide +kernel

/-- `test_operations_validation_errors_case_operations_invalid_key_parentheses`, tests/models/test_components.py:861 -/
example : (do
  raises (do
    discard (load .Operations (.dict [(p!"send(user)signup", (.dict [(p!"action", (.str p!"send")), (p!"channel", (.dict [(p!"$ref", (.str p!"#/channels/userChannel"))]))]))])) : Option Unit)
  check (true) : Option Unit).isSome = true := by decide +kernel

/-- `test_operations_empty_dict_validation`, tests/models/test_components.py:870 -/
example : (do
  let v1 ← load .Operations (.dict [])
  check (!(V.isNone v1))
  let v2 ← get v1 p!"root"
  check (eq v2 (.dict []))
  let v3 ← get v1 p!"root"
  check (len v3 == 0) : Option Unit).isSome = true := by decide +kernel

/-- `test_operations_iteration`, tests/models/test_components.py:877 -/
example : (do
  let v1 ← make .Reference [(p!"ref", (.str p!"#/channels/userChannel"))]
  let v2 ← make .Operation [(p!"action", (.str p!"send")), (p!"channel", v1)]
  let v3 ← make .Reference [(p!"ref", (.str p!"#/channels/userChannel"))]
  let v4 ← make .Operation [(p!"action", (.str p!"receive")), (p!"channel", v3)]
  let v5 ← make .Operations [(p!"root", (.dict [(p!"sendUserSignup", v2), (p!"receiveUserSignup", v4)]))]
  check (len (listOf v5) == 2)
  check (member p!"sendUserSignup" (listOf v5))
  check (member p!"receiveUserSignup" (listOf v5)) : Option Unit).isSome = true := by decide +kernel

/-- `test_operations_getitem`, tests/models/test_components.py:897 -/
example : (do
  let v1 ← make .Reference [(p!"ref", (.str p!"#/channels/userChannel"))]
  let v2 ← make .Operation [(p!"action", (.str p!"send")), (p!"channel", v1)]
  let v3 ← make .Reference [(p!"ref", (.str p!"#/channels/userChannel"))]
  let v4 ← make .Operation [(p!"action", (.str p!"receive")), (p!"channel", v3)]
  let v5 ← make .Operations [(p!"root", (.dict [(p!"sendUserSignup", v2), (p!"receiveUserSignup", v4)]))]
  let v6 ← item v5 p!"sendUserSignup"
  check (eq v6 v2)
  let v7 ← item v5 p!"receiveUserSignup"
  check (eq v7 v4) : Option Unit).isSome = true := by decide +kernel

/-- `test_operations_getattr`, tests/models/test_components.py:915 -/
example : (do
  let v1 ← make .Reference [(p!"ref", (.str p!"#/channels/userChannel"))]
  let v2 ← make .Operation [(p!"action", (.str p!"send")), (p!"channel", v1)]
  let v3 ← make .Reference [(p!"ref", (.str p!"#/channels/userChannel"))]
  let v4 ← make .Operation [(p!"action", (.str p!"receive")), (p!"channel", v3)]
  let v5 ← make .Operations [(p!"root", (.dict [(p!"sendUserSignup", v2), (p!"receiveUserSignup", v4)]))]
  let v6 ← item v5 p!"sendUserSignup"
  check (eq v6 v2)
  let v7 ← item v5 p!"receiveUserSignup"
  check (eq v7 v4) : Option Unit).isSome = true := by decide +kernel

/-- `test_messages_validation_case_messages_basic`, tests/models/test_components.py:1021 -/
example : (do
  let v1 ← load .Messages (.dict [(p!"UserSignedUp", (.dict [(p!"payload", (.dict [(p!"type", (.str p!"object")), (p!"properties", (.dict [(p!"displayName", (.dict [(p!"type", (.str p!"string"))])), (p!"email", (.dict [(p!"type", (.str p!"string")), (p!"format", (.str p!"email"))]))]))]))])), (p!"UserLoggedOut", (.dict [(p!"payload", (.dict [(p!"type", (.str p!"object")), (p!"properties", (.dict [(p!"userId", (.dict [(p!"type", (.str p!"string"))]))]))]))]))])
  check (!(V.isNone v1))
  let v2 ← get v1 p!"root"
  check (isDict v2)
  let v3 ← get v1 p!"root"
  check (decide (len v3 > 0)) : Option Unit).isSome = true := by decide +kernel

/-- `test_messages_validation_case_messages_with_references`, tests/models/test_components.py:1021 -/
example : (do
  let v1 ← load .Messages (.dict [(p!"UserSignedUp", (.dict [(p!"$ref", (.str p!"#/components/messages/UserSignedUp"))])), (p!"UserLoggedOut", (.dict [(p!"$ref", (.str p!"#/components/messages/UserLoggedOut"))]))])
  check (!(V.isNone v1))
  let v2 ← get v1 p!"root"
  check (isDict v2)
  let v3 ← get v1 p!"root"
  check (decide (len v3 > 0)) : Option Unit).isSome = true := by decide +kernel

/-- `test_messages_validation_errors_case_messages_invalid_key_spaces`, tests/models/test_components.py:1037 -/
example : (do
  raises (do
    discard (load .Messages (.dict [(p!"user signed up", (.dict [(p!"payload", (.dict [(p!"type", (.str p!"object")), (p!"properties", (.dict [(p!"displayName", (.dict [(p!"type", (.str p!"string"))]))]))]))]))])) : Option Unit)
  check (true) : Option Unit).isSome = true := by decide +kernel

/-- `test_messages_validation_errors_case_messages_invalid_key_special_chars`, tests/models/test_components.py:1037 -/
example : (do
  raises (do
    discard (load .Messages (.dict [(p!"user@signed@up", (.dict [(p!"payload", (.dict [(p!"type", (.str p!"object")), (p!"properties", (.dict [(p!"displayName", (.dict [(p!"type", (.str p!"string"))]))]))]))]))])) : Option Unit)
  check (true) : Option Unit).isSome = true := by decide +kernel

/-- `test_messages_validation_errors_case_messages_invalid_key_parentheses`, tests/models/test_components.py:1037 -/
example : (do
  raises (do
    discard (load .Messages (.dict [(p!"user(signed)up", (.dict [(p!"payload", (.dict [(p!"type", (.str p!"object")), (p!"properties", (.dict [(p!"displayName", (.dict [(p!"type", (.str p!"string"))]))]))]))]))])) : Option Unit)
  check (true) : Option Unit).isSome = true := by decide +kernel

/-- `test_messages_empty_dict_validation`, tests/models/test_components.py:1046 -/
example : (do
  let v1 ← load .Messages (.dict [])
  check (!(V.isNone v1))
  let v2 ← get v1 p!"root"
  check (eq v2 (.dict []))
  let v3 ← get v1 p!"root"
  check (len v3 == 0) : Option Unit).isSome = true := by decide +kernel

/-- `test_messages_iteration`, tests/models/test_components.py:1053 -/
example : (do
  let v1 ← make .Schema [(p!"type", (.str p!"string"))]
  let v2 ← make .Schema [(p!"type", (.str p!"string")), (p!"format", (.str p!"email"))]
  let v3 ← make .Schema [(p!"type", (.str p!"object")), (p!"properties", (.dict [(p!"displayName", v1), (p!"email", v2)]))]
  let v4 ← make .Message [(p!"payload", v3)]
  let v5 ← make .Schema [(p!"type", (.str p!"string"))]
  let v6 ← make .Schema [(p!"type", (.str p!"object")), (p!"properties", (.dict [(p!"userId", v5)]))]
  let v7 ← make .Message [(p!"payload", v6)]
  let v8 ← make .Messages [(p!"root", (.dict [(p!"UserSignedUp", v4), (p!"UserLoggedOut", v7)]))]
  check (len (listOf v8) == 2)
  check (member p!"UserSignedUp" (listOf v8))
  check (member p!"UserLoggedOut" (listOf v8)) : Option Unit).isSome = true := by decide +kernel

/-- `test_messages_getitem`, tests/models/test_components.py:1082 -/
example : (do
  let v1 ← make .Schema [(p!"type", (.str p!"string"))]
  let v2 ← make .Schema [(p!"type", (.str p!"string")), (p!"format", (.str p!"email"))]
  let v3 ← make .Schema [(p!"type", (.str p!"object")), (p!"properties", (.dict [(p!"displayName", v1), (p!"email", v2)]))]
  let v4 ← make .Message [(p!"payload", v3)]
  let v5 ← make .Schema [(p!"type", (.str p!"string"))]
  let v6 ← make .Schema [(p!"type", (.str p!"object")), (p!"properties", (.dict [(p!"userId", v5)]))]
  let v7 ← make .Message [(p!"payload", v6)]
  let v8 ← make .Messages [(p!"root", (.dict [(p!"UserSignedUp", v4), (p!"UserLoggedOut", v7)]))]
  let v9 ← item v8 p!"UserSignedUp"
  check (eq v9 v4)
  let v10 ← item v8 p!"UserLoggedOut"
  check (eq v10 v7) : Option Unit).isSome = true := by decide +kernel

/-- `test_messages_getattr`, tests/models/test_components.py:1109 -/
example : (do
  let v1 ← make .Schema [(p!"type", (.str p!"string"))]
  let v2 ← make .Schema [(p!"type", (.str p!"string")), (p!"format", (.str p!"email"))]
  let v3 ← make .Schema [(p!"type", (.str p!"object")), (p!"properties", (.dict [(p!"displayName", v1), (p!"email", v2)]))]
  let v4 ← make .Message [(p!"payload", v3)]
  let v5 ← make .Schema [(p!"type", (.str p!"string"))]
  let v6 ← make .Schema [(p!"type", (.str p!"object")), (p!"properties", (.dict [(p!"userId", v5)]))]
  let v7 ← make .Message [(p!"payload", v6)]
  let v8 ← make .Messages [(p!"root", (.dict [(p!"UserSignedUp", v4), (p!"UserLoggedOut", v7)]))]
  let v9 ← item v8 p!"UserSignedUp"
  check (eq v9 v4)
  let v10 ← item v8 p!"UserLoggedOut"
  check (eq v10 v7) : Option Unit).isSome = true := by decide +kernel

/-- `test_security_schemes_validation_case_security_schemes_basic`, tests/models/test_components.py:1210 -/
example : (do
  let v1 ← load .SecuritySchemes (.dict [(p!"apiKey", (.dict [(p!"type", (.str p!"apiKey")), (p!"in", (.str p!"user")), (p!"name", (.str p!"api_key"))])), (p!"basicAuth", (.dict [(p!"type", (.str p!"http")), (p!"scheme", (.str p!"basic"))]))])
  check (!(V.isNone v1))
  let v2 ← get v1 p!"root"
  check (isDict v2)
  let v3 ← get v1 p!"root"
  check (decide (len v3 > 0)) : Option Unit).isSome = true := by decide +kernel

/-- `test_security_schemes_validation_case_security_schemes_with_references`, tests/models/test_components.py:1210 -/
example : (do
  let v1 ← load .SecuritySchemes (.dict [(p!"apiKey", (.dict [(p!"$ref", (.str p!"#/components/securitySchemes/apiKey"))])), (p!"basicAuth", (.dict [(p!"$ref", (.str p!"#/components/securitySchemes/basicAuth"))]))])
  check (!(V.isNone v1))
  let v2 ← get v1 p!"root"
  check (isDict v2)
  let v3 ← get v1 p!"root"
  check (decide (len v3 > 0)) : Option Unit).isSome = true := by decide +kernel

/-- `test_security_schemes_validation_errors_case_security_schemes_invalid_key_spaces`, tests/models/test_components.py:1226 -/
example : (do
  raises (do
    discard (load .SecuritySchemes (.dict [(p!"api key", (.dict [(p!"type", (.str p!"apiKey")), (p!"in", (.str p!"user")), (p!"name", (.str p!"api_key"))]))])) : Option Unit)
  check (true) : Option Unit).isSome = true := by decide +kernel

/-- `test_security_schemes_validation_errors_case_security_schemes_invalid_key_special_chars`, tests/models/test_components.py:1226 -/
example : (do
  raises (do
    discard (load .SecuritySchemes (.dict [(p!"api@key", (.dict [(p!"type", (.str p!"apiKey")), (p!"in", (.str p!"user")), (p!"name", (.str p!"api_key"))]))])) : Option Unit)
  check (true) : Option Unit).isSome = true := by decide +kernel

/-- `test_security_schemes_validation_errors_case_security_schemes_invalid_key_parentheses`, tests/models/test_components.py:1226 -/
example : (do
  raises (do
    discard (load .SecuritySchemes (.dict [(p!"api(key)", (.dict [(p!"type", (.str p!"apiKey")), (p!"in", (.str p!"user")), (p!"name", (.str p!"api_key"))]))])) : Option Unit)
  check (true) : Option Unit).isSome = true := by decide +kernel

/-- `test_security_schemes_empty_dict_validation`, tests/models/test_components.py:1235 -/
example : (do
  let v1 ← load .SecuritySchemes (.dict [])
  check (!(V.isNone v1))
  let v2 ← get v1 p!"root"
  check (eq v2 (.dict []))
  let v3 ← get v1 p!"root"
  check (len v3 == 0) : Option Unit).isSome = true := by decide +kernel

/-- `test_security_schemes_iteration`, tests/models/test_components.py:1242 -/
example : (do
  let v1 ← make .SecurityScheme [(p!"type_", (.str p!"apiKey")), (p!"in_", (.str p!"user")), (p!"name", (.str p!"api_key"))]
  let v2 ← make .SecurityScheme [(p!"type_", (.str p!"http")), (p!"scheme", (.str p!"basic"))]
  let v3 ← make .SecuritySchemes [(p!"root", (.dict [(p!"apiKey", v1), (p!"basicAuth", v2)]))]
  check (len (listOf v3) == 2)
  check (member p!"apiKey" (listOf v3))
  check (member p!"basicAuth" (listOf v3)) : Option Unit).isSome = true := by decide +kernel

/-- `test_security_schemes_getitem`, tests/models/test_components.py:1265 -/
example : (do
  let v1 ← make .SecurityScheme [(p!"type_", (.str p!"apiKey")), (p!"in_", (.str p!"user")), (p!"name", (.str p!"api_key"))]
  let v2 ← make .SecurityScheme [(p!"type_", (.str p!"http")), (p!"scheme", (.str p!"basic"))]
  let v3 ← make .SecuritySchemes [(p!"root", (.dict [(p!"apiKey", v1), (p!"basicAuth", v2)]))]
  let v4 ← item v3 p!"apiKey"
  check (eq v4 v1)
  let v5 ← item v3 p!"basicAuth"
  check (eq v5 v2) : Option Unit).isSome = true := by decide +kernel

/-- `test_security_schemes_getattr`, tests/models/test_components.py:1286 -/
example : (do
  let v1 ← make .SecurityScheme [(p!"type_", (.str p!"apiKey")), (p!"in_", (.str p!"user")), (p!"name", (.str p!"api_key"))]
  let v2 ← make .SecurityScheme [(p!"type_", (.str p!"http")), (p!"scheme", (.str p!"basic"))]
  let v3 ← make .SecuritySchemes [(p!"root", (.dict [(p!"apiKey", v1), (p!"basicAuth", v2)]))]
  let v4 ← item v3 p!"apiKey"
  check (eq v4 v1)
  let v5 ← item v3 p!"basicAuth"
  check (eq v5 v2) : Option Unit).isSome = true := by decide +kernel

/-- `test_server_variables_validation_case_server_variables_basic`, tests/models/test_components.py:1375 -/
example : (do
  let v1 ← load .ServerVariables (.dict [(p!"port", (.dict [(p!"default", (.str p!"1883")), (p!"enum", (.list [(.str p!"1883"), (.str p!"8883")]))])), (p!"username", (.dict [(p!"default", (.str p!"guest"))]))])
  check (!(V.isNone v1))
  let v2 ← get v1 p!"root"
  check (isDict v2)
  let v3 ← get v1 p!"root"
  check (decide (len v3 > 0)) : Option Unit).isSome = true := by decide +kernel

/-- `test_server_variables_validation_case_server_variables_with_references`, tests/models/test_components.py:1375 -/
example : (do
  let v1 ← load .ServerVariables (.dict [(p!"port", (.dict [(p!"$ref", (.str p!"#/components/serverVariables/port"))])), (p!"username", (.dict [(p!"$ref", (.str p!"#/components/serverVariables/username"))]))])
  check (!(V.isNone v1))
  let v2 ← get v1 p!"root"
  check (isDict v2)
  let v3 ← get v1 p!"root"
  check (decide (len v3 > 0)) : Option Unit).isSome = true := by decide +kernel

/-- `test_server_variables_validation_errors_case_server_variables_invalid_key_spaces`, tests/models/test_components.py:1391 -/
example : (do
  raises (do
    discard (load .ServerVariables (.dict [(p!"server port", (.dict [(p!"default", (.str p!"1883"))]))])) : Option Unit)
  check (true) : Option Unit).isSome = true := by decide +kernel

/-- `test_server_variables_validation_errors_case_server_variables_invalid_key_special_chars`, tests/models/test_components.py:1391 -/
example : (do
  raises (do
    discard (load .ServerVariables (.dict [(p!"server@port", (.dict [(p!"default", (.str p!"1883"))]))])) : Option Unit)
  check (true) : Option Unit).isSome = true := by decide +kernel

/-- `test_server_variables_validation_errors_case_server_variables_invalid_key_parentheses`, tests/models/test_components.py:1391 -/
example : (do
  raises (do
    discard (load .ServerVariables (.dict [(p!"server(port)", (.dict [(p!"default", (.str p!"1883"))]))])) : Option Unit)
  check (true) : Option Unit).isSome = true := by decide +kernel

/-- `test_server_variables_empty_dict_validation`, tests/models/test_components.py:1400 -/
example : (do
  let v1 ← load .ServerVariables (.dict [])
  check (!(V.isNone v1))
  let v2 ← get v1 p!"root"
  check (eq v2 (.dict []))
  let v3 ← get v1 p!"root"
  check (len v3 == 0) : Option Unit).isSome = true := by decide +kernel

/-- `test_server_variables_iteration`, tests/models/test_components.py:1407 -/
example : (do
  let v1 ← make .ServerVariable [(p!"default", (.str p!"1883")), (p!"enum", (.list [(.str p!"1883"), (.str p!"8883")]))]
  let v2 ← make .ServerVariable [(p!"default", (.str p!"guest"))]
  let v3 ← make .ServerVariables [(p!"root", (.dict [(p!"port", v1), (p!"username", v2)]))]
  check (len (listOf v3) == 2)
  check (member p!"port" (listOf v3))
  check (member p!"username" (listOf v3)) : Option Unit).isSome = true := by decide +kernel

/-- `test_server_variables_getitem`, tests/models/test_components.py:1423 -/
example : (do
  let v1 ← make .ServerVariable [(p!"default", (.str p!"1883")), (p!"enum", (.list [(.str p!"1883"), (.str p!"8883")]))]
  let v2 ← make .ServerVariable [(p!"default", (.str p!"guest"))]
  let v3 ← make .ServerVariables [(p!"root", (.dict [(p!"port", v1), (p!"username", v2)]))]
  let v4 ← item v3 p!"port"
  check (eq v4 v1)
  let v5 ← item v3 p!"username"
  check (eq v5 v2) : Option Unit).isSome = true := by decide +kernel

/-- `test_server_variables_getattr`, tests/models/test_components.py:1437 -/
example : (do
  let v1 ← make .ServerVariable [(p!"default", (.str p!"1883")), (p!"enum", (.list [(.str p!"1883"), (.str p!"8883")]))]
  let v2 ← make .ServerVariable [(p!"default", (.str p!"guest"))]
  let v3 ← make .ServerVariables [(p!"root", (.dict [(p!"port", v1), (p!"username", v2)]))]
  let v4 ← item v3 p!"port"
  check (eq v4 v1)
  let v5 ← item v3 p!"username"
  check (eq v5 v2) : Option Unit).isSome = true := by decide +kernel

/-- `test_parameters_validation_case_parameters_basic`, tests/models/test_components.py:1516 -/
example : (do
  let v1 ← load .Parameters (.dict [(p!"userId", (.dict [(p!"description", (.str p!"Id of the user."))])), (p!"channelId", (.dict [(p!"description", (.str p!"Id of the channel."))]))])
  check (!(V.isNone v1))
  let v2 ← get v1 p!"root"
  check (isDict v2)
  let v3 ← get v1 p!"root"
  check (decide (len v3 > 0)) : Option Unit).isSome = true := by decide +kernel

/-- `test_parameters_validation_case_parameters_with_references`, tests/models/test_components.py:1516 -/
example : (do
  let v1 ← load .Parameters (.dict [(p!"userId", (.dict [(p!"$ref", (.str p!"#/components/parameters/userId"))])), (p!"channelId", (.dict [(p!"$ref", (.str p!"#/components/parameters/channelId"))]))])
  check (!(V.isNone v1))
  let v2 ← get v1 p!"root"
  check (isDict v2)
  let v3 ← get v1 p!"root"
  check (decide (len v3 > 0)) : Option Unit).isSome = true := by decide +kernel

/-- `test_parameters_validation_errors_case_parameters_invalid_key_spaces`, tests/models/test_components.py:1532 -/
example : (do
  raises (do
    discard (load .Parameters (.dict [(p!"user id", (.dict [(p!"description", (.str p!"Id of the user."))]))])) : Option Unit)
  check (true) : Option Unit).isSome = true := by decide +kernel

/-- `test_parameters_validation_errors_case_parameters_invalid_key_special_chars`, tests/models/test_components.py:1532 -/
example : (do
  raises (do
    discard (load .Parameters (.dict [(p!"user@id", (.dict [(p!"description", (.str p!"Id of the user."))]))])) : Option Unit)
  check (true) : Option Unit).isSome = true := by decide +kernel

/-- `test_parameters_validation_errors_case_parameters_invalid_key_parentheses`, tests/models/test_components.py:1532 -/
example : (do
  raises (do
    discard (load .Parameters (.dict [(p!"user(id)", (.dict [(p!"description", (.str p!"Id of the user."))]))])) : Option Unit)
  check (true) : Option Unit).isSome = true := by decide +kernel

/-- `test_parameters_empty_dict_validation`, tests/models/test_components.py:1541 -/
example : (do
  let v1 ← load .Parameters (.dict [])
  check (!(V.isNone v1))
  let v2 ← get v1 p!"root"
  check (eq v2 (.dict []))
  let v3 ← get v1 p!"root"
  check (len v3 == 0) : Option Unit).isSome = true := by decide +kernel

/-- `test_parameters_iteration`, tests/models/test_components.py:1548 -/
example : (do
  let v1 ← make .Parameter [(p!"description", (.str p!"Id of the user."))]
  let v2 ← make .Parameter [(p!"description", (.str p!"Id of the channel."))]
  let v3 ← make .Parameters [(p!"root", (.dict [(p!"userId", v1), (p!"channelId", v2)]))]
  check (len (listOf v3) == 2)
  check (member p!"userId" (listOf v3))
  check (member p!"channelId" (listOf v3)) : Option Unit).isSome = true := by decide +kernel

/-- `test_parameters_getitem`, tests/models/test_components.py:1564 -/
example : (do
  let v1 ← make .Parameter [(p!"description", (.str p!"Id of the user."))]
  let v2 ← make .Parameter [(p!"description", (.str p!"Id of the channel."))]
  let v3 ← make .Parameters [(p!"root", (.dict [(p!"userId", v1), (p!"channelId", v2)]))]
  let v4 ← item v3 p!"userId"
  check (eq v4 v1)
  let v5 ← item v3 p!"channelId"
  check (eq v5 v2) : Option Unit).isSome = true := by decide +kernel

/-- `test_parameters_getattr`, tests/models/test_components.py:1578 -/
example : (do
  let v1 ← make .Parameter [(p!"description", (.str p!"Id of the user."))]
  let v2 ← make .Parameter [(p!"description", (.str p!"Id of the channel."))]
  let v3 ← make .Parameters [(p!"root", (.dict [(p!"userId", v1), (p!"channelId", v2)]))]
  let v4 ← item v3 p!"userId"
  check (eq v4 v1)
  let v5 ← item v3 p!"channelId"
  check (eq v5 v2) : Option Unit).isSome = true := by decide +kernel

/-- `test_correlation_ids_validation_case_correlation_ids_basic`, tests/models/test_components.py:1657 -/
example : (do
  let v1 ← load .CorrelationIDs (.dict [(p!"default", (.dict [(p!"location", (.str p!"$message.header#/correlationId"))])), (p!"requestId", (.dict [(p!"location", (.str p!"$message.header#/requestId"))]))])
  check (!(V.isNone v1))
  let v2 ← get v1 p!"root"
  check (isDict v2)
  let v3 ← get v1 p!"root"
  check (decide (len v3 > 0)) : Option Unit).isSome = true := by decide +kernel

/-- `test_correlation_ids_validation_case_correlation_ids_with_references`, tests/models/test_components.py:1657 -/
example : (do
  let v1 ← load .CorrelationIDs (.dict [(p!"default", (.dict [(p!"$ref", (.str p!"#/components/correlationIds/default"))])), (p!"requestId", (.dict [(p!"$ref", (.str p!"#/components/correlationIds/requestId"))]))])
  check (!(V.isNone v1))
  let v2 ← get v1 p!"root"
  check (isDict v2)
  let v3 ← get v1 p!"root"
  check (decide (len v3 > 0)) : Option Unit).isSome = true := by decide +kernel

/-- `test_correlation_ids_validation_errors_case_correlation_ids_invalid_key_spaces`, tests/models/test_components.py:1673 -/
example : (do
  raises (do
    discard (load .CorrelationIDs (.dict [(p!"default id", (.dict [(p!"location", (.str p!"$message.header#/correlationId"))]))])) : Option Unit)
  check (true) : Option Unit).isSome = true := by decide +kernel

/-- `test_correlation_ids_validation_errors_case_correlation_ids_invalid_key_special_chars`, tests/models/test_components.py:1673 -/
example : (do
  raises (do
    discard (load .CorrelationIDs (.dict [(p!"default@id", (.dict [(p!"location", (.str p!"$message.header#/correlationId"))]))])) : Option Unit)
  check (true) : Option Unit).isSome = true := by decide +kernel

/-- `test_correlation_ids_validation_errors_case_correlation_ids_invalid_key_parentheses`, tests/models/test_components.py:1673 -/
example : (do
  raises (do
    discard (load .CorrelationIDs (.dict [(p!"default(id)", (.dict [(p!"location", (.str p!"$message.header#/correlationId"))]))])) : Option Unit)
  check (true) : Option Unit).isSome = true := by decide +kernel

/-- `test_correlation_ids_empty_dict_validation`, tests/models/test_components.py:1682 -/
example : (do
  let v1 ← load .CorrelationIDs (.dict [])
  check (!(V.isNone v1))
  let v2 ← get v1 p!"root"
  check (eq v2 (.dict []))
  let v3 ← get v1 p!"root"
  check (len v3 == 0) : Option Unit).isSome = true := by decide +kernel

/-- `test_correlation_ids_iteration`, tests/models/test_components.py:1689 -/
example : (do
  let v1 ← make .CorrelationID [(p!"location", (.str p!"$message.header#/correlationId"))]
  let v2 ← make .CorrelationID [(p!"location", (.str p!"$message.header#/requestId"))]
  let v3 ← make .CorrelationIDs [(p!"root", (.dict [(p!"default", v1), (p!"requestId", v2)]))]
  check (len (listOf v3) == 2)
  check (member p!"default" (listOf v3))
  check (member p!"requestId" (listOf v3)) : Option Unit).isSome = true := by decide +kernel

/-- `test_correlation_ids_getitem`, tests/models/test_components.py:1705 -/
example : (do
  let v1 ← make .CorrelationID [(p!"location", (.str p!"$message.header#/correlationId"))]
  let v2 ← make .CorrelationID [(p!"location", (.str p!"$message.header#/requestId"))]
  let v3 ← make .CorrelationIDs [(p!"root", (.dict [(p!"default", v1), (p!"requestId", v2)]))]
  let v4 ← item v3 p!"default"
  check (eq v4 v1)
  let v5 ← item v3 p!"requestId"
  check (eq v5 v2) : Option Unit).isSome = true := by decide +kernel

/-- `test_correlation_ids_getattr`, tests/models/test_components.py:1719 -/
example : (do
  let v1 ← make .CorrelationID [(p!"location", (.str p!"$message.header#/correlationId"))]
  let v2 ← make .CorrelationID [(p!"location", (.str p!"$message.header#/requestId"))]
  let v3 ← make .CorrelationIDs [(p!"root", (.dict [(p!"default", v1), (p!"requestId", v2)]))]
  let v4 ← item v3 p!"default"
  check (eq v4 v1)
  let v5 ← item v3 p!"requestId"
  check (eq v5 v2) : Option Unit).isSome = true := by decide +kernel

/-- `test_replies_validation_case_replies_basic`, tests/models/test_components.py:1803 -/
example : (do
  let v1 ← load .Replies (.dict [(p!"userReply", (.dict [(p!"address", (.dict [(p!"location", (.str p!"$message.header#/replyTo"))]))])), (p!"adminReply", (.dict [(p!"address", (.dict [(p!"location", (.str p!"$message.header#/adminReplyTo"))]))]))])
  check (!(V.isNone v1))
  let v2 ← get v1 p!"root"
  check (isDict v2)
  let v3 ← get v1 p!"root"
  check (decide (len v3 > 0)) : Option Unit).isSome = true := by decide +kernel

/-- `test_replies_validation_case_replies_with_references`, tests/models/test_components.py:1803 -/
example : (do
  let v1 ← load .Replies (.dict [(p!"userReply", (.dict [(p!"$ref", (.str p!"#/components/replies/userReply"))])), (p!"adminReply", (.dict [(p!"$ref", (.str p!"#/components/replies/adminReply"))]))])
  check (!(V.isNone v1))
  let v2 ← get v1 p!"root"
  check (isDict v2)
  let v3 ← get v1 p!"root"
  check (decide (len v3 > 0)) : Option Unit).isSome = true := by decide +kernel

/-- `test_replies_validation_errors_case_replies_invalid_key_spaces`, tests/models/test_components.py:1819 -/
example : (do
  raises (do
    discard (load .Replies (.dict [(p!"user reply", (.dict [(p!"address", (.dict [(p!"location", (.str p!"$message.header#/replyTo"))]))]))])) : Option Unit)
  check (true) : Option Unit).isSome = true := by decide +kernel

/-- `test_replies_validation_errors_case_replies_invalid_key_special_chars`, tests/models/test_components.py:1819 -/
example : (do
  raises (do
    discard (load .Replies (.dict [(p!"user@reply", (.dict [(p!"address", (.dict [(p!"location", (.str p!"$message.header#/replyTo"))]))]))])) : Option Unit)
  check (true) : Option Unit).isSome = true := by decide +kernel

/-- `test_replies_validation_errors_case_replies_invalid_key_parentheses`, tests/models/test_components.py:1819 -/
example : (do
  raises (do
    discard (load .Replies (.dict [(p!"user(reply)", (.dict [(p!"address", (.dict [(p!"location", (.str p!"$message.header#/replyTo"))]))]))])) : Option Unit)
  check (true) : Option Unit).isSome = true := by decide +kernel

/-- `test_replies_empty_dict_validation`, tests/models/test_components.py:1828 -/
example : (do
  let v1 ← load .Replies (.dict [])
  check (!(V.isNone v1))
  let v2 ← get v1 p!"root"
  check (eq v2 (.dict []))
  let v3 ← get v1 p!"root"
  check (len v3 == 0) : Option Unit).isSome = true := by decide +kernel

/-- `test_replies_iteration`, tests/models/test_components.py:1835 -/
example : (do
  let v1 ← make .OperationReplyAddress [(p!"location", (.str p!"$message.header#/replyTo"))]
  let v2 ← make .OperationReply [(p!"address", v1)]
  let v3 ← make .OperationReplyAddress [(p!"location", (.str p!"$message.header#/adminReplyTo"))]
  let v4 ← make .OperationReply [(p!"address", v3)]
  let v5 ← make .Replies [(p!"root", (.dict [(p!"userReply", v2), (p!"adminReply", v4)]))]
  check (len (listOf v5) == 2)
  check (member p!"userReply" (listOf v5))
  check (member p!"adminReply" (listOf v5)) : Option Unit).isSome = true := by decide +kernel

/-- `test_replies_getitem`, tests/models/test_components.py:1855 -/
example : (do
  let v1 ← make .OperationReplyAddress [(p!"location", (.str p!"$message.header#/replyTo"))]
  let v2 ← make .OperationReply [(p!"address", v1)]
  let v3 ← make .OperationReplyAddress [(p!"location", (.str p!"$message.header#/adminReplyTo"))]
  let v4 ← make .OperationReply [(p!"address", v3)]
  let v5 ← make .Replies [(p!"root", (.dict [(p!"userReply", v2), (p!"adminReply", v4)]))]
  let v6 ← item v5 p!"userReply"
  check (eq v6 v2)
  let v7 ← item v5 p!"adminReply"
  check (eq v7 v4) : Option Unit).isSome = true := by decide +kernel

/-- `test_replies_getattr`, tests/models/test_components.py:1873 -/
example : (do
  let v1 ← make .OperationReplyAddress [(p!"location", (.str p!"$message.header#/replyTo"))]
  let v2 ← make .OperationReply [(p!"address", v1)]
  let v3 ← make .OperationReplyAddress [(p!"location", (.str p!"$message.header#/adminReplyTo"))]
  let v4 ← make .OperationReply [(p!"address", v3)]
  let v5 ← make .Replies [(p!"root", (.dict [(p!"userReply", v2), (p!"adminReply", v4)]))]
  let v6 ← item v5 p!"userReply"
  check (eq v6 v2)
  let v7 ← item v5 p!"adminReply"
  check (eq v7 v4) : Option Unit).isSome = true := by decide +kernel

/-- `test_reply_addresses_validation_case_reply_addresses_basic`, tests/models/test_components.py:1956 -/
example : (do
  let v1 ← load .ReplyAddresses (.dict [(p!"userReplyAddress", (.dict [(p!"location", (.str p!"$message.header#/replyTo"))])), (p!"adminReplyAddress", (.dict [(p!"location", (.str p!"$message.header#/adminReplyTo"))]))])
  check (!(V.isNone v1))
  let v2 ← get v1 p!"root"
  check (isDict v2)
  let v3 ← get v1 p!"root"
  check (decide (len v3 > 0)) : Option Unit).isSome = true := by decide +kernel

/-- `test_reply_addresses_validation_case_reply_addresses_with_references`, tests/models/test_components.py:1956 -/
example : (do
  let v1 ← load .ReplyAddresses (.dict [(p!"userReplyAddress", (.dict [(p!"$ref", (.str p!"#/components/replyAddresses/userReplyAddress"))])), (p!"adminReplyAddress", (.dict [(p!"$ref", (.str p!"#/components/replyAddresses/adminReplyAddress"))]))])
  check (!(V.isNone v1))
  let v2 ← get v1 p!"root"
  check (isDict v2)
  let v3 ← get v1 p!"root"
  check (decide (len v3 > 0)) : Option Unit).isSome = true := by decide +kernel

/-- `test_reply_addresses_validation_errors_case_reply_addresses_invalid_key_spaces`, tests/models/test_components.py:1972 -/
example : (do
  raises (do
    discard (load .ReplyAddresses (.dict [(p!"user reply address", (.dict [(p!"location", (.str p!"$message.header#/replyTo"))]))])) : Option Unit)
  check (true) : Option Unit).isSome = true := by decide +kernel

/-- `test_reply_addresses_validation_errors_case_reply_addresses_invalid_key_special_chars`, tests/models/test_components.py:1972 -/
example : (do
  raises (do
    discard (load .ReplyAddresses (.dict [(p!"user@reply@address", (.dict [(p!"location", (.str p!"$message.header#/replyTo"))]))])) : Option Unit)
  check (true) : Option Unit).isSome = true := by decide +kernel

/-- `test_reply_addresses_validation_errors_case_reply_addresses_invalid_key_parentheses`, tests/models/test_components.py:1972 -/
example : (do
  raises (do
    discard (load .ReplyAddresses (.dict [(p!"user(reply)address", (.dict [(p!"location", (.str p!"$message.header#/replyTo"))]))])) : Option Unit)
  check (true) : Option Unit).isSome = true := by decide +kernel

/-- `test_reply_addresses_empty_dict_validation`, tests/models/test_components.py:1981 -/
example : (do
  let v1 ← load .ReplyAddresses (.dict [])
  check (!(V.isNone v1))
  let v2 ← get v1 p!"root"
  check (eq v2 (.dict []))
  let v3 ← get v1 p!"root"
  check (len v3 == 0) : Option Unit).isSome = true := by decide +kernel

/-- `test_reply_addresses_iteration`, tests/models/test_components.py:1988 -/
example : (do
  let v1 ← make .OperationReplyAddress [(p!"location", (.str p!"$message.header#/replyTo"))]
  let v2 ← make .OperationReplyAddress [(p!"location", (.str p!"$message.header#/adminReplyTo"))]
  let v3 ← make .ReplyAddresses [(p!"root", (.dict [(p!"userReplyAddress", v1), (p!"adminReplyAddress", v2)]))]
  check (len (listOf v3) == 2)
  check (member p!"userReplyAddress" (listOf v3))
  check (member p!"adminReplyAddress" (listOf v3)) : Option Unit).isSome = true := by decide +kernel

/-- `test_reply_addresses_getitem`, tests/models/test_components.py:2006 -/
example : (do
  let v1 ← make .OperationReplyAddress [(p!"location", (.str p!"$message.header#/replyTo"))]
  let v2 ← make .OperationReplyAddress [(p!"location", (.str p!"$message.header#/adminReplyTo"))]
  let v3 ← make .ReplyAddresses [(p!"root", (.dict [(p!"userReplyAddress", v1), (p!"adminReplyAddress", v2)]))]
  let v4 ← item v3 p!"userReplyAddress"
  check (eq v4 v1)
  let v5 ← item v3 p!"adminReplyAddress"
  check (eq v5 v2) : Option Unit).isSome = true := by decide +kernel

/-- `test_reply_addresses_getattr`, tests/models/test_components.py:2022 -/
example : (do
  let v1 ← make .OperationReplyAddress [(p!"location", (.str p!"$message.header#/replyTo"))]
  let v2 ← make .OperationReplyAddress [(p!"location", (.str p!"$message.header#/adminReplyTo"))]
  let v3 ← make .ReplyAddresses [(p!"root", (.dict [(p!"userReplyAddress", v1), (p!"adminReplyAddress", v2)]))]
  let v4 ← item v3 p!"userReplyAddress"
  check (eq v4 v1)
  let v5 ← item v3 p!"adminReplyAddress"
  check (eq v5 v2) : Option Unit).isSome = true := by decide +kernel

/-- `test_external_docs_validation_case_external_docs_basic`, tests/models/test_components.py:2104 -/
example : (do
  let v1 ← load .ExternalDocs (.dict [(p!"infoDocs", (.dict [(p!"url", (.str p!"https://example.com")), (p!"description", (.str p!"API documentation"))])), (p!"userDocs", (.dict [(p!"url", (.str p!"https://example.com/users"))]))])
  check (!(V.isNone v1))
  let v2 ← get v1 p!"root"
  check (isDict v2)
  let v3 ← get v1 p!"root"
  check (decide (len v3 > 0)) : Option Unit).isSome = true := by decide +kernel

/-- `test_external_docs_validation_case_external_docs_with_references`, tests/models/test_components.py:2104 -/
example : (do
  let v1 ← load .ExternalDocs (.dict [(p!"infoDocs", (.dict [(p!"$ref", (.str p!"#/components/externalDocs/infoDocs"))])), (p!"userDocs", (.dict [(p!"$ref", (.str p!"#/components/externalDocs/userDocs"))]))])
  check (!(V.isNone v1))
  let v2 ← get v1 p!"root"
  check (isDict v2)
  let v3 ← get v1 p!"root"
  check (decide (len v3 > 0)) : Option Unit).isSome = true := by decide +kernel

/-- `test_external_docs_validation_errors_case_external_docs_invalid_key_spaces`, tests/models/test_components.py:2120 -/
example : (do
  raises (do
    discard (load .ExternalDocs (.dict [(p!"info docs", (.dict [(p!"url", (.str p!"https://example.com"))]))])) : Option Unit)
  check (true) : Option Unit).isSome = true := by decide +kernel

/-- `test_external_docs_validation_errors_case_external_docs_invalid_key_special_chars`, tests/models/test_components.py:2120 -/
example : (do
  raises (do
    discard (load .ExternalDocs (.dict [(p!"info@docs", (.dict [(p!"url", (.str p!"https://example.com"))]))])) : Option Unit)
  check (true) : Option Unit).isSome = true := by decide +kernel

/-- `test_external_docs_validation_errors_case_external_docs_invalid_key_parentheses`, tests/models/test_components.py:2120 -/
example : (do
  raises (do
    discard (load .ExternalDocs (.dict [(p!"info(docs)", (.dict [(p!"url", (.str p!"https://example.com"))]))])) : Option Unit)
  check (true) : Option Unit).isSome = true := by decide +kernel

/-- `test_external_docs_empty_dict_validation`, tests/models/test_components.py:2129 -/
example : (do
  let v1 ← load .ExternalDocs (.dict [])
  check (!(V.isNone v1))
  let v2 ← get v1 p!"root"
  check (eq v2 (.dict []))
  let v3 ← get v1 p!"root"
  check (len v3 == 0) : Option Unit).isSome = true := by decide +kernel

/-- `test_external_docs_iteration`, tests/models/test_components.py:2136 -/
example : (do
  let v1 ← make .ExternalDocumentation [(p!"url", (.str p!"https://example.com")), (p!"description", (.str p!"API documentation"))]
  let v2 ← make .ExternalDocumentation [(p!"url", (.str p!"https://example.com/users"))]
  let v3 ← make .ExternalDocs [(p!"root", (.dict [(p!"infoDocs", v1), (p!"userDocs", v2)]))]
  check (len (listOf v3) == 2)
  check (member p!"infoDocs" (listOf v3))
  check (member p!"userDocs" (listOf v3)) : Option Unit).isSome = true := by decide +kernel

/-- `test_external_docs_getitem`, tests/models/test_components.py:2154 -/
example : (do
  let v1 ← make .ExternalDocumentation [(p!"url", (.str p!"https://example.com")), (p!"description", (.str p!"API documentation"))]
  let v2 ← make .ExternalDocumentation [(p!"url", (.str p!"https://example.com/users"))]
  let v3 ← make .ExternalDocs [(p!"root", (.dict [(p!"infoDocs", v1), (p!"userDocs", v2)]))]
  let v4 ← item v3 p!"infoDocs"
  check (eq v4 v1)
  let v5 ← item v3 p!"userDocs"
  check (eq v5 v2) : Option Unit).isSome = true := by decide +kernel

/-- `test_external_docs_getattr`, tests/models/test_components.py:2170 -/
example : (do
  let v1 ← make .ExternalDocumentation [(p!"url", (.str p!"https://example.com")), (p!"description", (.str p!"API documentation"))]
  let v2 ← make .ExternalDocumentation [(p!"url", (.str p!"https://example.com/users"))]
  let v3 ← make .ExternalDocs [(p!"root", (.dict [(p!"infoDocs", v1), (p!"userDocs", v2)]))]
  let v4 ← item v3 p!"infoDocs"
  check (eq v4 v1)
  let v5 ← item v3 p!"userDocs"
  check (eq v5 v2) : Option Unit).isSome = true := by decide +kernel

/-- `test_tags_validation_case_tags_basic`, tests/models/test_components.py:2253 -/
example : (do
  let v1 ← load .ComponentsTags (.dict [(p!"user", (.dict [(p!"name", (.str p!"user")), (p!"description", (.str p!"User related operations"))])), (p!"admin", (.dict [(p!"name", (.str p!"admin")), (p!"description", (.str p!"Admin related operations"))]))])
  check (!(V.isNone v1))
  let v2 ← get v1 p!"root"
  check (isDict v2)
  let v3 ← get v1 p!"root"
  check (decide (len v3 > 0)) : Option Unit).isSome = true := by decide +kernel

/-- `test_tags_validation_case_tags_with_references`, tests/models/test_components.py:2253 -/
example : (do
  let v1 ← load .ComponentsTags (.dict [(p!"user", (.dict [(p!"$ref", (.str p!"#/components/tags/user"))])), (p!"admin", (.dict [(p!"$ref", (.str p!"#/components/tags/admin"))]))])
  check (!(V.isNone v1))
  let v2 ← get v1 p!"root"
  check (isDict v2)
  let v3 ← get v1 p!"root"
  check (decide (len v3 > 0)) : Option Unit).isSome = true := by decide +kernel

/-- `test_tags_validation_errors_case_tags_invalid_key_spaces`, tests/models/test_components.py:2269 -/
example : (do
  raises (do
    discard (load .ComponentsTags (.dict [(p!"user tag", (.dict [(p!"name", (.str p!"user"))]))])) : Option Unit)
  check (true) : Option Unit).isSome = true := by decide +kernel

/-- `test_tags_validation_errors_case_tags_invalid_key_special_chars`, tests/models/test_components.py:2269 -/
example : (do
  raises (do
    discard (load .ComponentsTags (.dict [(p!"user@tag", (.dict [(p!"name", (.str p!"user"))]))])) : Option Unit)
  check (true) : Option Unit).isSome = true := by decide +kernel

/-- `test_tags_validation_errors_case_tags_invalid_key_parentheses`, tests/models/test_components.py:2269 -/
example : (do
  raises (do
    discard (load .ComponentsTags (.dict [(p!"user(tag)", (.dict [(p!"name", (.str p!"user"))]))])) : Option Unit)
  check (true) : Option Unit).isSome = true := by decide +kernel

/-- `test_tags_empty_dict_validation`, tests/models/test_components.py:2276 -/
example : (do
  let v1 ← load .ComponentsTags (.dict [])
  check (!(V.isNone v1))
  let v2 ← get v1 p!"root"
  check (eq v2 (.dict []))
  let v3 ← get v1 p!"root"
  check (len v3 == 0) : Option Unit).isSome = true := by decide +kernel

/-- `test_tags_iteration`, tests/models/test_components.py:2283 -/
example : (do
  let v1 ← make .Tag [(p!"name", (.str p!"user")), (p!"description", (.str p!"User related operations"))]
  let v2 ← make .Tag [(p!"name", (.str p!"admin")), (p!"description", (.str p!"Admin related operations"))]
  let v3 ← make .ComponentsTags [(p!"root", (.dict [(p!"user", v1), (p!"admin", v2)]))]
  check (len (listOf v3) == 2)
  check (member p!"user" (listOf v3))
  check (member p!"admin" (listOf v3)) : Option Unit).isSome = true := by decide +kernel

/-- `test_tags_getitem`, tests/models/test_components.py:2299 -/
example : (do
  let v1 ← make .Tag [(p!"name", (.str p!"user")), (p!"description", (.str p!"User related operations"))]
  let v2 ← make .Tag [(p!"name", (.str p!"admin")), (p!"description", (.str p!"Admin related operations"))]
  let v3 ← make .ComponentsTags [(p!"root", (.dict [(p!"user", v1), (p!"admin", v2)]))]
  let v4 ← item v3 p!"user"
  check (eq v4 v1)
  let v5 ← item v3 p!"admin"
  check (eq v5 v2) : Option Unit).isSome = true := by decide +kernel

/-- `test_tags_getattr`, tests/models/test_components.py:2313 -/
example : (do
  let v1 ← make .Tag [(p!"name", (.str p!"user")), (p!"description", (.str p!"User related operations"))]
  let v2 ← make .Tag [(p!"name", (.str p!"admin")), (p!"description", (.str p!"Admin related operations"))]
  let v3 ← make .ComponentsTags [(p!"root", (.dict [(p!"user", v1), (p!"admin", v2)]))]
  let v4 ← item v3 p!"user"
  check (eq v4 v1)
  let v5 ← item v3 p!"admin"
  check (eq v5 v2) : Option Unit).isSome = true := by decide +kernel

/-- `test_operation_traits_validation_case_operation_traits_basic`, tests/models/test_components.py:2394 -/
example : (do
  let v1 ← load .OperationTraits (.dict [(p!"httpTrait", (.dict [(p!"bindings", (.dict [(p!"http", (.dict [(p!"method", (.str p!"POST"))]))]))])), (p!"summaryTrait", (.dict [(p!"summary", (.str p!"A summary of the operation"))]))])
  check (!(V.isNone v1))
  let v2 ← get v1 p!"root"
  check (isDict v2)
  let v3 ← get v1 p!"root"
  check (decide (len v3 > 0)) : Option Unit).isSome = true := by decide +kernel

/-- `test_operation_traits_validation_case_operation_traits_with_references`, tests/models/test_components.py:2394 -/
example : (do
  let v1 ← load .OperationTraits (.dict [(p!"kafkaTrait", (.dict [(p!"$ref", (.str p!"#/components/operationTraits/kafkaTrait"))])), (p!"httpTrait", (.dict [(p!"$ref", (.str p!"#/components/operationTraits/httpTrait"))]))])
  check (!(V.isNone v1))
  let v2 ← get v1 p!"root"
  check (isDict v2)
  let v3 ← get v1 p!"root"
  check (decide (len v3 > 0)) : Option Unit).isSome = true := by decide +kernel

/-- `test_operation_traits_validation_errors_case_operation_traits_invalid_key_spaces`, tests/models/test_components.py:2410 -/
example : (do
  raises (do
    discard (load .OperationTraits (.dict [(p!"kafka trait", (.dict [(p!"summary", (.str p!"A summary"))]))])) : Option Unit)
  check (true) : Option Unit).isSome = true := by decide +kernel

/-- `test_operation_traits_validation_errors_case_operation_traits_invalid_key_special_chars`, tests/models/test_components.py:2410 -/
example : (do
  raises (do
    discard (load .OperationTraits (.dict [(p!"kafka@trait", (.dict [(p!"summary", (.str p!"A summary"))]))])) : Option Unit)
  check (true) : Option Unit).isSome = true := by decide +kernel

/-- `test_operation_traits_validation_errors_case_operation_traits_invalid_key_parentheses`, tests/models/test_components.py:2410 -/
example : (do
  raises (do
    discard (load .OperationTraits (.dict [(p!"kafka(trait)", (.dict [(p!"summary", (.str p!"A summary"))]))])) : Option Unit)
  check (true) : Option Unit).isSome = true := by decide +kernel

/-- `test_operation_traits_empty_dict_validation`, tests/models/test_components.py:2419 -/
example : (do
  let v1 ← load .OperationTraits (.dict [])
  check (!(V.isNone v1))
  let v2 ← get v1 p!"root"
  check (eq v2 (.dict []))
  let v3 ← get v1 p!"root"
  check (len v3 == 0) : Option Unit).isSome = true := by decide +kernel

/-- `test_operation_traits_iteration`, tests/models/test_components.py:2426 -/
example : (do
  let v1 ← make .OperationTrait [(p!"bindings", (.dict [(p!"http", (.dict [(p!"method", (.str p!"POST"))]))]))]
  let v2 ← make .OperationTrait [(p!"summary", (.str p!"A summary of the operation"))]
  let v3 ← make .OperationTraits [(p!"root", (.dict [(p!"httpTrait", v1), (p!"summaryTrait", v2)]))]
  check (len (listOf v3) == 2)
  check (member p!"httpTrait" (listOf v3))
  check (member p!"summaryTrait" (listOf v3)) : Option Unit).isSome = true := by decide +kernel

/-- `test_operation_traits_getitem`, tests/models/test_components.py:2442 -/
example : (do
  let v1 ← make .OperationTrait [(p!"bindings", (.dict [(p!"http", (.dict [(p!"method", (.str p!"POST"))]))]))]
  let v2 ← make .OperationTrait [(p!"summary", (.str p!"A summary of the operation"))]
  let v3 ← make .OperationTraits [(p!"root", (.dict [(p!"httpTrait", v1), (p!"summaryTrait", v2)]))]
  let v4 ← item v3 p!"httpTrait"
  check (eq v4 v1)
  let v5 ← item v3 p!"summaryTrait"
  check (eq v5 v2) : Option Unit).isSome = true := by decide +kernel

/-- `test_operation_traits_getattr`, tests/models/test_components.py:2456 -/
example : (do
  let v1 ← make .OperationTrait [(p!"bindings", (.dict [(p!"http", (.dict [(p!"method", (.str p!"POST"))]))]))]
  let v2 ← make .OperationTrait [(p!"summary", (.str p!"A summary of the operation"))]
  let v3 ← make .OperationTraits [(p!"root", (.dict [(p!"httpTrait", v1), (p!"summaryTrait", v2)]))]
  let v4 ← item v3 p!"httpTrait"
  check (eq v4 v1)
  let v5 ← item v3 p!"summaryTrait"
  check (eq v5 v2) : Option Unit).isSome = true := by decide +kernel

/-- `test_message_traits_validation_case_message_traits_basic`, tests/models/test_components.py:2539 -/
example : (do
  let v1 ← load .MessageTraits (.dict [(p!"commonHeaders", (.dict [(p!"contentType", (.str p!"application/json"))])), (p!"eventHeaders", (.dict [(p!"headers", (.dict [(p!"type", (.str p!"object")), (p!"properties", (.dict [(p!"eventId", (.dict [(p!"type", (.str p!"string"))]))]))]))]))])
  check (!(V.isNone v1))
  let v2 ← get v1 p!"root"
  check (isDict v2)
  let v3 ← get v1 p!"root"
  check (decide (len v3 > 0)) : Option Unit).isSome = true := by decide +kernel

/-- `test_message_traits_validation_case_message_traits_with_references`, tests/models/test_components.py:2539 -/
example : (do
  let v1 ← load .MessageTraits (.dict [(p!"commonHeaders", (.dict [(p!"$ref", (.str p!"#/components/messageTraits/commonHeaders"))])), (p!"eventHeaders", (.dict [(p!"$ref", (.str p!"#/components/messageTraits/eventHeaders"))]))])
  check (!(V.isNone v1))
  let v2 ← get v1 p!"root"
  check (isDict v2)
  let v3 ← get v1 p!"root"
  check (decide (len v3 > 0)) : Option Unit).isSome = true := by decide +kernel

/-- `test_message_traits_validation_errors_case_message_traits_invalid_key_spaces`, tests/models/test_components.py:2555 -/
example : (do
  raises (do
    discard (load .MessageTraits (.dict [(p!"common headers", (.dict [(p!"contentType", (.str p!"application/json"))]))])) : Option Unit)
  check (true) : Option Unit).isSome = true := by decide +kernel

/-- `test_message_traits_validation_errors_case_message_traits_invalid_key_special_chars`, tests/models/test_components.py:2555 -/
example : (do
  raises (do
    discard (load .MessageTraits (.dict [(p!"common@headers", (.dict [(p!"contentType", (.str p!"application/json"))]))])) : Option Unit)
  check (true) : Option Unit).isSome = true := by decide +kernel

/-- `test_message_traits_validation_errors_case_message_traits_invalid_key_parentheses`, tests/models/test_components.py:2555 -/
example : (do
  raises (do
    discard (load .MessageTraits (.dict [(p!"common(headers)", (.dict [(p!"contentType", (.str p!"application/json"))]))])) : Option Unit)
  check (true) : Option Unit).isSome = true := by decide +kernel

/-- `test_message_traits_empty_dict_validation`, tests/models/test_components.py:2564 -/
example : (do
  let v1 ← load .MessageTraits (.dict [])
  check (!(V.isNone v1))
  let v2 ← get v1 p!"root"
  check (eq v2 (.dict []))
  let v3 ← get v1 p!"root"
  check (len v3 == 0) : Option Unit).isSome = true := by decide +kernel

/-- `test_message_traits_iteration`, tests/models/test_components.py:2571 -/
example : (do
  let v1 ← make .MessageTrait [(p!"content_type", (.str p!"application/json"))]
  let v2 ← make .Schema [(p!"type", (.str p!"string"))]
  let v3 ← make .Schema [(p!"type", (.str p!"object")), (p!"properties", (.dict [(p!"eventId", v2)]))]
  let v4 ← make .MessageTrait [(p!"headers", v3)]
  let v5 ← make .MessageTraits [(p!"root", (.dict [(p!"commonHeaders", v1), (p!"eventHeaders", v4)]))]
  check (len (listOf v5) == 2)
  check (member p!"commonHeaders" (listOf v5))
  check (member p!"eventHeaders" (listOf v5)) : Option Unit).isSome = true := by decide +kernel

/-- `test_message_traits_getitem`, tests/models/test_components.py:2592 -/
example : (do
  let v1 ← make .MessageTrait [(p!"content_type", (.str p!"application/json"))]
  let v2 ← make .Schema [(p!"type", (.str p!"string"))]
  let v3 ← make .Schema [(p!"type", (.str p!"object")), (p!"properties", (.dict [(p!"eventId", v2)]))]
  let v4 ← make .MessageTrait [(p!"headers", v3)]
  let v5 ← make .MessageTraits [(p!"root", (.dict [(p!"commonHeaders", v1), (p!"eventHeaders", v4)]))]
  let v6 ← item v5 p!"commonHeaders"
  check (eq v6 v1)
  let v7 ← item v5 p!"eventHeaders"
  check (eq v7 v4) : Option Unit).isSome = true := by decide +kernel

/-- `test_message_traits_getattr`, tests/models/test_components.py:2611 -/
example : (do
  let v1 ← make .MessageTrait [(p!"content_type", (.str p!"application/json"))]
  let v2 ← make .Schema [(p!"type", (.str p!"string"))]
  let v3 ← make .Schema [(p!"type", (.str p!"object")), (p!"properties", (.dict [(p!"eventId", v2)]))]
  let v4 ← make .MessageTrait [(p!"headers", v3)]
  let v5 ← make .MessageTraits [(p!"root", (.dict [(p!"commonHeaders", v1), (p!"eventHeaders", v4)]))]
  let v6 ← item v5 p!"commonHeaders"
  check (eq v6 v1)
  let v7 ← item v5 p!"eventHeaders"
  check (eq v7 v4) : Option Unit).isSome = true := by decide +kernel

/-- `test_servers_validation_case_servers_basic`, tests/models/test_components.py:2638 -/
example : (do
  let v1 ← load .Servers (.dict [(p!"production", (.dict [(p!"host", (.str p!"kafka.in.mycompany.com:9092")), (p!"protocol", (.str p!"kafka"))])), (p!"staging", (.dict [(p!"host", (.str p!"kafka.staging.mycompany.com:9092")), (p!"protocol", (.str p!"kafka"))]))])
  check (!(V.isNone v1))
  let v2 ← get v1 p!"root"
  check (isDict v2)
  let v3 ← get v1 p!"root"
  check (decide (len v3 > 0)) : Option Unit).isSome = true := by decide +kernel

/-- `test_servers_validation_case_servers_with_references`, tests/models/test_components.py:2638 -/
example : (do
  let v1 ← load .Servers (.dict [(p!"production", (.dict [(p!"$ref", (.str p!"#/components/servers/production"))])), (p!"staging", (.dict [(p!"$ref", (.str p!"#/components/servers/staging"))]))])
  check (!(V.isNone v1))
  let v2 ← get v1 p!"root"
  check (isDict v2)
  let v3 ← get v1 p!"root"
  check (decide (len v3 > 0)) : Option Unit).isSome = true := by decide +kernel

/-- `test_servers_validation_errors_case_servers_invalid_key_spaces`, tests/models/test_components.py:2650 -/
example : (do
  raises (do
    discard (load .Servers (.dict [(p!"production server", (.dict [(p!"host", (.str p!"kafka.in.mycompany.com:9092")), (p!"protocol", (.str p!"kafka"))]))])) : Option Unit)
  check (true) : Option Unit).isSome = true := by decide +kernel

/-- `test_servers_empty_dict_validation`, tests/models/test_components.py:2659 -/
example : (do
  let v1 ← load .Servers (.dict [])
  check (!(V.isNone v1))
  let v2 ← get v1 p!"root"
  check (eq v2 (.dict []))
  let v3 ← get v1 p!"root"
  check (len v3 == 0) : Option Unit).isSome = true := by decide +kernel

/-- `test_components_validation_case_components_empty`, tests/models/test_components.py:2678 -/
example : (do
  let v1 ← load .Components (.dict [])
  check (!(V.isNone v1)) : Option Unit).isSome = true := by decide +kernel

/-- `test_components_validation_case_components_with_messages`, tests/models/test_components.py:2678 -/
example : (do
  let v1 ← load .Components (.dict [(p!"messages", (.dict [(p!"UserSignedUp", (.dict [(p!"payload", (.dict [(p!"type", (.str p!"object")), (p!"properties", (.dict [(p!"displayName", (.dict [(p!"type", (.str p!"string"))])), (p!"email", (.dict [(p!"type", (.str p!"string")), (p!"format", (.str p!"email"))]))]))]))]))]))])
  check (!(V.isNone v1)) : Option Unit).isSome = true := by decide +kernel

/-- `test_components_validation_case_components_full`, tests/models/test_components.py:2678 -/
example : (do
  let v1 ← load .Components (.dict [(p!"schemas", (.dict [(p!"User", (.dict [(p!"type", (.str p!"object")), (p!"properties", (.dict [(p!"name", (.dict [(p!"type", (.str p!"string"))]))]))]))])), (p!"servers", (.dict [(p!"production", (.dict [(p!"host", (.str p!"kafka.in.mycompany.com:9092")), (p!"protocol", (.str p!"kafka"))]))])), (p!"channels", (.dict [(p!"userChannel", (.dict [(p!"address", (.str p!"user/signedup"))]))])), (p!"operations", (.dict [(p!"sendUserSignup", (.dict [(p!"action", (.str p!"send")), (p!"channel", (.dict [(p!"$ref", (.str p!"#/channels/userChannel"))]))]))])), (p!"messages", (.dict [(p!"UserSignedUp", (.dict [(p!"payload", (.dict [(p!"type", (.str p!"object"))]))]))])), (p!"securitySchemes", (.dict [(p!"apiKey", (.dict [(p!"type", (.str p!"apiKey")), (p!"in", (.str p!"user")), (p!"name", (.str p!"api_key"))]))])), (p!"parameters", (.dict [(p!"userId", (.dict [(p!"description", (.str p!"Id of the user."))]))])), (p!"correlationIds", (.dict [(p!"default", (.dict [(p!"location", (.str p!"$message.header#/correlationId"))]))])), (p!"tags", (.dict [(p!"user", (.dict [(p!"name", (.str p!"user"))]))]))])
  check (!(V.isNone v1)) : Option Unit).isSome = true := by decide +kernel

/-- `test_components_serialization_case_components_serialization_empty`, tests/models/test_components.py:2705 -/
example : (do
  let v1 ← make .Components []
  check (eq (dump v1) (.dict [])) : Option Unit).isSome = true := by decide +kernel

/-- `test_components_serialization_case_components_serialization_with_messages`, tests/models/test_components.py:2705 -/
example : (do
  let v1 ← make .Schema [(p!"type", (.str p!"string"))]
  let v2 ← make .Schema [(p!"type", (.str p!"string")), (p!"format", (.str p!"email"))]
  let v3 ← make .Schema [(p!"type", (.str p!"object")), (p!"properties", (.dict [(p!"displayName", v1), (p!"email", v2)]))]
  let v4 ← make .Message [(p!"payload", v3)]
  let v5 ← make .Messages [(p!"root", (.dict [(p!"UserSignedUp", v4)]))]
  let v6 ← make .Components [(p!"messages", v5)]
  check (eq (dump v6) (.dict [(p!"messages", (.dict [(p!"UserSignedUp", (.dict [(p!"payload", (.dict [(p!"type", (.str p!"object")), (p!"properties", (.dict [(p!"displayName", (.dict [(p!"type", (.str p!"string"))])), (p!"email", (.dict [(p!"type", (.str p!"string")), (p!"format", (.str p!"email"))]))]))]))]))]))])) : Option Unit).isSome = true := by decide +kernel

/-- `test_components_serialization_case_components_serialization_with_schemas`, tests/models/test_components.py:2705 -/
example : (do
  let v1 ← make .Schema [(p!"type", (.str p!"string"))]
  let v2 ← make .Schema [(p!"type", (.str p!"object")), (p!"properties", (.dict [(p!"name", v1)]))]
  let v3 ← make .Components [(p!"schemas", (.dict [(p!"User", v2)]))]
  check (eq (dump v3) (.dict [(p!"schemas", (.dict [(p!"User", (.dict [(p!"type", (.str p!"object")), (p!"properties", (.dict [(p!"name", (.dict [(p!"type", (.str p!"string"))]))]))]))]))])) : Option Unit).isSome = true := by decide +kernel

/-- `test_components_serialization_case_components_serialization_with_servers`, tests/models/test_components.py:2705 -/
example : (do
  let v1 ← make .Server [(p!"host", (.str p!"kafka.in.mycompany.com:9092")), (p!"protocol", (.str p!"kafka"))]
  let v2 ← make .Components [(p!"servers", (.dict [(p!"production", v1)]))]
  check (eq (dump v2) (.dict [(p!"servers", (.dict [(p!"production", (.dict [(p!"host", (.str p!"kafka.in.mycompany.com:9092")), (p!"protocol", (.str p!"kafka"))]))]))])) : Option Unit).isSome = true := by decide +kernel

/-- `test_components_serialization_case_components_serialization_with_channels`, tests/models/test_components.py:2705 -/
example : (do
  let v1 ← make .Channel [(p!"address", (.str p!"user/signedup"))]
  let v2 ← make .Components [(p!"channels", (.dict [(p!"userChannel", v1)]))]
  check (eq (dump v2) (.dict [(p!"channels", (.dict [(p!"userChannel", (.dict [(p!"address", (.str p!"user/signedup"))]))]))])) : Option Unit).isSome = true := by decide +kernel

/-- `test_components_serialization_case_components_serialization_with_operations`, tests/models/test_components.py:2705 -/
example : (do
  let v1 ← make .Reference [(p!"ref", (.str p!"#/channels/userChannel"))]
  let v2 ← make .Operation [(p!"action", (.str p!"send")), (p!"channel", v1)]
  let v3 ← make .Components [(p!"operations", (.dict [(p!"sendUserSignup", v2)]))]
  check (eq (dump v3) (.dict [(p!"operations", (.dict [(p!"sendUserSignup", (.dict [(p!"action", (.str p!"send")), (p!"channel", (.dict [(p!"$ref", (.str p!"#/channels/userChannel"))]))]))]))])) : Option Unit).isSome = true := by decide +kernel

/-- `test_components_serialization_case_components_serialization_with_parameters`, tests/models/test_components.py:2705 -/
example : (do
  let v1 ← make .Parameter [(p!"description", (.str p!"Id of the user."))]
  let v2 ← make .Components [(p!"parameters", (.dict [(p!"userId", v1)]))]
  check (eq (dump v2) (.dict [(p!"parameters", (.dict [(p!"userId", (.dict [(p!"description", (.str p!"Id of the user."))]))]))])) : Option Unit).isSome = true := by decide +kernel

/-- `test_components_serialization_case_components_serialization_with_correlation_ids`, tests/models/test_components.py:2705 -/
example : (do
  let v1 ← make .CorrelationID [(p!"location", (.str p!"$message.header#/correlationId"))]
  let v2 ← make .Components [(p!"correlation_ids", (.dict [(p!"default", v1)]))]
  check (eq (dump v2) (.dict [(p!"correlationIds", (.dict [(p!"default", (.dict [(p!"location", (.str p!"$message.header#/correlationId"))]))]))])) : Option Unit).isSome = true := by decide +kernel

/-- `test_components_serialization_case_components_serialization_with_security_schemes`, tests/models/test_components.py:2705 -/
example : (do
  let v1 ← make .SecurityScheme [(p!"type_", (.str p!"apiKey")), (p!"in_", (.str p!"user")), (p!"name", (.str p!"api_key"))]
  let v2 ← make .Components [(p!"security_schemes", (.dict [(p!"apiKey", v1)]))]
  check (eq (dump v2) (.dict [(p!"securitySchemes", (.dict [(p!"apiKey", (.dict [(p!"type", (.str p!"apiKey")), (p!"in", (.str p!"user")), (p!"name", (.str p!"api_key"))]))]))])) : Option Unit).isSome = true := by decide +kernel

/-- `test_components_serialization_case_components_serialization_with_server_variables`, tests/models/test_components.py:2705 -/
example : (do
  let v1 ← make .ServerVariable [(p!"default", (.str p!"1883")), (p!"enum", (.list [(.str p!"1883"), (.str p!"8883")]))]
  let v2 ← make .Components [(p!"server_variables", (.dict [(p!"port", v1)]))]
  check (eq (dump v2) (.dict [(p!"serverVariables", (.dict [(p!"port", (.dict [(p!"default", (.str p!"1883")), (p!"enum", (.list [(.str p!"1883"), (.str p!"8883")]))]))]))])) : Option Unit).isSome = true := by decide +kernel

/-- `test_components_serialization_case_components_serialization_with_replies`, tests/models/test_components.py:2705 -/
example : (do
  let v1 ← make .OperationReplyAddress [(p!"location", (.str p!"$message.header#/replyTo"))]
  let v2 ← make .OperationReply [(p!"address", v1)]
  let v3 ← make .Components [(p!"replies", (.dict [(p!"userReply", v2)]))]
  check (eq (dump v3) (.dict [(p!"replies", (.dict [(p!"userReply", (.dict [(p!"address", (.dict [(p!"location", (.str p!"$message.header#/replyTo"))]))]))]))])) : Option Unit).isSome = true := by decide +kernel

/-- `test_components_serialization_case_components_serialization_with_reply_addresses`, tests/models/test_components.py:2705 -/
example : (do
  let v1 ← make .OperationReplyAddress [(p!"location", (.str p!"$message.header#/replyTo"))]
  let v2 ← make .Components [(p!"reply_addresses", (.dict [(p!"userReplyAddress", v1)]))]
  check (eq (dump v2) (.dict [(p!"replyAddresses", (.dict [(p!"userReplyAddress", (.dict [(p!"location", (.str p!"$message.header#/replyTo"))]))]))])) : Option Unit).isSome = true := by decide +kernel

/-- `test_components_serialization_case_components_serialization_with_external_docs`, tests/models/test_components.py:2705 -/
example : (do
  let v1 ← make .ExternalDocumentation [(p!"url", (.str p!"https://example.com")), (p!"description", (.str p!"API documentation"))]
  let v2 ← make .Components [(p!"external_docs", (.dict [(p!"apiDocs", v1)]))]
  check (eq (dump v2) (.dict [(p!"externalDocs", (.dict [(p!"apiDocs", (.dict [(p!"url", (.url .any ((urlForm p!"https://example.com/").getD []))), (p!"description", (.str p!"API documentation"))]))]))])) : Option Unit).isSome = true := by decide +kernel

/-- `test_components_serialization_case_components_serialization_with_tags`, tests/models/test_components.py:2705 -/
example : (do
  let v1 ← make .Tag [(p!"name", (.str p!"user")), (p!"description", (.str p!"User operations"))]
  let v2 ← make .Components [(p!"tags", (.dict [(p!"user", v1)]))]
  check (eq (dump v2) (.dict [(p!"tags", (.dict [(p!"user", (.dict [(p!"name", (.str p!"user")), (p!"description", (.str p!"User operations"))]))]))])) : Option Unit).isSome = true := by decide +kernel

/-- `test_components_serialization_case_components_serialization_with_operation_traits`, tests/models/test_components.py:2705 -/
example : (do
  let v1 ← make .OperationTrait [(p!"bindings", (.dict [(p!"http", (.dict [(p!"method", (.str p!"POST"))]))])), (p!"summary", (.str p!"HTTP operation trait"))]
  let v2 ← make .Components [(p!"operation_traits", (.dict [(p!"httpTrait", v1)]))]
  check (eq (dump v2) (.dict [(p!"operationTraits", (.dict [(p!"httpTrait", (.dict [(p!"bindings", (.dict [(p!"http", (.dict [(p!"method", (.str p!"POST")), (p!"bindingVersion", (.str p!"0.3.0"))]))])), (p!"summary", (.str p!"HTTP operation trait"))]))]))])) : Option Unit).isSome = true := by decide +kernel

/-- `test_components_serialization_case_components_serialization_with_message_traits`, tests/models/test_components.py:2705 -/
example : (do
  let v1 ← make .Schema [(p!"type", (.str p!"string"))]
  let v2 ← make .Schema [(p!"type", (.str p!"object")), (p!"properties", (.dict [(p!"eventId", v1)]))]
  let v3 ← make .MessageTrait [(p!"content_type", (.str p!"application/json")), (p!"headers", v2)]
  let v4 ← make .Components [(p!"message_traits", (.dict [(p!"commonHeaders", v3)]))]
  check (eq (dump v4) (.dict [(p!"messageTraits", (.dict [(p!"commonHeaders", (.dict [(p!"contentType", (.str p!"application/json")), (p!"headers", (.dict [(p!"type", (.str p!"object")), (p!"properties", (.dict [(p!"eventId", (.dict [(p!"type", (.str p!"string"))]))]))]))]))]))])) : Option Unit).isSome = true := by decide +kernel

/-- `test_components_with_all_sections_validation`, tests/models/test_components.py:2714 -/
example : (do
  let v1 ← load .Components (.dict [(p!"schemas", (.dict [(p!"User", (.dict [(p!"type", (.str p!"object"))]))])), (p!"servers", (.dict [(p!"production", (.dict [(p!"host", (.str p!"kafka.in.mycompany.com:9092")), (p!"protocol", (.str p!"kafka"))]))])), (p!"channels", (.dict [(p!"userChannel", (.dict [(p!"address", (.str p!"user/signedup"))]))])), (p!"operations", (.dict [(p!"sendUserSignup", (.dict [(p!"action", (.str p!"send")), (p!"channel", (.dict [(p!"$ref", (.str p!"#/channels/userChannel"))]))]))])), (p!"messages", (.dict [(p!"UserSignedUp", (.dict [(p!"payload", (.dict [(p!"type", (.str p!"object"))]))]))])), (p!"securitySchemes", (.dict [(p!"apiKey", (.dict [(p!"type", (.str p!"apiKey")), (p!"in", (.str p!"user")), (p!"name", (.str p!"api_key"))]))])), (p!"serverVariables", (.dict [(p!"port", (.dict [(p!"default", (.str p!"1883"))]))])), (p!"parameters", (.dict [(p!"userId", (.dict [(p!"description", (.str p!"Id of the user."))]))])), (p!"correlationIds", (.dict [(p!"default", (.dict [(p!"location", (.str p!"$message.header#/correlationId"))]))])), (p!"replies", (.dict [(p!"userReply", (.dict [(p!"address", (.dict [(p!"location", (.str p!"$message.header#/replyTo"))]))]))])), (p!"replyAddresses", (.dict [(p!"userReplyAddress", (.dict [(p!"location", (.str p!"$message.header#/replyTo"))]))])), (p!"externalDocs", (.dict [(p!"infoDocs", (.dict [(p!"url", (.str p!"https://example.com"))]))])), (p!"tags", (.dict [(p!"user", (.dict [(p!"name", (.str p!"user"))]))])), (p!"operationTraits", (.dict [(p!"kafka", (.dict [(p!"bindings", (.dict [(p!"http", (.dict [(p!"method", (.str p!"POST"))]))]))]))])), (p!"messageTraits", (.dict [(p!"commonHeaders", (.dict [(p!"contentType", (.str p!"application/json"))]))])), (p!"serverBindings", (.dict [(p!"http", (.dict [(p!"http", (.dict []))]))])), (p!"channelBindings", (.dict [(p!"http", (.dict [(p!"http", (.dict []))]))])), (p!"operationBindings", (.dict [(p!"http", (.dict [(p!"http", (.dict [(p!"method", (.str p!"POST"))]))]))])), (p!"messageBindings", (.dict [(p!"http", (.dict [(p!"http", (.dict [(p!"headers", (.dict [(p!"type", (.str p!"object"))]))]))]))]))])
  let v2 ← get v1 p!"schemas"
  check (!(V.isNone v2))
  let v3 ← get v1 p!"servers"
  check (!(V.isNone v3))
  let v4 ← get v1 p!"channels"
  check (!(V.isNone v4))
  let v5 ← get v1 p!"operations"
  check (!(V.isNone v5))
  let v6 ← get v1 p!"messages"
  check (!(V.isNone v6))
  let v7 ← get v1 p!"security_schemes"
  check (!(V.isNone v7))
  let v8 ← get v1 p!"server_variables"
  check (!(V.isNone v8))
  let v9 ← get v1 p!"parameters"
  check (!(V.isNone v9))
  let v10 ← get v1 p!"correlation_ids"
  check (!(V.isNone v10))
  let v11 ← get v1 p!"replies"
  check (!(V.isNone v11))
  let v12 ← get v1 p!"reply_addresses"
  check (!(V.isNone v12))
  let v13 ← get v1 p!"external_docs"
  check (!(V.isNone v13))
  let v14 ← get v1 p!"tags"
  check (!(V.isNone v14))
  let v15 ← get v1 p!"operation_traits"
  check (!(V.isNone v15))
  let v16 ← get v1 p!"message_traits"
  check (!(V.isNone v16))
  let v17 ← get v1 p!"server_bindings"
  check (!(V.isNone v17))
  let v18 ← get v1 p!"channel_bindings"
  check (!(V.isNone v18))
  let v19 ← get v1 p!"operation_bindings"
  check (!(V.isNone v19))
  let v20 ← get v1 p!"message_bindings"
  check (!(V.isNone v20)) : Option Unit).isSome = true := by decide +kernel

end Verif.Conformance
