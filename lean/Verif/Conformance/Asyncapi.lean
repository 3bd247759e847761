import Verif.Conformance.Support

/-! Translated from tests/models/test_asyncapi.py by tools/gen_conformance.py. -/

set_option maxRecDepth 100000
set_option linter.unusedVariables false
namespace Verif.Conformance
open Verif Verif.Gen Verif.Pyd

/-- `test_as_builder_default`, tests/models/test_asyncapi.py:333 -/
example : (do
  let v1 ← Builder.asBuilder env 0 {  } []
  check (!(V.isNone v1))
  let v2 ← get v1 p!"asyncapi"
  check (eq v2 (.str p!"3.0.0"))
  let v3 ← get v1 p!"info"
  let v4 ← get v3 p!"title"
  check (eq v4 (.str p!"Sample APP"))
  let v5 ← get v1 p!"info"
  let v6 ← get v5 p!"version"
  check (eq v6 (.str p!"0.0.1"))
  let v7 ← get v1 p!"servers"
  let v8 ← get v7 p!"root"
  check (len v8 == 0)
  let v9 ← get v1 p!"channels"
  let v10 ← get v9 p!"root"
  check (len v10 == 0)
  let v11 ← get v1 p!"operations"
  let v12 ← get v11 p!"root"
  check (len v12 == 0)
  let v13 ← get v1 p!"components"
  check (!(V.isNone v13)) : Option Unit).isSome = true := by decide +kernel

/-- `test_as_builder_serialization_default`, tests/models/test_asyncapi.py:345 -/
example : (do
  let v1 ← Builder.asBuilder env 0 {  } []
  check (eq (dump v1) (.dict [(p!"asyncapi", (.str p!"3.0.0")), (p!"info", (.dict [(p!"title", (.str p!"Sample APP")), (p!"version", (.str p!"0.0.1"))])), (p!"servers", (.dict [])), (p!"channels", (.dict [])), (p!"operations", (.dict [])), (p!"components", (.dict [(p!"schemas", (.dict [])), (p!"servers", (.dict [])), (p!"channels", (.dict [])), (p!"operations", (.dict [])), (p!"messages", (.dict [])), (p!"securitySchemes", (.dict [])), (p!"serverVariables", (.dict [])), (p!"parameters", (.dict [])), (p!"correlationIds", (.dict [])), (p!"replies", (.dict [])), (p!"replyAddresses", (.dict [])), (p!"externalDocs", (.dict [])), (p!"tags", (.dict [])), (p!"operationTraits", (.dict [])), (p!"messageTraits", (.dict [])), (p!"serverBindings", (.dict [])), (p!"channelBindings", (.dict [])), (p!"operationBindings", (.dict [])), (p!"messageBindings", (.dict []))]))])) : Option Unit).isSome = true := by decide +kernel

/-- `test_asyncapi3_validation_case_asyncapi_minimal`, tests/models/test_asyncapi.py:388 -/
example : (do
  let v1 ← load .AsyncAPI3 (.dict [(p!"asyncapi", (.str p!"3.0.0")), (p!"info", (.dict [(p!"title", (.str p!"Account Service")), (p!"version", (.str p!"1.0.0"))]))])
  check (!(V.isNone v1))
  let v2 ← get v1 p!"asyncapi"
  check (eq v2 (.str p!"3.0.0"))
  let v3 ← get v1 p!"info"
  check (!(V.isNone v3)) : Option Unit).isSome = true := by decide +kernel

/-- `test_asyncapi3_validation_case_asyncapi_full`, tests/models/test_asyncapi.py:388 -/
example : (do
  let v1 ← load .AsyncAPI3 (.dict [(p!"asyncapi", (.str p!"3.0.0")), (p!"id", (.str p!"tag:stream.gitter.im,2022:api")), (p!"info", (.dict [(p!"title", (.str p!"Gitter Streaming API")), (p!"version", (.str p!"1.0.0")), (p!"description", (.str p!"This is a sample app."))])), (p!"servers", (.dict [(p!"production", (.dict [(p!"host", (.str p!"stream.gitter.im")), (p!"pathname", (.str p!"/v1")), (p!"protocol", (.str p!"https"))]))])), (p!"defaultContentType", (.str p!"application/json")), (p!"channels", (.dict [(p!"rooms", (.dict [(p!"address", (.str p!"/rooms/{roomId}/{resource}")), (p!"messages", (.dict [(p!"chatMessage", (.dict [(p!"$ref", (.str p!"#/components/messages/chatMessage"))]))]))]))])), (p!"operations", (.dict [(p!"sendRoomInfo", (.dict [(p!"action", (.str p!"send")), (p!"channel", (.dict [(p!"$ref", (.str p!"#/channels/rooms"))])), (p!"messages", (.list [(.dict [(p!"$ref", (.str p!"#/channels/rooms/messages/chatMessage"))])]))]))])), (p!"components", (.dict [(p!"messages", (.dict [(p!"chatMessage", (.dict [(p!"payload", (.dict [(p!"type", (.str p!"object"))]))]))]))]))])
  check (!(V.isNone v1))
  let v2 ← get v1 p!"asyncapi"
  check (eq v2 (.str p!"3.0.0"))
  let v3 ← get v1 p!"info"
  check (!(V.isNone v3)) : Option Unit).isSome = true := by decide +kernel

/-- `test_asyncapi3_validation_case_asyncapi_with_defaults`, tests/models/test_asyncapi.py:388 -/
example : (do
  let v1 ← load .AsyncAPI3 (.dict [(p!"asyncapi", (.str p!"3.0.0")), (p!"info", (.dict [(p!"title", (.str p!"My App")), (p!"version", (.str p!"1.0.0"))]))])
  check (!(V.isNone v1))
  let v2 ← get v1 p!"asyncapi"
  check (eq v2 (.str p!"3.0.0"))
  let v3 ← get v1 p!"info"
  check (!(V.isNone v3)) : Option Unit).isSome = true := by decide +kernel

/-- `test_asyncapi3_validation_case_asyncapi_with_id`, tests/models/test_asyncapi.py:388 -/
example : (do
  let v1 ← load .AsyncAPI3 (.dict [(p!"asyncapi", (.str p!"3.0.0")), (p!"id", (.str p!"https://example.com/my-api")), (p!"info", (.dict [(p!"title", (.str p!"My App")), (p!"version", (.str p!"1.0.0"))]))])
  check (!(V.isNone v1))
  let v2 ← get v1 p!"asyncapi"
  check (eq v2 (.str p!"3.0.0"))
  let v3 ← get v1 p!"info"
  check (!(V.isNone v3)) : Option Unit).isSome = true := by decide +kernel

/-- `test_asyncapi3_validation_case_asyncapi_with_extensions`, tests/models/test_asyncapi.py:388 -/
example : (do
  let v1 ← load .AsyncAPI3 (.dict [(p!"asyncapi", (.str p!"3.0.0")), (p!"info", (.dict [(p!"title", (.str p!"My App")), (p!"version", (.str p!"1.0.0"))])), (p!"x-custom-extension", (.str p!"custom value")), (p!"x-another-extension", (.dict [(p!"nested", (.str p!"value"))]))])
  check (!(V.isNone v1))
  let v2 ← get v1 p!"asyncapi"
  check (eq v2 (.str p!"3.0.0"))
  let v3 ← get v1 p!"info"
  check (!(V.isNone v3)) : Option Unit).isSome = true := by decide +kernel

/-- `test_asyncapi3_serialization_case_asyncapi_serialization_minimal`, tests/models/test_asyncapi.py:408 -/
example : (do
  let v1 ← make .Info [(p!"title", (.str p!"AsyncAPI Sample App")), (p!"version", (.str p!"0.0.1"))]
  let v2 ← make .AsyncAPI3 [(p!"info", v1)]
  check (eq (dump v2) (.dict [(p!"asyncapi", (.str p!"3.0.0")), (p!"info", (.dict [(p!"title", (.str p!"AsyncAPI Sample App")), (p!"version", (.str p!"0.0.1"))]))])) : Option Unit).isSome = true := by decide +kernel

/-- `test_asyncapi3_serialization_case_asyncapi_serialization_with_servers`, tests/models/test_asyncapi.py:408 -/
example : (do
  let v1 ← make .Info [(p!"title", (.str p!"My App")), (p!"version", (.str p!"1.0.0"))]
  let v2 ← make .Server [(p!"host", (.str p!"kafka.in.mycompany.com:9092")), (p!"protocol", (.str p!"kafka"))]
  let v3 ← make .AsyncAPI3 [(p!"info", v1), (p!"servers", (.dict [(p!"production", v2)]))]
  check (eq (dump v3) (.dict [(p!"asyncapi", (.str p!"3.0.0")), (p!"info", (.dict [(p!"title", (.str p!"My App")), (p!"version", (.str p!"1.0.0"))])), (p!"servers", (.dict [(p!"production", (.dict [(p!"host", (.str p!"kafka.in.mycompany.com:9092")), (p!"protocol", (.str p!"kafka"))]))]))])) : Option Unit).isSome = true := by decide +kernel

/-- `test_asyncapi3_serialization_case_asyncapi_serialization_with_channels`, tests/models/test_asyncapi.py:408 -/
example : (do
  let v1 ← make .Info [(p!"title", (.str p!"My App")), (p!"version", (.str p!"1.0.0"))]
  let v2 ← make .Channel [(p!"address", (.str p!"user/signedup"))]
  let v3 ← make .AsyncAPI3 [(p!"info", v1), (p!"channels", (.dict [(p!"userSignedup", v2)]))]
  check (eq (dump v3) (.dict [(p!"asyncapi", (.str p!"3.0.0")), (p!"info", (.dict [(p!"title", (.str p!"My App")), (p!"version", (.str p!"1.0.0"))])), (p!"channels", (.dict [(p!"userSignedup", (.dict [(p!"address", (.str p!"user/signedup"))]))]))])) : Option Unit).isSome = true := by decide +kernel

/-- `test_asyncapi3_serialization_case_asyncapi_serialization_with_operations_ref`, tests/models/test_asyncapi.py:408 -/
example : (do
  let v1 ← make .Info [(p!"title", (.str p!"My App")), (p!"version", (.str p!"1.0.0"))]
  let v2 ← make .Channel [(p!"address", (.str p!"user/signedup"))]
  let v3 ← make .Reference [(p!"ref", (.str p!"#/channels/userSignedup"))]
  let v4 ← make .Operation [(p!"action", (.str p!"send")), (p!"channel", v3)]
  let v5 ← make .AsyncAPI3 [(p!"info", v1), (p!"channels", (.dict [(p!"userSignedup", v2)])), (p!"operations", (.dict [(p!"sendUserSignedup", v4)]))]
  check (eq (dump v5) (.dict [(p!"asyncapi", (.str p!"3.0.0")), (p!"info", (.dict [(p!"title", (.str p!"My App")), (p!"version", (.str p!"1.0.0"))])), (p!"channels", (.dict [(p!"userSignedup", (.dict [(p!"address", (.str p!"user/signedup"))]))])), (p!"operations", (.dict [(p!"sendUserSignedup", (.dict [(p!"action", (.str p!"send")), (p!"channel", (.dict [(p!"$ref", (.str p!"#/channels/userSignedup"))]))]))]))])) : Option Unit).isSome = true := by decide +kernel

/-- `test_asyncapi3_serialization_case_asyncapi_serialization_with_operations_multiple`, tests/models/test_asyncapi.py:408 -/
example : (do
  let v1 ← make .Info [(p!"title", (.str p!"My App")), (p!"version", (.str p!"1.0.0"))]
  let v2 ← make .Channel [(p!"address", (.str p!"user/signedup"))]
  let v3 ← make .Reference [(p!"ref", (.str p!"#/channels/userSignedup"))]
  let v4 ← make .Operation [(p!"action", (.str p!"send")), (p!"channel", v3)]
  let v5 ← make .Reference [(p!"ref", (.str p!"#/channels/userSignedup"))]
  let v6 ← make .Operation [(p!"action", (.str p!"receive")), (p!"channel", v5)]
  let v7 ← make .AsyncAPI3 [(p!"info", v1), (p!"channels", (.dict [(p!"userSignedup", v2)])), (p!"operations", (.dict [(p!"sendUserSignedup", v4), (p!"receiveUserSignedup", v6)]))]
  check (eq (dump v7) (.dict [(p!"asyncapi", (.str p!"3.0.0")), (p!"info", (.dict [(p!"title", (.str p!"My App")), (p!"version", (.str p!"1.0.0"))])), (p!"channels", (.dict [(p!"userSignedup", (.dict [(p!"address", (.str p!"user/signedup"))]))])), (p!"operations", (.dict [(p!"sendUserSignedup", (.dict [(p!"action", (.str p!"send")), (p!"channel", (.dict [(p!"$ref", (.str p!"#/channels/userSignedup"))]))])), (p!"receiveUserSignedup", (.dict [(p!"action", (.str p!"receive")), (p!"channel", (.dict [(p!"$ref", (.str p!"#/channels/userSignedup"))]))]))]))])) : Option Unit).isSome = true := by decide +kernel

/-- `test_asyncapi3_serialization_case_asyncapi_serialization_with_components`, tests/models/test_asyncapi.py:408 -/
example : (do
  let v1 ← make .Info [(p!"title", (.str p!"My App")), (p!"version", (.str p!"1.0.0"))]
  let v2 ← make .Schema [(p!"type", (.str p!"object"))]
  let v3 ← make .Message [(p!"payload", v2)]
  let v4 ← make .Components [(p!"messages", (.dict [(p!"UserSignedUp", v3)]))]
  let v5 ← make .AsyncAPI3 [(p!"info", v1), (p!"components", v4)]
  check (eq (dump v5) (.dict [(p!"asyncapi", (.str p!"3.0.0")), (p!"info", (.dict [(p!"title", (.str p!"My App")), (p!"version", (.str p!"1.0.0"))])), (p!"components", (.dict [(p!"messages", (.dict [(p!"UserSignedUp", (.dict [(p!"payload", (.dict [(p!"type", (.str p!"object"))]))]))]))]))])) : Option Unit).isSome = true := by decide +kernel

/-- `test_asyncapi3_serialization_case_asyncapi_serialization_with_id`, tests/models/test_asyncapi.py:408 -/
example : (do
  let v1 ← make .Info [(p!"title", (.str p!"My App")), (p!"version", (.str p!"1.0.0"))]
  let v2 ← make .AsyncAPI3 [(p!"id", (.url .any ((urlForm p!"https://example.com/my-api").getD []))), (p!"info", v1)]
  check (eq (dump v2) (.dict [(p!"asyncapi", (.str p!"3.0.0")), (p!"id", (.str p!"https://example.com/my-api")), (p!"info", (.dict [(p!"title", (.str p!"My App")), (p!"version", (.str p!"1.0.0"))]))])) : Option Unit).isSome = true := by decide +kernel

/-- `test_asyncapi3_with_servers_validation`, tests/models/test_asyncapi.py:413 -/
example : (do
  let v1 ← load .AsyncAPI3 (.dict [(p!"asyncapi", (.str p!"3.0.0")), (p!"info", (.dict [(p!"title", (.str p!"My App")), (p!"version", (.str p!"1.0.0"))])), (p!"servers", (.dict [(p!"production", (.dict [(p!"host", (.str p!"kafka.in.mycompany.com:9092")), (p!"protocol", (.str p!"kafka"))]))]))])
  let v2 ← get v1 p!"servers"
  check (!(V.isNone v2))
  let v3 ← get v1 p!"servers"
  let v4 ← item v3 p!"production"
  let v5 ← make .Server [(p!"host", (.str p!"kafka.in.mycompany.com:9092")), (p!"protocol", (.str p!"kafka"))]
  check (eq v4 v5) : Option Unit).isSome = true := by decide +kernel

/-- `test_asyncapi3_with_channels_validation`, tests/models/test_asyncapi.py:434 -/
example : (do
  let v1 ← load .AsyncAPI3 (.dict [(p!"asyncapi", (.str p!"3.0.0")), (p!"info", (.dict [(p!"title", (.str p!"My App")), (p!"version", (.str p!"1.0.0"))])), (p!"channels", (.dict [(p!"userSignedup", (.dict [(p!"address", (.str p!"user/signedup"))]))]))])
  let v2 ← get v1 p!"channels"
  check (!(V.isNone v2))
  let v3 ← get v1 p!"channels"
  check (member p!"userSignedup" v3)
  let v4 ← get v1 p!"channels"
  let v5 ← item v4 p!"userSignedup"
  let v6 ← get v5 p!"address"
  check (eq v6 (.str p!"user/signedup")) : Option Unit).isSome = true := by decide +kernel

/-- `test_asyncapi3_with_operations_validation`, tests/models/test_asyncapi.py:452 -/
example : (do
  let v1 ← load .AsyncAPI3 (.dict [(p!"asyncapi", (.str p!"3.0.0")), (p!"info", (.dict [(p!"title", (.str p!"My App")), (p!"version", (.str p!"1.0.0"))])), (p!"channels", (.dict [(p!"userSignedup", (.dict [(p!"address", (.str p!"user/signedup"))]))])), (p!"operations", (.dict [(p!"sendUserSignedup", (.dict [(p!"action", (.str p!"send")), (p!"channel", (.dict [(p!"$ref", (.str p!"#/channels/userSignedup"))]))]))]))])
  let v2 ← get v1 p!"operations"
  check (!(V.isNone v2))
  let v3 ← get v1 p!"operations"
  check (member p!"sendUserSignedup" v3)
  let v4 ← get v1 p!"operations"
  let v5 ← item v4 p!"sendUserSignedup"
  let v6 ← get v5 p!"action"
  check (eq v6 (.str p!"send")) : Option Unit).isSome = true := by decide +kernel

/-- `test_asyncapi3_with_components_validation`, tests/models/test_asyncapi.py:475 -/
example : (do
  let v1 ← load .AsyncAPI3 (.dict [(p!"asyncapi", (.str p!"3.0.0")), (p!"info", (.dict [(p!"title", (.str p!"My App")), (p!"version", (.str p!"1.0.0"))])), (p!"components", (.dict [(p!"messages", (.dict [(p!"UserSignedUp", (.dict [(p!"payload", (.dict [(p!"type", (.str p!"object"))]))]))]))]))])
  let v2 ← get v1 p!"components"
  check (!(V.isNone v2))
  let v3 ← get v1 p!"components"
  let v4 ← get v3 p!"messages"
  check (!(V.isNone v4))
  let v5 ← get v1 p!"components"
  let v6 ← get v5 p!"messages"
  check (member p!"UserSignedUp" v6) : Option Unit).isSome = true := by decide +kernel

/-- `test_asyncapi3_validation_errors_case_asyncapi_invalid_version`, tests/models/test_asyncapi.py:503 -/
example : (do
  raises (do
    discard (load .AsyncAPI3 (.dict [(p!"asyncapi", (.str p!"invalid.version")), (p!"info", (.dict [(p!"title", (.str p!"My App")), (p!"version", (.str p!"1.0.0"))]))])) : Option Unit)
  check (true) : Option Unit).isSome = true := by decide +kernel

/-- `test_asyncapi3_validation_errors_case_asyncapi_invalid_id`, tests/models/test_asyncapi.py:503 -/
example : (do
  raises (do
    discard (load .AsyncAPI3 (.dict [(p!"asyncapi", (.str p!"3.0.0")), (p!"id", (.str p!"not-a-valid-uri")), (p!"info", (.dict [(p!"title", (.str p!"My App")), (p!"version", (.str p!"1.0.0"))]))])) : Option Unit)
  check (true) : Option Unit).isSome = true := by decide +kernel

/-- `test_asyncapi3_validation_errors_case_asyncapi_unsupported_version`, tests/models/test_asyncapi.py:503 -/
example : (do
  raises (do
    discard (load .AsyncAPI3 (.dict [(p!"asyncapi", (.str p!"2.6.0")), (p!"info", (.dict [(p!"title", (.str p!"My App")), (p!"version", (.str p!"1.0.0"))]))])) : Option Unit)
  check (true) : Option Unit).isSome = true := by decide +kernel

/-- `test_asyncapi3_extensions_validation`, tests/models/test_asyncapi.py:513 -/
example : (do
  let v1 ← load .AsyncAPI3 (.dict [(p!"asyncapi", (.str p!"3.0.0")), (p!"info", (.dict [(p!"title", (.str p!"My App")), (p!"version", (.str p!"1.0.0"))])), (p!"x-custom-extension", (.str p!"custom value")), (p!"x-another-extension", (.dict [(p!"nested", (.str p!"value"))]))])
  check (true)
  check (!(V.isNone (extra v1)))
  check (member p!"x-custom-extension" (extra v1))
  let v2 ← item (extra v1) p!"x-custom-extension"
  check (eq v2 (.str p!"custom value"))
  check (member p!"x-another-extension" (extra v1))
  let v3 ← item (extra v1) p!"x-another-extension"
  check (eq v3 (.dict [(p!"nested", (.str p!"value"))])) : Option Unit).isSome = true := by decide +kernel

/-- `test_as_builder_parameter_override`, tests/models/test_asyncapi.py:550 -/
example : (do
  let v1 ← make .Server [(p!"host", (.str p!"kafka.example.com")), (p!"protocol", (.str p!"kafka"))]
  let v2 ← make .Channel [(p!"address", (.str p!"test/channel"))]
  let v3 ← make .Reference [(p!"ref", (.str p!"#/channels/test"))]
  let v4 ← make .Operation [(p!"action", (.str p!"send")), (p!"channel", v3)]
  let v5 ← make .Schema [(p!"type", (.str p!"string"))]
  let v6 ← make .Message [(p!"payload", v5)]
  let v7 ← make .Components [(p!"messages", (.dict [(p!"test_msg", v6)]))]
  let v8 ← Builder.asBuilder env 0 { title := (.str p!"Custom Title"), version := (.str p!"2.0.0"), description := (.str p!"Custom description") } [(p!"asyncapi", (.str p!"3.0.1")), (p!"servers", (.dict [(p!"prod", v1)])), (p!"channels", (.dict [(p!"test", v2)])), (p!"operations", (.dict [(p!"test_op", v4)])), (p!"components", v7), (p!"default_content_type", (.str p!"application/xml"))]
  let v9 ← get v8 p!"asyncapi"
  check (eq v9 (.str p!"3.0.1"))
  let v10 ← get v8 p!"info"
  let v11 ← get v10 p!"title"
  check (eq v11 (.str p!"Custom Title"))
  let v12 ← get v8 p!"info"
  let v13 ← get v12 p!"version"
  check (eq v13 (.str p!"2.0.0"))
  let v14 ← get v8 p!"info"
  let v15 ← get v14 p!"description"
  check (eq v15 (.str p!"Custom description"))
  let v16 ← get v8 p!"default_content_type"
  check (eq v16 (.str p!"application/xml"))
  let v17 ← get v8 p!"servers"
  let v18 ← get v17 p!"root"
  check (len v18 == 1)
  let v19 ← get v8 p!"servers"
  let v20 ← get v19 p!"root"
  check (member p!"prod" v20)
  let v21 ← get v8 p!"servers"
  let v22 ← get v21 p!"root"
  let v23 ← item v22 p!"prod"
  let v24 ← get v23 p!"host"
  check (eq v24 (.str p!"kafka.example.com"))
  let v25 ← get v8 p!"channels"
  let v26 ← get v25 p!"root"
  check (len v26 == 1)
  let v27 ← get v8 p!"channels"
  let v28 ← get v27 p!"root"
  check (member p!"test" v28)
  let v29 ← get v8 p!"channels"
  let v30 ← get v29 p!"root"
  let v31 ← item v30 p!"test"
  let v32 ← get v31 p!"address"
  check (eq v32 (.str p!"test/channel"))
  let v33 ← get v8 p!"operations"
  let v34 ← get v33 p!"root"
  check (len v34 == 1)
  let v35 ← get v8 p!"operations"
  let v36 ← get v35 p!"root"
  check (member p!"test_op" v36)
  let v37 ← get v8 p!"operations"
  let v38 ← get v37 p!"root"
  let v39 ← item v38 p!"test_op"
  let v40 ← get v39 p!"action"
  check (eq v40 (.str p!"send"))
  let v41 ← get v8 p!"components"
  let v42 ← get v41 p!"messages"
  check (!(V.isNone v42))
  let v43 ← get v8 p!"components"
  let v44 ← get v43 p!"messages"
  check (member p!"test_msg" v44)
  let v45 ← get v8 p!"components"
  let v46 ← get v45 p!"messages"
  let v47 ← item v46 p!"test_msg"
  let v48 ← get v47 p!"payload"
  let v49 ← get v48 p!"type"
  check (eq v49 (.str p!"string")) : Option Unit).isSome = true := by decide +kernel

end Verif.Conformance
