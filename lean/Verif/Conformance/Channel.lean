import Verif.Conformance.Support

/-! Translated from tests/models/test_channel.py by tools/gen_conformance.py. -/

set_option maxRecDepth 100000
set_option linter.unusedVariables false
namespace Verif.Conformance
open Verif Verif.Gen Verif.Pyd

/-- `test_parameter_validation_case_parameter_basic`, tests/models/test_channel.py:302 -/
example : (do
  let v1 ← load .Parameter (.dict [(p!"description", (.str p!"Id of the user."))])
  check (!(V.isNone v1))
  let v2 ← get v1 p!"description"
  check (eq v2 (.str p!"Id of the user.")) : Option Unit).isSome = true := by decide +kernel

/-- `test_parameter_validation_case_parameter_full`, tests/models/test_channel.py:302 -/
example : (do
  let v1 ← load .Parameter (.dict [(p!"description", (.str p!"Id of the user.")), (p!"location", (.str p!"$message.payload#/user/id")), (p!"enum", (.list [(.str p!"user1"), (.str p!"user2")])), (p!"default", (.str p!"user1")), (p!"examples", (.list [(.str p!"user1"), (.str p!"user2")]))])
  check (!(V.isNone v1))
  let v2 ← get v1 p!"description"
  check (eq v2 (.str p!"Id of the user.")) : Option Unit).isSome = true := by decide +kernel

/-- `test_parameter_validation_case_parameter_with_enum`, tests/models/test_channel.py:302 -/
example : (do
  let v1 ← load .Parameter (.dict [(p!"enum", (.list [(.str p!"chatMessages"), (.str p!"events")])), (p!"description", (.str p!"The resource to consume."))])
  check (!(V.isNone v1))
  let v2 ← get v1 p!"description"
  check (eq v2 (.str p!"The resource to consume.")) : Option Unit).isSome = true := by decide +kernel

/-- `test_parameter_serialization_case_parameter_serialization_empty`, tests/models/test_channel.py:320 -/
example : (do
  let v1 ← make .Parameter []
  check (eq (dump v1) (.dict [])) : Option Unit).isSome = true := by decide +kernel

/-- `test_parameter_serialization_case_parameter_serialization_basic`, tests/models/test_channel.py:320 -/
example : (do
  let v1 ← make .Parameter [(p!"description", (.str p!"Id of the user."))]
  check (eq (dump v1) (.dict [(p!"description", (.str p!"Id of the user."))])) : Option Unit).isSome = true := by decide +kernel

/-- `test_parameter_serialization_case_parameter_serialization_full`, tests/models/test_channel.py:320 -/
example : (do
  let v1 ← make .Parameter [(p!"description", (.str p!"Id of the user.")), (p!"location", (.str p!"$message.payload#/user/id")), (p!"enum", (.list [(.str p!"user1"), (.str p!"user2")])), (p!"default", (.str p!"user1")), (p!"examples", (.list [(.str p!"user1"), (.str p!"user2")]))]
  check (eq (dump v1) (.dict [(p!"description", (.str p!"Id of the user.")), (p!"location", (.str p!"$message.payload#/user/id")), (p!"enum", (.list [(.str p!"user1"), (.str p!"user2")])), (p!"default", (.str p!"user1")), (p!"examples", (.list [(.str p!"user1"), (.str p!"user2")]))])) : Option Unit).isSome = true := by decide +kernel

/-- `test_parameter_serialization_case_parameter_serialization_with_location`, tests/models/test_channel.py:320 -/
example : (do
  let v1 ← make .Parameter [(p!"description", (.str p!"Id of the user.")), (p!"location", (.str p!"$message.payload#/user/id"))]
  check (eq (dump v1) (.dict [(p!"description", (.str p!"Id of the user.")), (p!"location", (.str p!"$message.payload#/user/id"))])) : Option Unit).isSome = true := by decide +kernel

/-- `test_parameter_serialization_case_parameter_serialization_with_examples`, tests/models/test_channel.py:320 -/
example : (do
  let v1 ← make .Parameter [(p!"description", (.str p!"Id of the Gitter room.")), (p!"examples", (.list [(.str p!"53307860c3599d1de448e19d")]))]
  check (eq (dump v1) (.dict [(p!"description", (.str p!"Id of the Gitter room.")), (p!"examples", (.list [(.str p!"53307860c3599d1de448e19d")]))])) : Option Unit).isSome = true := by decide +kernel

/-- `test_parameters_validation_case_parameters_basic`, tests/models/test_channel.py:400 -/
example : (do
  let v1 ← load .Parameters (.dict [(p!"userId", (.dict [(p!"description", (.str p!"Id of the user."))])), (p!"orderId", (.dict [(p!"description", (.str p!"Id of the order."))]))])
  check (!(V.isNone v1))
  let v2 ← get v1 p!"root"
  check (isDict v2)
  let v3 ← get v1 p!"root"
  check (decide (len v3 > 0)) : Option Unit).isSome = true := by decide +kernel

/-- `test_parameters_validation_case_parameters_with_references`, tests/models/test_channel.py:400 -/
example : (do
  let v1 ← load .Parameters (.dict [(p!"userId", (.dict [(p!"$ref", (.str p!"#/components/parameters/userId"))])), (p!"orderId", (.dict [(p!"description", (.str p!"Id of the order."))]))])
  check (!(V.isNone v1))
  let v2 ← get v1 p!"root"
  check (isDict v2)
  let v3 ← get v1 p!"root"
  check (decide (len v3 > 0)) : Option Unit).isSome = true := by decide +kernel

/-- `test_parameters_validation_errors_case_parameters_invalid_key_spaces`, tests/models/test_channel.py:417 -/
example : (do
  raises (do
    discard (load .Parameters (.dict [(p!"user id", (.dict [(p!"description", (.str p!"Id of the user."))]))])) : Option Unit) : Option Unit).isSome = true := by decide +kernel

/-- `test_parameters_validation_errors_case_parameters_invalid_key_special_chars`, tests/models/test_channel.py:417 -/
example : (do
  raises (do
    discard (load .Parameters (.dict [(p!"user@id", (.dict [(p!"description", (.str p!"Id of the user."))]))])) : Option Unit) : Option Unit).isSome = true := by decide +kernel

/-- `test_parameters_validation_errors_case_parameters_invalid_key_dots`, tests/models/test_channel.py:417 -/
example : (do
  raises (do
    discard (load .Parameters (.dict [(p!"user.id", (.dict [(p!"description", (.str p!"Id of the user."))]))])) : Option Unit) : Option Unit).isSome = true := by decide +kernel

/-- `test_parameters_validation_errors_case_parameters_invalid_key_parentheses`, tests/models/test_channel.py:417 -/
example : (do
  raises (do
    discard (load .Parameters (.dict [(p!"user(id)", (.dict [(p!"description", (.str p!"Id of the user."))]))])) : Option Unit) : Option Unit).isSome = true := by decide +kernel

/-- `test_parameters_empty_dict_validation`, tests/models/test_channel.py:425 -/
example : (do
  let v1 ← load .Parameters (.dict [])
  check (!(V.isNone v1))
  let v2 ← get v1 p!"root"
  check (eq v2 (.dict []))
  let v3 ← get v1 p!"root"
  check (len v3 == 0) : Option Unit).isSome = true := by decide +kernel

/-- `test_parameters_iteration`, tests/models/test_channel.py:432 -/
example : (do
  let v1 ← make .Parameter [(p!"description", (.str p!"Id of the user."))]
  let v2 ← make .Parameter [(p!"description", (.str p!"Id of the order."))]
  let v3 ← make .Parameters [(p!"root", (.dict [(p!"userId", v1), (p!"orderId", v2)]))]
  check (len (listOf v3) == 2)
  check (member p!"userId" (listOf v3))
  check (member p!"orderId" (listOf v3)) : Option Unit).isSome = true := by decide +kernel

/-- `test_parameters_getitem`, tests/models/test_channel.py:445 -/
example : (do
  let v1 ← make .Parameter [(p!"description", (.str p!"Id of the user."))]
  let v2 ← make .Parameter [(p!"description", (.str p!"Id of the order."))]
  let v3 ← make .Parameters [(p!"root", (.dict [(p!"userId", v1), (p!"orderId", v2)]))]
  let v4 ← item v3 p!"userId"
  check (eq v4 v1)
  let v5 ← item v3 p!"orderId"
  check (eq v5 v2)
  let v6 ← make .Reference [(p!"ref", (.str p!"#/components/parameters/orderId"))]
  let v7 ← make .Parameters [(p!"root", (.dict [(p!"orderId", v6)]))]
  let v8 ← item v7 p!"orderId"
  check (eq v8 v6) : Option Unit).isSome = true := by decide +kernel

/-- `test_parameters_getattr`, tests/models/test_channel.py:465 -/
example : (do
  let v1 ← make .Parameter [(p!"description", (.str p!"Id of the user."))]
  let v2 ← make .Parameter [(p!"description", (.str p!"Id of the order."))]
  let v3 ← make .Parameters [(p!"root", (.dict [(p!"userId", v1), (p!"orderId", v2)]))]
  let v4 ← item v3 p!"userId"
  check (eq v4 v1)
  let v5 ← item v3 p!"orderId"
  check (eq v5 v2)
  let v6 ← make .Reference [(p!"ref", (.str p!"#/components/parameters/orderId"))]
  let v7 ← make .Parameters [(p!"root", (.dict [(p!"orderId", v6)]))]
  let v8 ← item v7 p!"orderId"
  check (eq v8 v6) : Option Unit).isSome = true := by decide +kernel

/-- `test_channel_validation_case_channel_basic`, tests/models/test_channel.py:493 -/
example : (do
  let v1 ← load .Channel (.dict [(p!"address", (.str p!"user/signedup"))])
  check (!(V.isNone v1))
  let v2 ← get v1 p!"address"
  check (eq v2 (.str p!"user/signedup")) : Option Unit).isSome = true := by decide +kernel

/-- `test_channel_validation_case_channel_full`, tests/models/test_channel.py:493 -/
example : (do
  let v1 ← load .Channel (.dict [(p!"address", (.str p!"users.{userId}")), (p!"title", (.str p!"Users channel")), (p!"description", (.str p!"This channel is used to exchange messages about user events.")), (p!"messages", (.dict [(p!"userSignedUp", (.dict [(p!"$ref", (.str p!"#/components/messages/userSignedUp"))]))])), (p!"parameters", (.dict [(p!"userId", (.dict [(p!"$ref", (.str p!"#/components/parameters/userId"))]))])), (p!"servers", (.list [(.dict [(p!"$ref", (.str p!"#/servers/rabbitmqInProd"))])])), (p!"tags", (.list [(.dict [(p!"name", (.str p!"user")), (p!"description", (.str p!"User-related messages"))])])), (p!"externalDocs", (.dict [(p!"description", (.str p!"Find more info here")), (p!"url", (.str p!"https://example.com"))]))])
  check (!(V.isNone v1))
  let v2 ← get v1 p!"address"
  check (eq v2 (.str p!"users.{userId}")) : Option Unit).isSome = true := by decide +kernel

/-- `test_channel_validation_case_channel_with_parameters`, tests/models/test_channel.py:493 -/
example : (do
  let v1 ← load .Channel (.dict [(p!"address", (.str p!"/rooms/{roomId}/{resource}")), (p!"parameters", (.dict [(p!"roomId", (.dict [(p!"description", (.str p!"Id of the Gitter room.")), (p!"examples", (.list [(.str p!"53307860c3599d1de448e19d")]))])), (p!"resource", (.dict [(p!"enum", (.list [(.str p!"chatMessages"), (.str p!"events")])), (p!"description", (.str p!"The resource to consume."))]))]))])
  check (!(V.isNone v1))
  let v2 ← get v1 p!"address"
  check (eq v2 (.str p!"/rooms/{roomId}/{resource}")) : Option Unit).isSome = true := by decide +kernel

/-- `test_channel_serialization_case_channel_serialization_empty`, tests/models/test_channel.py:511 -/
example : (do
  let v1 ← make .Channel []
  check (eq (dump v1) (.dict [(p!"address", .none)])) : Option Unit).isSome = true := by decide +kernel

/-- `test_channel_serialization_case_channel_serialization_basic`, tests/models/test_channel.py:511 -/
example : (do
  let v1 ← make .Channel [(p!"address", (.str p!"user/signedup"))]
  check (eq (dump v1) (.dict [(p!"address", (.str p!"user/signedup"))])) : Option Unit).isSome = true := by decide +kernel

/-- `test_channel_serialization_case_channel_serialization_with_parameters`, tests/models/test_channel.py:511 -/
example : (do
  let v1 ← make .Parameter [(p!"description", (.str p!"Id of the Gitter room.")), (p!"examples", (.list [(.str p!"53307860c3599d1de448e19d")]))]
  let v2 ← make .Parameter [(p!"enum", (.list [(.str p!"chatMessages"), (.str p!"events")])), (p!"description", (.str p!"The resource to consume."))]
  let v3 ← make .Channel [(p!"address", (.str p!"/rooms/{roomId}/{resource}")), (p!"parameters", (.dict [(p!"roomId", v1), (p!"resource", v2)]))]
  check (eq (dump v3) (.dict [(p!"address", (.str p!"/rooms/{roomId}/{resource}")), (p!"parameters", (.dict [(p!"roomId", (.dict [(p!"description", (.str p!"Id of the Gitter room.")), (p!"examples", (.list [(.str p!"53307860c3599d1de448e19d")]))])), (p!"resource", (.dict [(p!"enum", (.list [(.str p!"chatMessages"), (.str p!"events")])), (p!"description", (.str p!"The resource to consume."))]))]))])) : Option Unit).isSome = true := by decide +kernel

/-- `test_channel_serialization_case_channel_serialization_with_reference_parameter`, tests/models/test_channel.py:511 -/
example : (do
  let v1 ← make .Reference [(p!"ref", (.str p!"#/components/parameters/userId"))]
  let v2 ← make .Channel [(p!"address", (.str p!"users.{userId}")), (p!"parameters", (.dict [(p!"userId", v1)]))]
  check (eq (dump v2) (.dict [(p!"address", (.str p!"users.{userId}")), (p!"parameters", (.dict [(p!"userId", (.dict [(p!"$ref", (.str p!"#/components/parameters/userId"))]))]))])) : Option Unit).isSome = true := by decide +kernel

/-- `test_channel_serialization_case_channel_serialization_with_servers`, tests/models/test_channel.py:511 -/
example : (do
  let v1 ← make .Reference [(p!"ref", (.str p!"#/servers/rabbitmqInProd"))]
  let v2 ← make .Reference [(p!"ref", (.str p!"#/servers/rabbitmqInStaging"))]
  let v3 ← make .Channel [(p!"address", (.str p!"users.{userId}")), (p!"servers", (.list [v1, v2]))]
  check (eq (dump v3) (.dict [(p!"address", (.str p!"users.{userId}")), (p!"servers", (.list [(.dict [(p!"$ref", (.str p!"#/servers/rabbitmqInProd"))]), (.dict [(p!"$ref", (.str p!"#/servers/rabbitmqInStaging"))])]))])) : Option Unit).isSome = true := by decide +kernel

/-- `test_channel_with_parameters_validation`, tests/models/test_channel.py:516 -/
example : (do
  let v1 ← load .Channel (.dict [(p!"address", (.str p!"/rooms/{roomId}/{resource}")), (p!"parameters", (.dict [(p!"roomId", (.dict [(p!"description", (.str p!"Id of the Gitter room.")), (p!"examples", (.list [(.str p!"53307860c3599d1de448e19d")]))])), (p!"resource", (.dict [(p!"enum", (.list [(.str p!"chatMessages"), (.str p!"events")])), (p!"description", (.str p!"The resource to consume."))]))]))])
  let v2 ← get v1 p!"parameters"
  check (!(V.isNone v2))
  let v3 ← get v1 p!"parameters"
  check (member p!"roomId" v3)
  let v4 ← get v1 p!"parameters"
  let v5 ← item v4 p!"roomId"
  check (isA .Parameter v5)
  let v6 ← get v1 p!"parameters"
  let v7 ← item v6 p!"roomId"
  let v8 ← get v7 p!"description"
  check (eq v8 (.str p!"Id of the Gitter room."))
  let v9 ← get v1 p!"parameters"
  check (member p!"resource" v9)
  let v10 ← get v1 p!"parameters"
  let v11 ← item v10 p!"resource"
  check (isA .Parameter v11)
  let v12 ← get v1 p!"parameters"
  let v13 ← item v12 p!"resource"
  let v14 ← get v13 p!"enum"
  check (eq v14 (.list [(.str p!"chatMessages"), (.str p!"events")])) : Option Unit).isSome = true := by decide +kernel

/-- `test_channel_with_reference_parameter_validation`, tests/models/test_channel.py:542 -/
example : (do
  let v1 ← load .Channel (.dict [(p!"address", (.str p!"users.{userId}")), (p!"parameters", (.dict [(p!"userId", (.dict [(p!"$ref", (.str p!"#/components/parameters/userId"))]))]))])
  let v2 ← get v1 p!"parameters"
  check (!(V.isNone v2))
  let v3 ← get v1 p!"parameters"
  check (member p!"userId" v3)
  let v4 ← get v1 p!"parameters"
  let v5 ← item v4 p!"userId"
  check (isA .Reference v5)
  let v6 ← get v1 p!"parameters"
  let v7 ← item v6 p!"userId"
  let v8 ← get v7 p!"ref"
  check (eq v8 (.str p!"#/components/parameters/userId")) : Option Unit).isSome = true := by decide +kernel

/-- `test_channel_with_servers_validation`, tests/models/test_channel.py:558 -/
example : (do
  let v1 ← load .Channel (.dict [(p!"address", (.str p!"users.{userId}")), (p!"servers", (.list [(.dict [(p!"$ref", (.str p!"#/servers/rabbitmqInProd"))]), (.dict [(p!"$ref", (.str p!"#/servers/rabbitmqInStaging"))])]))])
  let v2 ← get v1 p!"servers"
  check (!(V.isNone v2))
  let v3 ← get v1 p!"servers"
  check (len v3 == 2)
  let v4 ← get v1 p!"servers"
  let v5 ← nth v4 0
  check (isA .Reference v5)
  let v6 ← get v1 p!"servers"
  let v7 ← nth v6 0
  let v8 ← get v7 p!"ref"
  check (eq v8 (.str p!"#/servers/rabbitmqInProd"))
  let v9 ← get v1 p!"servers"
  let v10 ← nth v9 1
  check (isA .Reference v10)
  let v11 ← get v1 p!"servers"
  let v12 ← nth v11 1
  let v13 ← get v12 p!"ref"
  check (eq v13 (.str p!"#/servers/rabbitmqInStaging")) : Option Unit).isSome = true := by decide +kernel

/-- `test_channel_parameters_validation_with_address_expressions`, tests/models/test_channel.py:576 -/
example : (do
  let v1 ← load .Channel (.dict [(p!"address", (.str p!"users/{userId}/orders/{orderId}")), (p!"parameters", (.dict [(p!"userId", (.dict [(p!"description", (.str p!"Id of the user."))])), (p!"orderId", (.dict [(p!"description", (.str p!"Id of the order."))]))]))])
  let v2 ← get v1 p!"parameters"
  check (!(V.isNone v2))
  let v3 ← get v1 p!"parameters"
  check (member p!"userId" v3)
  let v4 ← get v1 p!"parameters"
  check (member p!"orderId" v4) : Option Unit).isSome = true := by decide +kernel

/-- `test_channel_parameters_validation_without_address_expressions_error`, tests/models/test_channel.py:593 -/
example : (do
  raises (do
    discard (load .Channel (.dict [(p!"address", (.str p!"users/orders")), (p!"parameters", (.dict [(p!"userId", (.dict [(p!"description", (.str p!"Id of the user."))]))]))])) : Option Unit)
  check (true) : Option Unit).isSome = true := by decide +kernel

/-- `test_channel_parameters_validation_with_null_address_error`, tests/models/test_channel.py:612 -/
example : (do
  raises (do
    discard (load .Channel (.dict [(p!"address", .none), (p!"parameters", (.dict [(p!"userId", (.dict [(p!"description", (.str p!"Id of the user."))]))]))])) : Option Unit)
  check (true) : Option Unit).isSome = true := by decide +kernel

/-- `test_channel_parameters_validation_without_address_error`, tests/models/test_channel.py:628 -/
example : (do
  raises (do
    discard (load .Channel (.dict [(p!"title", (.str p!"Test channel")), (p!"parameters", (.dict [(p!"userId", (.dict [(p!"description", (.str p!"Id of the user."))]))]))])) : Option Unit)
  check (true) : Option Unit).isSome = true := by decide +kernel

/-- `test_channels_validation_case_channels_basic`, tests/models/test_channel.py:652 -/
example : (do
  let v1 ← load .Channels (.dict [(p!"userChannel", (.dict [(p!"address", (.str p!"user/signedup"))])), (p!"adminChannel", (.dict [(p!"address", (.str p!"admin/events"))]))])
  check (!(V.isNone v1))
  let v2 ← get v1 p!"root"
  check (isDict v2)
  let v3 ← get v1 p!"root"
  check (decide (len v3 > 0)) : Option Unit).isSome = true := by decide +kernel

/-- `test_channels_validation_case_channels_with_references`, tests/models/test_channel.py:652 -/
example : (do
  let v1 ← load .Channels (.dict [(p!"userChannel", (.dict [(p!"$ref", (.str p!"#/components/channels/userChannel"))])), (p!"adminChannel", (.dict [(p!"$ref", (.str p!"#/components/channels/adminChannel"))]))])
  check (!(V.isNone v1))
  let v2 ← get v1 p!"root"
  check (isDict v2)
  let v3 ← get v1 p!"root"
  check (decide (len v3 > 0)) : Option Unit).isSome = true := by decide +kernel

/-- `test_channels_validation_errors_case_channels_invalid_key_spaces`, tests/models/test_channel.py:668 -/
example : (do
  raises (do
    discard (load .Channels (.dict [(p!"user channel", (.dict [(p!"address", (.str p!"user/signedup"))]))])) : Option Unit) : Option Unit).isSome = true := by decide +kernel

/-- `test_channels_validation_errors_case_channels_invalid_key_special_chars`, tests/models/test_channel.py:668 -/
example : (do
  raises (do
    discard (load .Channels (.dict [(p!"user@channel", (.dict [(p!"address", (.str p!"user/signedup"))]))])) : Option Unit) : Option Unit).isSome = true := by decide +kernel

/-- `test_channels_validation_errors_case_channels_invalid_key_parentheses`, tests/models/test_channel.py:668 -/
example : (do
  raises (do
    discard (load .Channels (.dict [(p!"user(channel)", (.dict [(p!"address", (.str p!"user/signedup"))]))])) : Option Unit) : Option Unit).isSome = true := by decide +kernel

/-- `test_channels_empty_dict_validation`, tests/models/test_channel.py:676 -/
example : (do
  let v1 ← load .Channels (.dict [])
  check (!(V.isNone v1))
  let v2 ← get v1 p!"root"
  check (eq v2 (.dict []))
  let v3 ← get v1 p!"root"
  check (len v3 == 0) : Option Unit).isSome = true := by decide +kernel

/-- `test_channels_iteration`, tests/models/test_channel.py:683 -/
example : (do
  let v1 ← make .Channel [(p!"address", (.str p!"user/signedup"))]
  let v2 ← make .Channel [(p!"address", (.str p!"admin/events"))]
  let v3 ← make .Channels [(p!"root", (.dict [(p!"userChannel", v1), (p!"adminChannel", v2)]))]
  check (len (listOf v3) == 2)
  check (member p!"userChannel" (listOf v3))
  check (member p!"adminChannel" (listOf v3)) : Option Unit).isSome = true := by decide +kernel

/-- `test_channels_getitem`, tests/models/test_channel.py:699 -/
example : (do
  let v1 ← make .Channel [(p!"address", (.str p!"user/signedup"))]
  let v2 ← make .Channel [(p!"address", (.str p!"admin/events"))]
  let v3 ← make .Channels [(p!"root", (.dict [(p!"userChannel", v1), (p!"adminChannel", v2)]))]
  let v4 ← item v3 p!"userChannel"
  check (eq v4 v1)
  let v5 ← item v3 p!"adminChannel"
  check (eq v5 v2) : Option Unit).isSome = true := by decide +kernel

/-- `test_channels_getattr`, tests/models/test_channel.py:713 -/
example : (do
  let v1 ← make .Channel [(p!"address", (.str p!"user/signedup"))]
  let v2 ← make .Channel [(p!"address", (.str p!"admin/events"))]
  let v3 ← make .Channels [(p!"root", (.dict [(p!"userChannel", v1), (p!"adminChannel", v2)]))]
  let v4 ← item v3 p!"userChannel"
  check (eq v4 v1)
  let v5 ← item v3 p!"adminChannel"
  check (eq v5 v2) : Option Unit).isSome = true := by decide +kernel

end Verif.Conformance
