import Verif.Conformance.Support

/-! Translated from tests/models/test_operation.py by tools/gen_conformance.py. -/

set_option maxRecDepth 100000
set_option linter.unusedVariables false
namespace Verif.Conformance
open Verif Verif.Gen Verif.Pyd

/-- `test_operation_reply_address_validation_case_operation_reply_address_basic`, tests/models/test_operation.py:375 -/
example : (do
  let v1 ← load .OperationReplyAddress (.dict [(p!"location", (.str p!"$message.header#/replyTo"))])
  check (!(V.isNone v1))
  let v2 ← get v1 p!"location"
  check (eq v2 (.str p!"$message.header#/replyTo")) : Option Unit).isSome = true := by decide +kernel

/-- `test_operation_reply_address_validation_case_operation_reply_address_full`, tests/models/test_operation.py:375 -/
example : (do
  let v1 ← load .OperationReplyAddress (.dict [(p!"location", (.str p!"$message.header#/replyTo")), (p!"description", (.str p!"Reply address location"))])
  check (!(V.isNone v1))
  let v2 ← get v1 p!"location"
  check (eq v2 (.str p!"$message.header#/replyTo")) : Option Unit).isSome = true := by decide +kernel

/-- `test_operation_reply_address_serialization_case_operation_reply_address_serialization_basic`, tests/models/test_operation.py:389 -/
example : (do
  let v1 ← make .OperationReplyAddress [(p!"location", (.str p!"$message.header#/replyTo"))]
  check (eq (dump v1) (.dict [(p!"location", (.str p!"$message.header#/replyTo"))])) : Option Unit).isSome = true := by decide +kernel

/-- `test_operation_reply_address_serialization_case_operation_reply_address_serialization_full`, tests/models/test_operation.py:389 -/
example : (do
  let v1 ← make .OperationReplyAddress [(p!"location", (.str p!"$message.header#/replyTo")), (p!"description", (.str p!"Reply address location"))]
  check (eq (dump v1) (.dict [(p!"location", (.str p!"$message.header#/replyTo")), (p!"description", (.str p!"Reply address location"))])) : Option Unit).isSome = true := by decide +kernel

/-- `test_operation_reply_validation_case_operation_reply_basic`, tests/models/test_operation.py:406 -/
example : (do
  let v1 ← load .OperationReply (.dict [(p!"address", (.dict [(p!"location", (.str p!"$message.header#/replyTo"))]))])
  check (!(V.isNone v1))
  let v2 ← get v1 p!"address"
  check (!(V.isNone v2)) : Option Unit).isSome = true := by decide +kernel

/-- `test_operation_reply_validation_case_operation_reply_full`, tests/models/test_operation.py:406 -/
example : (do
  let v1 ← load .OperationReply (.dict [(p!"address", (.dict [(p!"location", (.str p!"$message.header#/replyTo")), (p!"description", (.str p!"Reply address location"))])), (p!"channel", (.dict [(p!"$ref", (.str p!"#/channels/userSignupReply"))])), (p!"messages", (.list [(.dict [(p!"$ref", (.str p!"#/channels/userSignupReply/messages/userSignedUpReply"))])]))])
  check (!(V.isNone v1))
  let v2 ← get v1 p!"address"
  check (!(V.isNone v2)) : Option Unit).isSome = true := by decide +kernel

/-- `test_operation_reply_serialization_case_operation_reply_serialization_basic`, tests/models/test_operation.py:421 -/
example : (do
  let v1 ← make .OperationReplyAddress [(p!"location", (.str p!"$message.header#/replyTo"))]
  let v2 ← make .OperationReply [(p!"address", v1)]
  check (eq (dump v2) (.dict [(p!"address", (.dict [(p!"location", (.str p!"$message.header#/replyTo"))]))])) : Option Unit).isSome = true := by decide +kernel

/-- `test_operation_reply_serialization_case_operation_reply_serialization_with_reference_channel`, tests/models/test_operation.py:421 -/
example : (do
  let v1 ← make .OperationReplyAddress [(p!"location", (.str p!"$message.header#/replyTo"))]
  let v2 ← make .Reference [(p!"ref", (.str p!"#/channels/userSignupReply"))]
  let v3 ← make .OperationReply [(p!"address", v1), (p!"channel", v2)]
  check (eq (dump v3) (.dict [(p!"address", (.dict [(p!"location", (.str p!"$message.header#/replyTo"))])), (p!"channel", (.dict [(p!"$ref", (.str p!"#/channels/userSignupReply"))]))])) : Option Unit).isSome = true := by decide +kernel

/-- `test_operation_reply_serialization_case_operation_reply_serialization_full`, tests/models/test_operation.py:421 -/
example : (do
  let v1 ← make .OperationReplyAddress [(p!"location", (.str p!"$message.header#/replyTo")), (p!"description", (.str p!"Reply address location"))]
  let v2 ← make .Reference [(p!"ref", (.str p!"#/channels/userSignupReply"))]
  let v3 ← make .Reference [(p!"ref", (.str p!"#/channels/userSignupReply/messages/userSignedUpReply"))]
  let v4 ← make .OperationReply [(p!"address", v1), (p!"channel", v2), (p!"messages", (.list [v3]))]
  check (eq (dump v4) (.dict [(p!"address", (.dict [(p!"location", (.str p!"$message.header#/replyTo")), (p!"description", (.str p!"Reply address location"))])), (p!"channel", (.dict [(p!"$ref", (.str p!"#/channels/userSignupReply"))])), (p!"messages", (.list [(.dict [(p!"$ref", (.str p!"#/channels/userSignupReply/messages/userSignedUpReply"))])]))])) : Option Unit).isSome = true := by decide +kernel

/-- `test_operation_reply_with_reference_channel_validation`, tests/models/test_operation.py:430 -/
example : (do
  let v1 ← load .OperationReply (.dict [(p!"address", (.dict [(p!"location", (.str p!"$message.header#/replyTo"))])), (p!"channel", (.dict [(p!"$ref", (.str p!"#/channels/userSignupReply"))]))])
  let v2 ← get v1 p!"channel"
  check (!(V.isNone v2))
  let v3 ← get v1 p!"channel"
  check (isA .Reference v3)
  let v4 ← get v1 p!"channel"
  let v5 ← get v4 p!"ref"
  check (eq v5 (.str p!"#/channels/userSignupReply")) : Option Unit).isSome = true := by decide +kernel

/-- `test_operation_trait_validation_case_operation_trait_basic`, tests/models/test_operation.py:453 -/
example : (do
  let v1 ← load .OperationTrait (.dict [(p!"bindings", (.dict [(p!"amqp", (.dict [(p!"ack", (.bool false))]))]))])
  check (!(V.isNone v1)) : Option Unit).isSome = true := by decide +kernel

/-- `test_operation_trait_validation_case_operation_trait_full`, tests/models/test_operation.py:453 -/
example : (do
  let v1 ← load .OperationTrait (.dict [(p!"title", (.str p!"User sign up")), (p!"summary", (.str p!"Action to sign a user up.")), (p!"description", (.str p!"A longer description")), (p!"bindings", (.dict [(p!"amqp", (.dict [(p!"ack", (.bool false))]))]))])
  check (!(V.isNone v1)) : Option Unit).isSome = true := by decide +kernel

/-- `test_operation_trait_serialization_case_operation_trait_serialization_empty`, tests/models/test_operation.py:463 -/
example : (do
  let v1 ← make .OperationTrait []
  check (eq (dump v1) (.dict [])) : Option Unit).isSome = true := by decide +kernel

/-- `test_operation_validation_case_operation_basic`, tests/models/test_operation.py:480 -/
example : (do
  let v1 ← load .Operation (.dict [(p!"action", (.str p!"send")), (p!"channel", (.dict [(p!"$ref", (.str p!"#/channels/userSignup"))]))])
  check (!(V.isNone v1))
  let v2 ← get v1 p!"action"
  check (eq v2 (.str p!"send") || eq v2 (.str p!"receive"))
  let v3 ← get v1 p!"channel"
  check (!(V.isNone v3)) : Option Unit).isSome = true := by decide +kernel

/-- `test_operation_validation_case_operation_full`, tests/models/test_operation.py:480 -/
example : (do
  let v1 ← load .Operation (.dict [(p!"title", (.str p!"User sign up")), (p!"summary", (.str p!"Action to sign a user up.")), (p!"description", (.str p!"A longer description")), (p!"channel", (.dict [(p!"$ref", (.str p!"#/channels/userSignup"))])), (p!"action", (.str p!"send")), (p!"tags", (.list [(.dict [(p!"name", (.str p!"user"))]), (.dict [(p!"name", (.str p!"signup"))])])), (p!"bindings", (.dict [(p!"amqp", (.dict [(p!"ack", (.bool false))]))])), (p!"traits", (.list [(.dict [(p!"$ref", (.str p!"#/components/operationTraits/kafka"))])])), (p!"messages", (.list [(.dict [(p!"$ref", (.str p!"#/channels/userSignup/messages/userSignedUp"))])])), (p!"reply", (.dict [(p!"address", (.dict [(p!"location", (.str p!"$message.header#/replyTo"))])), (p!"channel", (.dict [(p!"$ref", (.str p!"#/channels/userSignupReply"))]))]))])
  check (!(V.isNone v1))
  let v2 ← get v1 p!"action"
  check (eq v2 (.str p!"send") || eq v2 (.str p!"receive"))
  let v3 ← get v1 p!"channel"
  check (!(V.isNone v3)) : Option Unit).isSome = true := by decide +kernel

/-- `test_operation_serialization_case_operation_serialization_basic`, tests/models/test_operation.py:497 -/
example : (do
  let v1 ← make .Reference [(p!"ref", (.str p!"#/channels/userSignup"))]
  let v2 ← make .Operation [(p!"action", (.str p!"send")), (p!"channel", v1)]
  check (eq (dump v2) (.dict [(p!"action", (.str p!"send")), (p!"channel", (.dict [(p!"$ref", (.str p!"#/channels/userSignup"))]))])) : Option Unit).isSome = true := by decide +kernel

/-- `test_operation_serialization_case_operation_serialization_with_reply`, tests/models/test_operation.py:497 -/
example : (do
  let v1 ← make .Reference [(p!"ref", (.str p!"#/channels/userSignup"))]
  let v2 ← make .OperationReplyAddress [(p!"location", (.str p!"$message.header#/replyTo"))]
  let v3 ← make .Reference [(p!"ref", (.str p!"#/channels/userSignupReply"))]
  let v4 ← make .OperationReply [(p!"address", v2), (p!"channel", v3)]
  let v5 ← make .Operation [(p!"action", (.str p!"send")), (p!"channel", v1), (p!"reply", v4)]
  check (eq (dump v5) (.dict [(p!"action", (.str p!"send")), (p!"channel", (.dict [(p!"$ref", (.str p!"#/channels/userSignup"))])), (p!"reply", (.dict [(p!"address", (.dict [(p!"location", (.str p!"$message.header#/replyTo"))])), (p!"channel", (.dict [(p!"$ref", (.str p!"#/channels/userSignupReply"))]))]))])) : Option Unit).isSome = true := by decide +kernel

/-- `test_operation_serialization_case_operation_serialization_with_messages`, tests/models/test_operation.py:497 -/
example : (do
  let v1 ← make .Reference [(p!"ref", (.str p!"#/channels/userSignup"))]
  let v2 ← make .Reference [(p!"ref", (.str p!"#/channels/userSignup/messages/userSignedUp"))]
  let v3 ← make .Operation [(p!"action", (.str p!"send")), (p!"channel", v1), (p!"messages", (.list [v2]))]
  check (eq (dump v3) (.dict [(p!"action", (.str p!"send")), (p!"channel", (.dict [(p!"$ref", (.str p!"#/channels/userSignup"))])), (p!"messages", (.list [(.dict [(p!"$ref", (.str p!"#/channels/userSignup/messages/userSignedUp"))])]))])) : Option Unit).isSome = true := by decide +kernel

/-- `test_operation_serialization_case_operation_serialization_with_traits`, tests/models/test_operation.py:497 -/
example : (do
  let v1 ← make .Reference [(p!"ref", (.str p!"#/channels/userSignup"))]
  let v2 ← make .Reference [(p!"ref", (.str p!"#/components/operationTraits/kafka"))]
  let v3 ← make .Operation [(p!"action", (.str p!"send")), (p!"channel", v1), (p!"traits", (.list [v2]))]
  check (eq (dump v3) (.dict [(p!"action", (.str p!"send")), (p!"channel", (.dict [(p!"$ref", (.str p!"#/channels/userSignup"))])), (p!"traits", (.list [(.dict [(p!"$ref", (.str p!"#/components/operationTraits/kafka"))])]))])) : Option Unit).isSome = true := by decide +kernel

/-- `test_operation_with_reply_validation`, tests/models/test_operation.py:504 -/
example : (do
  let v1 ← load .Operation (.dict [(p!"action", (.str p!"send")), (p!"channel", (.dict [(p!"$ref", (.str p!"#/channels/userSignup"))])), (p!"reply", (.dict [(p!"address", (.dict [(p!"location", (.str p!"$message.header#/replyTo"))])), (p!"channel", (.dict [(p!"$ref", (.str p!"#/channels/userSignupReply"))]))]))])
  let v2 ← get v1 p!"reply"
  check (!(V.isNone v2))
  let v3 ← get v1 p!"reply"
  check (isA .OperationReply v3)
  let v4 ← get v1 p!"reply"
  let v5 ← get v4 p!"address"
  check (!(V.isNone v5))
  let v6 ← get v1 p!"reply"
  let v7 ← get v6 p!"address"
  let v8 ← get v7 p!"location"
  check (eq v8 (.str p!"$message.header#/replyTo")) : Option Unit).isSome = true := by decide +kernel

/-- `test_operation_with_messages_validation`, tests/models/test_operation.py:524 -/
example : (do
  let v1 ← load .Operation (.dict [(p!"action", (.str p!"send")), (p!"channel", (.dict [(p!"$ref", (.str p!"#/channels/userSignup"))])), (p!"messages", (.list [(.dict [(p!"$ref", (.str p!"#/channels/userSignup/messages/userSignedUp"))])]))])
  let v2 ← get v1 p!"messages"
  check (!(V.isNone v2))
  let v3 ← get v1 p!"messages"
  check (len v3 == 1)
  let v4 ← get v1 p!"messages"
  let v5 ← nth v4 0
  check (isA .Reference v5)
  let v6 ← get v1 p!"messages"
  let v7 ← nth v6 0
  let v8 ← get v7 p!"ref"
  check (eq v8 (.str p!"#/channels/userSignup/messages/userSignedUp")) : Option Unit).isSome = true := by decide +kernel

/-- `test_operation_with_traits_validation`, tests/models/test_operation.py:543 -/
example : (do
  let v1 ← load .Operation (.dict [(p!"action", (.str p!"send")), (p!"channel", (.dict [(p!"$ref", (.str p!"#/channels/userSignup"))])), (p!"traits", (.list [(.dict [(p!"$ref", (.str p!"#/components/operationTraits/kafka"))])]))])
  let v2 ← get v1 p!"traits"
  check (!(V.isNone v2))
  let v3 ← get v1 p!"traits"
  check (len v3 == 1)
  let v4 ← get v1 p!"traits"
  let v5 ← nth v4 0
  check (isA .Reference v5)
  let v6 ← get v1 p!"traits"
  let v7 ← nth v6 0
  let v8 ← get v7 p!"ref"
  check (eq v8 (.str p!"#/components/operationTraits/kafka")) : Option Unit).isSome = true := by decide +kernel

/-- `test_operations_validation_case_operations_basic`, tests/models/test_operation.py:568 -/
example : (do
  let v1 ← load .Operations (.dict [(p!"sendUserSignup", (.dict [(p!"action", (.str p!"send")), (p!"channel", (.dict [(p!"$ref", (.str p!"#/channels/userChannel"))]))])), (p!"receiveUserSignup", (.dict [(p!"action", (.str p!"receive")), (p!"channel", (.dict [(p!"$ref", (.str p!"#/channels/userChannel"))]))]))])
  check (!(V.isNone v1))
  let v2 ← get v1 p!"root"
  check (isDict v2)
  let v3 ← get v1 p!"root"
  check (decide (len v3 > 0)) : Option Unit).isSome = true := by decide +kernel

/-- `test_operations_validation_case_operations_with_references`, tests/models/test_operation.py:568 -/
example : (do
  let v1 ← load .Operations (.dict [(p!"sendUserSignup", (.dict [(p!"$ref", (.str p!"#/components/operations/sendUserSignup"))])), (p!"receiveUserSignup", (.dict [(p!"$ref", (.str p!"#/components/operations/receiveUserSignup"))]))])
  check (!(V.isNone v1))
  let v2 ← get v1 p!"root"
  check (isDict v2)
  let v3 ← get v1 p!"root"
  check (decide (len v3 > 0)) : Option Unit).isSome = true := by decide +kernel

/-- `test_operations_validation_errors_case_operations_invalid_key_spaces`, tests/models/test_operation.py:584 -/
example : (do
  raises (do
    discard (load .Operations (.dict [(p!"send user signup", (.dict [(p!"action", (.str p!"send")), (p!"channel", (.dict [(p!"$ref", (.str p!"#/channels/userChannel"))]))]))])) : Option Unit) : Option Unit).isSome = true := by decide +kernel

/-- `test_operations_validation_errors_case_operations_invalid_key_special_chars`, tests/models/test_operation.py:584 -/
example : (do
  raises (do
    discard (load .Operations (.dict [(p!"send@user@signup", (.dict [(p!"action", (.str p!"send")), (p!"channel", (.dict [(p!"$ref", (.str p!"#/channels/userChannel"))]))]))])) : Option Unit) : Option Unit).isSome = true := by decide +kernel

/-- `test_operations_validation_errors_case_operations_invalid_key_parentheses`, tests/models/test_operation.py:584 -/
example : (do
  raises (do
    discard (load .Operations (.dict [(p!"send(user)signup", (.dict [(p!"action", (.str p!"send")), (p!"channel", (.dict [(p!"$ref", (.str p!"#/channels/userChannel"))]))]))])) : Option Unit) : Option Unit).isSome = true := by decide +kernel

/-- `test_operations_empty_dict_validation`, tests/models/test_operation.py:592 -/
example : (do
  let v1 ← load .Operations (.dict [])
  check (!(V.isNone v1))
  let v2 ← get v1 p!"root"
  check (eq v2 (.dict []))
  let v3 ← get v1 p!"root"
  check (len v3 == 0) : Option Unit).isSome = true := by decide +kernel

/-- `test_operations_iteration`, tests/models/test_operation.py:599 -/
example : (do
  let v1 ← make .Reference [(p!"ref", (.str p!"#/channels/userChannel"))]
  let v2 ← make .Operation [(p!"action", (.str p!"send")), (p!"channel", v1)]
  let v3 ← make .Reference [(p!"ref", (.str p!"#/channels/userChannel"))]
  let v4 ← make .Operation [(p!"action", (.str p!"receive")), (p!"channel", v3)]
  let v5 ← make .Operations [(p!"root", (.dict [(p!"sendUserSignup", v2), (p!"receiveUserSignup", v4)]))]
  check (len (listOf v5) == 2)
  check (member p!"sendUserSignup" (listOf v5))
  check (member p!"receiveUserSignup" (listOf v5)) : Option Unit).isSome = true := by decide +kernel

/-- `test_operations_getitem`, tests/models/test_operation.py:619 -/
example : (do
  let v1 ← make .Reference [(p!"ref", (.str p!"#/channels/userChannel"))]
  let v2 ← make .Operation [(p!"action", (.str p!"send")), (p!"channel", v1)]
  let v3 ← make .Reference [(p!"ref", (.str p!"#/channels/userChannel"))]
  let v4 ← make .Operation [(p!"action", (.str p!"receive")), (p!"channel", v3)]
  let v5 ← make .Operations [(p!"root", (.dict [(p!"sendUserSignup", v2), (p!"receiveUserSignup", v4)]))]
  let v6 ← item v5 p!"sendUserSignup"
  check (eq v6 v2)
  let v7 ← item v5 p!"receiveUserSignup"
  check (eq v7 v4) : Option Unit).isSome = true := by decide +kernel

/-- `test_operations_getattr`, tests/models/test_operation.py:637 -/
example : (do
  let v1 ← make .Reference [(p!"ref", (.str p!"#/channels/userChannel"))]
  let v2 ← make .Operation [(p!"action", (.str p!"send")), (p!"channel", v1)]
  let v3 ← make .Reference [(p!"ref", (.str p!"#/channels/userChannel"))]
  let v4 ← make .Operation [(p!"action", (.str p!"receive")), (p!"channel", v3)]
  let v5 ← make .Operations [(p!"root", (.dict [(p!"sendUserSignup", v2), (p!"receiveUserSignup", v4)]))]
  let v6 ← item v5 p!"sendUserSignup"
  check (eq v6 v2)
  let v7 ← item v5 p!"receiveUserSignup"
  check (eq v7 v4) : Option Unit).isSome = true := by decide +kernel

end Verif.Conformance
