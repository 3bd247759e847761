import Verif.Conformance.Support

/-! Translated from tests/models/bindings/test_sns.py by tools/gen_conformance.py. -/

set_option maxRecDepth 100000
set_option linter.unusedVariables false
namespace Verif.Conformance
open Verif Verif.Gen Verif.Pyd

/-- `test_sns_server_bindings_serialization`, tests/models/bindings/test_sns.py:213 -/
example : (do
  let v1 ← make .SNSServerBindings []
  check (eq (dump v1) (.dict [])) : Option Unit).isSome = true := by decide +kernel

/-- `test_sns_server_bindings_python_validation_error`, tests/models/bindings/test_sns.py:219 -/
example : (do
  raises (do
    discard (make .SNSServerBindings [(p!"some_field", (.str p!"value"))]) : Option Unit) : Option Unit).isSome = true := by decide +kernel

/-- `test_sns_server_bindings_yaml_validation_error`, tests/models/bindings/test_sns.py:224 -/
example : (do
  raises (do
    discard (load .SNSServerBindings (.dict [(p!"some_field", (.str p!"value"))])) : Option Unit) : Option Unit).isSome = true := by decide +kernel

/-- `test_sns_server_bindings_yaml_empty_validation`, tests/models/bindings/test_sns.py:234 -/
example : (do
  let v1 ← load .SNSServerBindings (.dict [])
  check (!(V.isNone v1)) : Option Unit).isSome = true := by decide +kernel

/-- `test_sns_channel_bindings_validation_case_channel_binding_minimal`, tests/models/bindings/test_sns.py:251 -/
example : (do
  let v1 ← load .SNSChannelBindings (.dict [(p!"name", (.str p!"user-signedup")), (p!"bindingVersion", (.str p!"1.0.0"))])
  check (!(V.isNone v1))
  let v2 ← get v1 p!"binding_version"
  check (eq v2 (.str p!"1.0.0")) : Option Unit).isSome = true := by decide +kernel

/-- `test_sns_channel_bindings_validation_case_channel_binding_with_policy`, tests/models/bindings/test_sns.py:251 -/
example : (do
  let v1 ← load .SNSChannelBindings (.dict [(p!"name", (.str p!"user-signedup")), (p!"policy", (.dict [(p!"statements", (.list [(.dict [(p!"effect", (.str p!"Allow")), (p!"principal", (.str p!"*")), (p!"action", (.str p!"SNS:Publish"))])]))])), (p!"bindingVersion", (.str p!"1.0.0"))])
  check (!(V.isNone v1))
  let v2 ← get v1 p!"binding_version"
  check (eq v2 (.str p!"1.0.0")) : Option Unit).isSome = true := by decide +kernel

/-- `test_sns_channel_bindings_serialization_case_sns_channel_binding_serialization_minimal`, tests/models/bindings/test_sns.py:267 -/
example : (do
  let v1 ← make .SNSChannelBindings [(p!"name", (.str p!"user-signedup"))]
  check (eq (dump v1) (.dict [(p!"name", (.str p!"user-signedup")), (p!"bindingVersion", (.str p!"1.0.0"))])) : Option Unit).isSome = true := by decide +kernel

/-- `test_sns_channel_bindings_serialization_case_sns_channel_binding_serialization_with_policy`, tests/models/bindings/test_sns.py:267 -/
example : (do
  let v1 ← make .SNSStatement [(p!"effect", (.str p!"Allow")), (p!"principal", (.str p!"*")), (p!"action", (.str p!"SNS:Publish"))]
  let v2 ← make .SNSPolicy [(p!"statements", (.list [v1]))]
  let v3 ← make .SNSChannelBindings [(p!"name", (.str p!"user-signedup")), (p!"policy", v2)]
  check (eq (dump v3) (.dict [(p!"name", (.str p!"user-signedup")), (p!"policy", (.dict [(p!"statements", (.list [(.dict [(p!"effect", (.str p!"Allow")), (p!"principal", (.str p!"*")), (p!"action", (.str p!"SNS:Publish"))])]))])), (p!"bindingVersion", (.str p!"1.0.0"))])) : Option Unit).isSome = true := by decide +kernel

/-- `test_sns_channel_bindings_serialization_case_sns_channel_binding_serialization_with_ordering`, tests/models/bindings/test_sns.py:267 -/
example : (do
  let v1 ← make .SNSOrdering [(p!"type", (.str p!"FIFO")), (p!"content_based_deduplication", (.bool true))]
  let v2 ← make .SNSChannelBindings [(p!"name", (.str p!"user-signedup-fifo")), (p!"ordering", v1)]
  check (eq (dump v2) (.dict [(p!"name", (.str p!"user-signedup-fifo")), (p!"ordering", (.dict [(p!"type", (.str p!"FIFO")), (p!"contentBasedDeduplication", (.bool true))])), (p!"bindingVersion", (.str p!"1.0.0"))])) : Option Unit).isSome = true := by decide +kernel

/-- `test_sns_channel_bindings_serialization_case_sns_channel_binding_serialization_with_tags`, tests/models/bindings/test_sns.py:267 -/
example : (do
  let v1 ← make .SNSChannelBindings [(p!"name", (.str p!"user-signedup")), (p!"tags", (.dict [(p!"Environment", (.str p!"production")), (p!"Team", (.str p!"backend"))]))]
  check (eq (dump v1) (.dict [(p!"name", (.str p!"user-signedup")), (p!"tags", (.dict [(p!"Environment", (.str p!"production")), (p!"Team", (.str p!"backend"))])), (p!"bindingVersion", (.str p!"1.0.0"))])) : Option Unit).isSome = true := by decide +kernel

/-- `test_sns_channel_binding_policy_validation`, tests/models/bindings/test_sns.py:276 -/
example : (do
  let v1 ← load .SNSChannelBindings (.dict [(p!"name", (.str p!"user-signedup")), (p!"policy", (.dict [(p!"statements", (.list [(.dict [(p!"effect", (.str p!"Allow")), (p!"principal", (.str p!"*")), (p!"action", (.str p!"SNS:Publish"))])]))])), (p!"bindingVersion", (.str p!"1.0.0"))])
  let v2 ← get v1 p!"name"
  check (eq v2 (.str p!"user-signedup"))
  let v3 ← get v1 p!"policy"
  check (!(V.isNone v3))
  let v4 ← get v1 p!"policy"
  check (isA .SNSPolicy v4)
  let v5 ← get v1 p!"binding_version"
  check (eq v5 (.str p!"1.0.0")) : Option Unit).isSome = true := by decide +kernel

/-- `test_sns_channel_binding_ordering_validation`, tests/models/bindings/test_sns.py:296 -/
example : (do
  let v1 ← load .SNSChannelBindings (.dict [(p!"name", (.str p!"user-signedup-fifo")), (p!"ordering", (.dict [(p!"type", (.str p!"FIFO")), (p!"contentBasedDeduplication", (.bool true))])), (p!"bindingVersion", (.str p!"1.0.0"))])
  let v2 ← get v1 p!"name"
  check (eq v2 (.str p!"user-signedup-fifo"))
  let v3 ← get v1 p!"ordering"
  check (!(V.isNone v3))
  let v4 ← get v1 p!"ordering"
  check (isA .SNSOrdering v4)
  let v5 ← get v1 p!"ordering"
  let v6 ← get v5 p!"type"
  check (eq v6 (.str p!"FIFO"))
  let v7 ← get v1 p!"ordering"
  let v8 ← get v7 p!"content_based_deduplication"
  check (eq v8 (.bool true))
  let v9 ← get v1 p!"binding_version"
  check (eq v9 (.str p!"1.0.0")) : Option Unit).isSome = true := by decide +kernel

/-- `test_sns_channel_binding_tags_validation`, tests/models/bindings/test_sns.py:316 -/
example : (do
  let v1 ← load .SNSChannelBindings (.dict [(p!"name", (.str p!"user-signedup")), (p!"tags", (.dict [(p!"Environment", (.str p!"production")), (p!"Team", (.str p!"backend"))])), (p!"bindingVersion", (.str p!"1.0.0"))])
  let v2 ← get v1 p!"name"
  check (eq v2 (.str p!"user-signedup"))
  let v3 ← get v1 p!"tags"
  check (eq v3 (.dict [(p!"Environment", (.str p!"production")), (p!"Team", (.str p!"backend"))]))
  let v4 ← get v1 p!"binding_version"
  check (eq v4 (.str p!"1.0.0")) : Option Unit).isSome = true := by decide +kernel

/-- `test_sns_channel_bindings_python_validation_error`, tests/models/bindings/test_sns.py:333 -/
example : (do
  raises (do
    discard (make .SNSChannelBindings [(p!"name", (.str p!"test")), (p!"invalid_field", (.str p!"value"))]) : Option Unit) : Option Unit).isSome = true := by decide +kernel

/-- `test_sns_channel_bindings_yaml_validation_error`, tests/models/bindings/test_sns.py:338 -/
example : (do
  raises (do
    discard (load .SNSChannelBindings (.dict [(p!"name", (.str p!"user-signedup")), (p!"invalid_field", (.str p!"value")), (p!"bindingVersion", (.str p!"1.0.0"))])) : Option Unit) : Option Unit).isSome = true := by decide +kernel

/-- `test_sns_operation_bindings_validation_case_operation_binding_with_consumers`, tests/models/bindings/test_sns.py:355 -/
example : (do
  let v1 ← load .SNSOperationBindings (.dict [(p!"consumers", (.list [(.dict [(p!"protocol", (.str p!"sqs")), (p!"endpoint", (.dict [(p!"name", (.str p!"myQueue"))])), (p!"rawMessageDelivery", (.bool false))])])), (p!"bindingVersion", (.str p!"1.0.0"))])
  check (!(V.isNone v1))
  let v2 ← get v1 p!"binding_version"
  check (eq v2 (.str p!"1.0.0")) : Option Unit).isSome = true := by decide +kernel

/-- `test_sns_operation_bindings_serialization_case_sns_operation_binding_serialization_with_consumers`, tests/models/bindings/test_sns.py:369 -/
example : (do
  let v1 ← make .SNSIdentifier [(p!"name", (.str p!"myQueue"))]
  let v2 ← make .SNSConsumer [(p!"protocol", (.str p!"sqs")), (p!"endpoint", v1), (p!"raw_message_delivery", (.bool false))]
  let v3 ← make .SNSOperationBindings [(p!"consumers", (.list [v2]))]
  check (eq (dump v3) (.dict [(p!"consumers", (.list [(.dict [(p!"protocol", (.str p!"sqs")), (p!"endpoint", (.dict [(p!"name", (.str p!"myQueue"))])), (p!"rawMessageDelivery", (.bool false))])])), (p!"bindingVersion", (.str p!"1.0.0"))])) : Option Unit).isSome = true := by decide +kernel

/-- `test_sns_operation_bindings_serialization_case_sns_operation_binding_serialization_with_topic`, tests/models/bindings/test_sns.py:369 -/
example : (do
  let v1 ← make .SNSIdentifier [(p!"arn", (.str p!"arn:aws:sns:us-east-1:123456789012:my-topic"))]
  let v2 ← make .SNSIdentifier [(p!"name", (.str p!"myQueue"))]
  let v3 ← make .SNSConsumer [(p!"protocol", (.str p!"sqs")), (p!"endpoint", v2), (p!"raw_message_delivery", (.bool false))]
  let v4 ← make .SNSOperationBindings [(p!"topic", v1), (p!"consumers", (.list [v3]))]
  check (eq (dump v4) (.dict [(p!"topic", (.dict [(p!"arn", (.str p!"arn:aws:sns:us-east-1:123456789012:my-topic"))])), (p!"consumers", (.list [(.dict [(p!"protocol", (.str p!"sqs")), (p!"endpoint", (.dict [(p!"name", (.str p!"myQueue"))])), (p!"rawMessageDelivery", (.bool false))])])), (p!"bindingVersion", (.str p!"1.0.0"))])) : Option Unit).isSome = true := by decide +kernel

/-- `test_sns_operation_binding_consumers_validation`, tests/models/bindings/test_sns.py:378 -/
example : (do
  let v1 ← load .SNSOperationBindings (.dict [(p!"consumers", (.list [(.dict [(p!"protocol", (.str p!"sqs")), (p!"endpoint", (.dict [(p!"name", (.str p!"myQueue"))])), (p!"rawMessageDelivery", (.bool false))])])), (p!"bindingVersion", (.str p!"1.0.0"))])
  let v2 ← get v1 p!"consumers"
  check (!(V.isNone v2))
  let v3 ← get v1 p!"consumers"
  check (len v3 == 1)
  let v4 ← get v1 p!"consumers"
  let v5 ← nth v4 0
  check (isA .SNSConsumer v5)
  let v6 ← get v1 p!"consumers"
  let v7 ← nth v6 0
  let v8 ← get v7 p!"protocol"
  check (eq v8 (.str p!"sqs"))
  let v9 ← get v1 p!"binding_version"
  check (eq v9 (.str p!"1.0.0")) : Option Unit).isSome = true := by decide +kernel

/-- `test_sns_operation_binding_topic_validation`, tests/models/bindings/test_sns.py:398 -/
example : (do
  let v1 ← load .SNSOperationBindings (.dict [(p!"topic", (.dict [(p!"arn", (.str p!"arn:aws:sns:us-east-1:123456789012:my-topic"))])), (p!"consumers", (.list [(.dict [(p!"protocol", (.str p!"sqs")), (p!"endpoint", (.dict [(p!"name", (.str p!"myQueue"))])), (p!"rawMessageDelivery", (.bool false))])])), (p!"bindingVersion", (.str p!"1.0.0"))])
  let v2 ← get v1 p!"topic"
  check (!(V.isNone v2))
  let v3 ← get v1 p!"topic"
  check (isA .SNSIdentifier v3)
  let v4 ← get v1 p!"topic"
  let v5 ← get v4 p!"arn"
  check (eq v5 (.str p!"arn:aws:sns:us-east-1:123456789012:my-topic"))
  let v6 ← get v1 p!"consumers"
  check (!(V.isNone v6))
  let v7 ← get v1 p!"consumers"
  check (len v7 == 1)
  let v8 ← get v1 p!"consumers"
  let v9 ← nth v8 0
  check (isA .SNSConsumer v9)
  let v10 ← get v1 p!"consumers"
  let v11 ← nth v10 0
  let v12 ← get v11 p!"protocol"
  check (eq v12 (.str p!"sqs"))
  let v13 ← get v1 p!"binding_version"
  check (eq v13 (.str p!"1.0.0")) : Option Unit).isSome = true := by decide +kernel

/-- `test_sns_operation_bindings_python_validation_error`, tests/models/bindings/test_sns.py:423 -/
example : (do
  raises (do
    discard (make .SNSOperationBindings [(p!"consumers", (.list [])), (p!"invalid_field", (.str p!"value"))]) : Option Unit) : Option Unit).isSome = true := by decide +kernel

/-- `test_sns_operation_bindings_yaml_validation_error`, tests/models/bindings/test_sns.py:428 -/
example : (do
  raises (do
    discard (load .SNSOperationBindings (.dict [(p!"consumers", (.list [(.dict [(p!"protocol", (.str p!"sqs")), (p!"endpoint", (.dict [(p!"name", (.str p!"myQueue"))])), (p!"rawMessageDelivery", (.bool false))])])), (p!"invalid_field", (.str p!"value")), (p!"bindingVersion", (.str p!"1.0.0"))])) : Option Unit) : Option Unit).isSome = true := by decide +kernel

/-- `test_sns_message_bindings_serialization`, tests/models/bindings/test_sns.py:448 -/
example : (do
  let v1 ← make .SNSMessageBindings []
  check (eq (dump v1) (.dict [])) : Option Unit).isSome = true := by decide +kernel

/-- `test_sns_message_bindings_python_validation_error`, tests/models/bindings/test_sns.py:454 -/
example : (do
  raises (do
    discard (make .SNSMessageBindings [(p!"some_field", (.str p!"value"))]) : Option Unit) : Option Unit).isSome = true := by decide +kernel

/-- `test_sns_message_bindings_yaml_validation_error`, tests/models/bindings/test_sns.py:459 -/
example : (do
  raises (do
    discard (load .SNSMessageBindings (.dict [(p!"some_field", (.str p!"value"))])) : Option Unit) : Option Unit).isSome = true := by decide +kernel

/-- `test_sns_message_bindings_yaml_empty_validation`, tests/models/bindings/test_sns.py:469 -/
example : (do
  let v1 ← load .SNSMessageBindings (.dict [])
  check (!(V.isNone v1)) : Option Unit).isSome = true := by decide +kernel

end Verif.Conformance
