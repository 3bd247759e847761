import Verif.Conformance.Support

/-! Translated from tests/models/bindings/test_sqs.py by tools/gen_conformance.py. -/

set_option maxRecDepth 100000
set_option linter.unusedVariables false
namespace Verif.Conformance
open Verif Verif.Gen Verif.Pyd

/-- `test_sqs_server_bindings_serialization`, tests/models/bindings/test_sqs.py:160 -/
example : (do
  let v1 ← make .SQSServerBindings []
  check (eq (dump v1) (.dict [])) : Option Unit).isSome = true := by decide +kernel

/-- `test_sqs_server_bindings_python_validation_error`, tests/models/bindings/test_sqs.py:166 -/
example : (do
  raises (do
    discard (make .SQSServerBindings [(p!"some_field", (.str p!"value"))]) : Option Unit) : Option Unit).isSome = true := by decide +kernel

/-- `test_sqs_server_bindings_yaml_validation_error`, tests/models/bindings/test_sqs.py:171 -/
example : (do
  raises (do
    discard (load .SQSServerBindings (.dict [(p!"some_field", (.str p!"value"))])) : Option Unit) : Option Unit).isSome = true := by decide +kernel

/-- `test_sqs_server_bindings_yaml_empty_validation`, tests/models/bindings/test_sqs.py:181 -/
example : (do
  let v1 ← load .SQSServerBindings (.dict [])
  check (!(V.isNone v1)) : Option Unit).isSome = true := by decide +kernel

/-- `test_sqs_channel_bindings_validation_case_channel_binding_with_queue`, tests/models/bindings/test_sqs.py:195 -/
example : (do
  let v1 ← load .SQSChannelBindings (.dict [(p!"queue", (.dict [(p!"name", (.str p!"user-signedup-queue")), (p!"fifoQueue", (.bool false)), (p!"receiveMessageWaitTime", (.int (4)))])), (p!"bindingVersion", (.str p!"0.3.0"))])
  check (!(V.isNone v1))
  let v2 ← get v1 p!"binding_version"
  check (eq v2 (.str p!"0.3.0")) : Option Unit).isSome = true := by decide +kernel

/-- `test_sqs_channel_bindings_serialization_case_sqs_channel_binding_serialization_with_queue`, tests/models/bindings/test_sqs.py:209 -/
example : (do
  let v1 ← make .SQSQueue [(p!"name", (.str p!"user-signedup-queue")), (p!"fifo_queue", (.bool false)), (p!"receive_message_wait_time", (.int (4)))]
  let v2 ← make .SQSChannelBindings [(p!"queue", v1)]
  check (eq (dump v2) (.dict [(p!"queue", (.dict [(p!"name", (.str p!"user-signedup-queue")), (p!"fifoQueue", (.bool false)), (p!"receiveMessageWaitTime", (.int (4)))])), (p!"bindingVersion", (.str p!"0.3.0"))])) : Option Unit).isSome = true := by decide +kernel

/-- `test_sqs_channel_bindings_serialization_case_sqs_channel_binding_serialization_with_dead_letter_queue`, tests/models/bindings/test_sqs.py:209 -/
example : (do
  let v1 ← make .SQSQueue [(p!"name", (.str p!"user-signedup-queue")), (p!"fifo_queue", (.bool false))]
  let v2 ← make .SQSQueue [(p!"name", (.str p!"user-signedup-dlq")), (p!"fifo_queue", (.bool false))]
  let v3 ← make .SQSChannelBindings [(p!"queue", v1), (p!"dead_letter_queue", v2)]
  check (eq (dump v3) (.dict [(p!"queue", (.dict [(p!"name", (.str p!"user-signedup-queue")), (p!"fifoQueue", (.bool false))])), (p!"deadLetterQueue", (.dict [(p!"name", (.str p!"user-signedup-dlq")), (p!"fifoQueue", (.bool false))])), (p!"bindingVersion", (.str p!"0.3.0"))])) : Option Unit).isSome = true := by decide +kernel

/-- `test_sqs_channel_binding_queue_validation`, tests/models/bindings/test_sqs.py:218 -/
example : (do
  let v1 ← load .SQSChannelBindings (.dict [(p!"queue", (.dict [(p!"name", (.str p!"user-signedup-queue")), (p!"fifoQueue", (.bool false)), (p!"receiveMessageWaitTime", (.int (4)))])), (p!"bindingVersion", (.str p!"0.3.0"))])
  let v2 ← get v1 p!"queue"
  check (!(V.isNone v2))
  let v3 ← get v1 p!"queue"
  check (isA .SQSQueue v3)
  let v4 ← get v1 p!"queue"
  let v5 ← get v4 p!"name"
  check (eq v5 (.str p!"user-signedup-queue"))
  let v6 ← get v1 p!"queue"
  let v7 ← get v6 p!"fifo_queue"
  check (eq v7 (.bool false))
  let v8 ← get v1 p!"queue"
  let v9 ← get v8 p!"receive_message_wait_time"
  check (eq v9 (.int (4)))
  let v10 ← get v1 p!"binding_version"
  check (eq v10 (.str p!"0.3.0")) : Option Unit).isSome = true := by decide +kernel

/-- `test_sqs_channel_binding_dead_letter_queue_validation`, tests/models/bindings/test_sqs.py:238 -/
example : (do
  let v1 ← load .SQSChannelBindings (.dict [(p!"queue", (.dict [(p!"name", (.str p!"user-signedup-queue")), (p!"fifoQueue", (.bool false))])), (p!"deadLetterQueue", (.dict [(p!"name", (.str p!"user-signedup-dlq")), (p!"fifoQueue", (.bool false)), (p!"messageRetentionPeriod", (.int (345600)))])), (p!"bindingVersion", (.str p!"0.3.0"))])
  let v2 ← get v1 p!"queue"
  check (!(V.isNone v2))
  let v3 ← get v1 p!"queue"
  check (isA .SQSQueue v3)
  let v4 ← get v1 p!"queue"
  let v5 ← get v4 p!"name"
  check (eq v5 (.str p!"user-signedup-queue"))
  let v6 ← get v1 p!"dead_letter_queue"
  check (!(V.isNone v6))
  let v7 ← get v1 p!"dead_letter_queue"
  check (isA .SQSQueue v7)
  let v8 ← get v1 p!"dead_letter_queue"
  let v9 ← get v8 p!"name"
  check (eq v9 (.str p!"user-signedup-dlq"))
  let v10 ← get v1 p!"dead_letter_queue"
  let v11 ← get v10 p!"message_retention_period"
  check (eq v11 (.int (345600)))
  let v12 ← get v1 p!"binding_version"
  check (eq v12 (.str p!"0.3.0")) : Option Unit).isSome = true := by decide +kernel

/-- `test_sqs_channel_bindings_python_validation_error`, tests/models/bindings/test_sqs.py:263 -/
example : (do
  raises (do
    let v1 ← make .SQSQueue [(p!"name", (.str p!"test")), (p!"fifo_queue", (.bool false))]
    discard (make .SQSChannelBindings [(p!"queue", v1), (p!"invalid_field", (.str p!"value"))]) : Option Unit) : Option Unit).isSome = true := by decide +kernel

/-- `test_sqs_channel_bindings_yaml_validation_error`, tests/models/bindings/test_sqs.py:271 -/
example : (do
  raises (do
    discard (load .SQSChannelBindings (.dict [(p!"queue", (.dict [(p!"name", (.str p!"user-signedup-queue")), (p!"fifoQueue", (.bool false))])), (p!"invalid_field", (.str p!"value")), (p!"bindingVersion", (.str p!"0.3.0"))])) : Option Unit) : Option Unit).isSome = true := by decide +kernel

/-- `test_sqs_operation_bindings_validation_case_operation_binding_with_queues`, tests/models/bindings/test_sqs.py:290 -/
example : (do
  let v1 ← load .SQSOperationBindings (.dict [(p!"queues", (.list [(.dict [(p!"name", (.str p!"my-queue")), (p!"fifoQueue", (.bool false))])])), (p!"bindingVersion", (.str p!"0.3.0"))])
  check (!(V.isNone v1))
  let v2 ← get v1 p!"binding_version"
  check (eq v2 (.str p!"0.3.0")) : Option Unit).isSome = true := by decide +kernel

/-- `test_sqs_operation_bindings_serialization_case_sqs_operation_binding_serialization_with_queues`, tests/models/bindings/test_sqs.py:304 -/
example : (do
  let v1 ← make .SQSQueue [(p!"name", (.str p!"my-queue")), (p!"fifo_queue", (.bool false))]
  let v2 ← make .SQSOperationBindings [(p!"queues", (.list [v1]))]
  check (eq (dump v2) (.dict [(p!"queues", (.list [(.dict [(p!"name", (.str p!"my-queue")), (p!"fifoQueue", (.bool false))])])), (p!"bindingVersion", (.str p!"0.3.0"))])) : Option Unit).isSome = true := by decide +kernel

/-- `test_sqs_operation_bindings_serialization_case_sqs_operation_binding_serialization_with_multiple_queues`, tests/models/bindings/test_sqs.py:304 -/
example : (do
  let v1 ← make .SQSQueue [(p!"name", (.str p!"primary-queue")), (p!"fifo_queue", (.bool false)), (p!"visibility_timeout", (.int (30)))]
  let v2 ← make .SQSQueue [(p!"name", (.str p!"dlq-queue")), (p!"fifo_queue", (.bool false)), (p!"message_retention_period", (.int (345600)))]
  let v3 ← make .SQSOperationBindings [(p!"queues", (.list [v1, v2]))]
  check (eq (dump v3) (.dict [(p!"queues", (.list [(.dict [(p!"name", (.str p!"primary-queue")), (p!"fifoQueue", (.bool false)), (p!"visibilityTimeout", (.int (30)))]), (.dict [(p!"name", (.str p!"dlq-queue")), (p!"fifoQueue", (.bool false)), (p!"messageRetentionPeriod", (.int (345600)))])])), (p!"bindingVersion", (.str p!"0.3.0"))])) : Option Unit).isSome = true := by decide +kernel

/-- `test_sqs_operation_binding_queues_validation`, tests/models/bindings/test_sqs.py:313 -/
example : (do
  let v1 ← load .SQSOperationBindings (.dict [(p!"queues", (.list [(.dict [(p!"name", (.str p!"my-queue")), (p!"fifoQueue", (.bool false))])])), (p!"bindingVersion", (.str p!"0.3.0"))])
  let v2 ← get v1 p!"queues"
  check (!(V.isNone v2))
  let v3 ← get v1 p!"queues"
  check (len v3 == 1)
  let v4 ← get v1 p!"queues"
  let v5 ← nth v4 0
  check (isA .SQSQueue v5)
  let v6 ← get v1 p!"queues"
  let v7 ← nth v6 0
  let v8 ← get v7 p!"name"
  check (eq v8 (.str p!"my-queue"))
  let v9 ← get v1 p!"binding_version"
  check (eq v9 (.str p!"0.3.0")) : Option Unit).isSome = true := by decide +kernel

/-- `test_sqs_operation_binding_multiple_queues_validation`, tests/models/bindings/test_sqs.py:331 -/
example : (do
  let v1 ← load .SQSOperationBindings (.dict [(p!"queues", (.list [(.dict [(p!"name", (.str p!"primary-queue")), (p!"fifoQueue", (.bool false)), (p!"visibilityTimeout", (.int (30)))]), (.dict [(p!"name", (.str p!"dlq-queue")), (p!"fifoQueue", (.bool false)), (p!"messageRetentionPeriod", (.int (345600)))])])), (p!"bindingVersion", (.str p!"0.3.0"))])
  let v2 ← get v1 p!"queues"
  check (!(V.isNone v2))
  let v3 ← get v1 p!"queues"
  check (len v3 == 2)
  let v4 ← get v1 p!"queues"
  let v5 ← nth v4 0
  check (isA .SQSQueue v5)
  let v6 ← get v1 p!"queues"
  let v7 ← nth v6 0
  let v8 ← get v7 p!"name"
  check (eq v8 (.str p!"primary-queue"))
  let v9 ← get v1 p!"queues"
  let v10 ← nth v9 0
  let v11 ← get v10 p!"visibility_timeout"
  check (eq v11 (.int (30)))
  let v12 ← get v1 p!"queues"
  let v13 ← nth v12 1
  check (isA .SQSQueue v13)
  let v14 ← get v1 p!"queues"
  let v15 ← nth v14 1
  let v16 ← get v15 p!"name"
  check (eq v16 (.str p!"dlq-queue"))
  let v17 ← get v1 p!"queues"
  let v18 ← nth v17 1
  let v19 ← get v18 p!"message_retention_period"
  check (eq v19 (.int (345600)))
  let v20 ← get v1 p!"binding_version"
  check (eq v20 (.str p!"0.3.0")) : Option Unit).isSome = true := by decide +kernel

/-- `test_sqs_operation_bindings_python_validation_error`, tests/models/bindings/test_sqs.py:357 -/
example : (do
  raises (do
    let v1 ← make .SQSQueue [(p!"name", (.str p!"test")), (p!"fifo_queue", (.bool false))]
    discard (make .SQSOperationBindings [(p!"queues", (.list [v1])), (p!"invalid_field", (.str p!"value"))]) : Option Unit) : Option Unit).isSome = true := by decide +kernel

/-- `test_sqs_operation_bindings_yaml_validation_error`, tests/models/bindings/test_sqs.py:365 -/
example : (do
  raises (do
    discard (load .SQSOperationBindings (.dict [(p!"queues", (.list [(.dict [(p!"name", (.str p!"my-queue")), (p!"fifoQueue", (.bool false))])])), (p!"invalid_field", (.str p!"value")), (p!"bindingVersion", (.str p!"0.3.0"))])) : Option Unit) : Option Unit).isSome = true := by decide +kernel

/-- `test_sqs_message_bindings_serialization`, tests/models/bindings/test_sqs.py:383 -/
example : (do
  let v1 ← make .SQSMessageBindings []
  check (eq (dump v1) (.dict [])) : Option Unit).isSome = true := by decide +kernel

/-- `test_sqs_message_bindings_python_validation_error`, tests/models/bindings/test_sqs.py:389 -/
example : (do
  raises (do
    discard (make .SQSMessageBindings [(p!"some_field", (.str p!"value"))]) : Option Unit) : Option Unit).isSome = true := by decide +kernel

/-- `test_sqs_message_bindings_yaml_validation_error`, tests/models/bindings/test_sqs.py:394 -/
example : (do
  raises (do
    discard (load .SQSMessageBindings (.dict [(p!"some_field", (.str p!"value"))])) : Option Unit) : Option Unit).isSome = true := by decide +kernel

/-- `test_sqs_message_bindings_yaml_empty_validation`, tests/models/bindings/test_sqs.py:404 -/
example : (do
  let v1 ← load .SQSMessageBindings (.dict [])
  check (!(V.isNone v1)) : Option Unit).isSome = true := by decide +kernel

end Verif.Conformance
