import Verif.Conformance.Support

/-! Translated from tests/models/bindings/test_ibmmq.py by tools/gen_conformance.py. -/

set_option maxRecDepth 100000
set_option linter.unusedVariables false
namespace Verif.Conformance
open Verif Verif.Gen Verif.Pyd

/-- `test_ibmmq_server_bindings_validation_case_server_binding_with_group_id`, tests/models/bindings/test_ibmmq.py:275 -/
example : (do
  let v1 ← load .IBMMQServerBindings (.dict [(p!"groupId", (.str p!"PRODCLSTR1")), (p!"cipherSpec", (.str p!"ANY_TLS12_OR_HIGHER")), (p!"bindingVersion", (.str p!"0.1.0"))])
  check (!(V.isNone v1))
  let v2 ← get v1 p!"binding_version"
  check (eq v2 (.str p!"0.1.0")) : Option Unit).isSome = true := by decide +kernel

/-- `test_ibmmq_server_bindings_serialization_case_ibmmq_server_binding_serialization_empty`, tests/models/bindings/test_ibmmq.py:289 -/
example : (do
  let v1 ← make .IBMMQServerBindings []
  check (eq (dump v1) (.dict [(p!"bindingVersion", (.str p!"0.1.0"))])) : Option Unit).isSome = true := by decide +kernel

/-- `test_ibmmq_server_bindings_serialization_case_ibmmq_server_binding_serialization_with_group_id`, tests/models/bindings/test_ibmmq.py:289 -/
example : (do
  let v1 ← make .IBMMQServerBindings [(p!"group_id", (.str p!"PRODCLSTR1")), (p!"cipher_spec", (.str p!"ANY_TLS12_OR_HIGHER"))]
  check (eq (dump v1) (.dict [(p!"groupId", (.str p!"PRODCLSTR1")), (p!"cipherSpec", (.str p!"ANY_TLS12_OR_HIGHER")), (p!"bindingVersion", (.str p!"0.1.0"))])) : Option Unit).isSome = true := by decide +kernel

/-- `test_ibmmq_server_bindings_python_validation_error`, tests/models/bindings/test_ibmmq.py:298 -/
example : (do
  raises (do
    discard (make .IBMMQServerBindings [(p!"group_id", (.str p!"test")), (p!"invalid_field", (.str p!"value"))]) : Option Unit) : Option Unit).isSome = true := by decide +kernel

/-- `test_ibmmq_server_bindings_yaml_validation_error`, tests/models/bindings/test_ibmmq.py:303 -/
example : (do
  raises (do
    discard (load .IBMMQServerBindings (.dict [(p!"groupId", (.str p!"PRODCLSTR1")), (p!"invalid_field", (.str p!"value")), (p!"bindingVersion", (.str p!"0.1.0"))])) : Option Unit) : Option Unit).isSome = true := by decide +kernel

/-- `test_ibmmq_channel_bindings_validation_case_channel_binding_topic`, tests/models/bindings/test_ibmmq.py:323 -/
example : (do
  let v1 ← load .IBMMQChannelBindings (.dict [(p!"destinationType", (.str p!"topic")), (p!"topic", (.dict [(p!"objectName", (.str p!"myTopicName"))])), (p!"bindingVersion", (.str p!"0.1.0"))])
  check (!(V.isNone v1))
  let v2 ← get v1 p!"binding_version"
  check (eq v2 (.str p!"0.1.0")) : Option Unit).isSome = true := by decide +kernel

/-- `test_ibmmq_channel_bindings_validation_case_channel_binding_queue`, tests/models/bindings/test_ibmmq.py:323 -/
example : (do
  let v1 ← load .IBMMQChannelBindings (.dict [(p!"destinationType", (.str p!"queue")), (p!"queue", (.dict [(p!"objectName", (.str p!"myQueueName")), (p!"isPartitioned", (.bool false)), (p!"exclusive", (.bool false))])), (p!"bindingVersion", (.str p!"0.1.0"))])
  check (!(V.isNone v1))
  let v2 ← get v1 p!"binding_version"
  check (eq v2 (.str p!"0.1.0")) : Option Unit).isSome = true := by decide +kernel

/-- `test_ibmmq_channel_bindings_serialization_case_ibmmq_channel_binding_serialization_topic`, tests/models/bindings/test_ibmmq.py:337 -/
example : (do
  let v1 ← make .IBMMQTopic [(p!"object_name", (.str p!"myTopicName"))]
  let v2 ← make .IBMMQChannelBindings [(p!"destination_type", (.str p!"topic")), (p!"topic", v1)]
  check (eq (dump v2) (.dict [(p!"destinationType", (.str p!"topic")), (p!"topic", (.dict [(p!"objectName", (.str p!"myTopicName")), (p!"durablePermitted", (.bool true)), (p!"lastMsgRetained", (.bool false))])), (p!"bindingVersion", (.str p!"0.1.0"))])) : Option Unit).isSome = true := by decide +kernel

/-- `test_ibmmq_channel_bindings_serialization_case_ibmmq_channel_binding_serialization_queue`, tests/models/bindings/test_ibmmq.py:337 -/
example : (do
  let v1 ← make .IBMMQQueue [(p!"object_name", (.str p!"myQueueName")), (p!"is_partitioned", (.bool false)), (p!"exclusive", (.bool false))]
  let v2 ← make .IBMMQChannelBindings [(p!"destination_type", (.str p!"queue")), (p!"queue", v1)]
  check (eq (dump v2) (.dict [(p!"destinationType", (.str p!"queue")), (p!"queue", (.dict [(p!"objectName", (.str p!"myQueueName")), (p!"isPartitioned", (.bool false)), (p!"exclusive", (.bool false))])), (p!"bindingVersion", (.str p!"0.1.0"))])) : Option Unit).isSome = true := by decide +kernel

/-- `test_ibmmq_channel_binding_queue_validation`, tests/models/bindings/test_ibmmq.py:346 -/
example : (do
  let v1 ← load .IBMMQChannelBindings (.dict [(p!"destinationType", (.str p!"queue")), (p!"queue", (.dict [(p!"objectName", (.str p!"myQueueName")), (p!"isPartitioned", (.bool false)), (p!"exclusive", (.bool false))])), (p!"bindingVersion", (.str p!"0.1.0"))])
  let v2 ← get v1 p!"queue"
  check (!(V.isNone v2))
  let v3 ← get v1 p!"queue"
  check (isA .IBMMQQueue v3)
  let v4 ← get v1 p!"queue"
  let v5 ← get v4 p!"object_name"
  check (eq v5 (.str p!"myQueueName"))
  let v6 ← get v1 p!"queue"
  let v7 ← get v6 p!"is_partitioned"
  check (eq v7 (.bool false))
  let v8 ← get v1 p!"queue"
  let v9 ← get v8 p!"exclusive"
  check (eq v9 (.bool false))
  let v10 ← get v1 p!"binding_version"
  check (eq v10 (.str p!"0.1.0")) : Option Unit).isSome = true := by decide +kernel

/-- `test_ibmmq_channel_binding_topic_validation`, tests/models/bindings/test_ibmmq.py:367 -/
example : (do
  let v1 ← load .IBMMQChannelBindings (.dict [(p!"destinationType", (.str p!"topic")), (p!"topic", (.dict [(p!"objectName", (.str p!"myTopicName"))])), (p!"bindingVersion", (.str p!"0.1.0"))])
  let v2 ← get v1 p!"topic"
  check (!(V.isNone v2))
  let v3 ← get v1 p!"topic"
  check (isA .IBMMQTopic v3)
  let v4 ← get v1 p!"topic"
  let v5 ← get v4 p!"object_name"
  check (eq v5 (.str p!"myTopicName"))
  let v6 ← get v1 p!"binding_version"
  check (eq v6 (.str p!"0.1.0")) : Option Unit).isSome = true := by decide +kernel

/-- `test_ibmmq_channel_bindings_python_validation_error`, tests/models/bindings/test_ibmmq.py:384 -/
example : (do
  raises (do
    let v1 ← make .IBMMQQueue [(p!"object_name", (.str p!"test"))]
    discard (make .IBMMQChannelBindings [(p!"destination_type", (.str p!"queue")), (p!"queue", v1), (p!"invalid_field", (.str p!"value"))]) : Option Unit) : Option Unit).isSome = true := by decide +kernel

/-- `test_ibmmq_channel_bindings_yaml_validation_error`, tests/models/bindings/test_ibmmq.py:393 -/
example : (do
  raises (do
    discard (load .IBMMQChannelBindings (.dict [(p!"destinationType", (.str p!"topic")), (p!"topic", (.dict [(p!"objectName", (.str p!"myTopicName"))])), (p!"invalid_field", (.str p!"value")), (p!"bindingVersion", (.str p!"0.1.0"))])) : Option Unit) : Option Unit).isSome = true := by decide +kernel

/-- `test_ibmmq_operation_bindings_serialization`, tests/models/bindings/test_ibmmq.py:411 -/
example : (do
  let v1 ← make .IBMMQOperationBindings []
  check (eq (dump v1) (.dict [])) : Option Unit).isSome = true := by decide +kernel

/-- `test_ibmmq_operation_bindings_python_validation_error`, tests/models/bindings/test_ibmmq.py:417 -/
example : (do
  raises (do
    discard (make .IBMMQOperationBindings [(p!"some_field", (.str p!"value"))]) : Option Unit) : Option Unit).isSome = true := by decide +kernel

/-- `test_ibmmq_operation_bindings_yaml_validation_error`, tests/models/bindings/test_ibmmq.py:422 -/
example : (do
  raises (do
    discard (load .IBMMQOperationBindings (.dict [(p!"some_field", (.str p!"value"))])) : Option Unit) : Option Unit).isSome = true := by decide +kernel

/-- `test_ibmmq_operation_bindings_yaml_empty_validation`, tests/models/bindings/test_ibmmq.py:432 -/
example : (do
  let v1 ← load .IBMMQOperationBindings (.dict [])
  check (!(V.isNone v1)) : Option Unit).isSome = true := by decide +kernel

/-- `test_ibmmq_message_bindings_validation_case_message_binding_string`, tests/models/bindings/test_ibmmq.py:446 -/
example : (do
  let v1 ← load .IBMMQMessageBindings (.dict [(p!"type", (.str p!"string")), (p!"bindingVersion", (.str p!"0.1.0"))])
  check (!(V.isNone v1))
  let v2 ← get v1 p!"binding_version"
  check (eq v2 (.str p!"0.1.0")) : Option Unit).isSome = true := by decide +kernel

/-- `test_ibmmq_message_bindings_serialization_case_ibmmq_message_binding_serialization_empty`, tests/models/bindings/test_ibmmq.py:460 -/
example : (do
  let v1 ← make .IBMMQMessageBindings []
  check (eq (dump v1) (.dict [(p!"bindingVersion", (.str p!"0.1.0")), (p!"type", (.str p!"string"))])) : Option Unit).isSome = true := by decide +kernel

/-- `test_ibmmq_message_bindings_serialization_case_ibmmq_message_binding_serialization_string`, tests/models/bindings/test_ibmmq.py:460 -/
example : (do
  let v1 ← make .IBMMQMessageBindings [(p!"type", (.str p!"string"))]
  check (eq (dump v1) (.dict [(p!"type", (.str p!"string")), (p!"bindingVersion", (.str p!"0.1.0"))])) : Option Unit).isSome = true := by decide +kernel

/-- `test_ibmmq_message_bindings_python_validation_error`, tests/models/bindings/test_ibmmq.py:469 -/
example : (do
  raises (do
    discard (make .IBMMQMessageBindings [(p!"type", (.str p!"string")), (p!"invalid_field", (.str p!"value"))]) : Option Unit) : Option Unit).isSome = true := by decide +kernel

/-- `test_ibmmq_message_bindings_yaml_validation_error`, tests/models/bindings/test_ibmmq.py:474 -/
example : (do
  raises (do
    discard (load .IBMMQMessageBindings (.dict [(p!"type", (.str p!"string")), (p!"invalid_field", (.str p!"value")), (p!"bindingVersion", (.str p!"0.1.0"))])) : Option Unit) : Option Unit).isSome = true := by decide +kernel

/-- `test_ibmmq_server_bindings_validator_errors_case_server_binding_heart_beat_interval_too_low`, tests/models/bindings/test_ibmmq.py:497 -/
example : (do
  raises (do
    discard (load .IBMMQServerBindings (.dict [(p!"heartBeatInterval", (.int (-1))), (p!"bindingVersion", (.str p!"0.1.0"))])) : Option Unit) : Option Unit).isSome = true := by decide +kernel

/-- `test_ibmmq_server_bindings_validator_errors_case_server_binding_heart_beat_interval_too_high`, tests/models/bindings/test_ibmmq.py:497 -/
example : (do
  raises (do
    discard (load .IBMMQServerBindings (.dict [(p!"heartBeatInterval", (.int (1000000))), (p!"bindingVersion", (.str p!"0.1.0"))])) : Option Unit) : Option Unit).isSome = true := by decide +kernel

/-- `test_ibmmq_channel_bindings_field_validator_errors_case_channel_binding_max_msg_length_too_low`, tests/models/bindings/test_ibmmq.py:516 -/
example : (do
  raises (do
    discard (load .IBMMQChannelBindings (.dict [(p!"destinationType", (.str p!"topic")), (p!"maxMsgLength", (.int (-1))), (p!"bindingVersion", (.str p!"0.1.0"))])) : Option Unit) : Option Unit).isSome = true := by decide +kernel

/-- `test_ibmmq_channel_bindings_field_validator_errors_case_channel_binding_max_msg_length_too_high`, tests/models/bindings/test_ibmmq.py:516 -/
example : (do
  raises (do
    discard (load .IBMMQChannelBindings (.dict [(p!"destinationType", (.str p!"topic")), (p!"maxMsgLength", (.int (104857601))), (p!"bindingVersion", (.str p!"0.1.0"))])) : Option Unit) : Option Unit).isSome = true := by decide +kernel

/-- `test_ibmmq_channel_bindings_model_validator_errors_case_channel_binding_queue_and_topic_coexist`, tests/models/bindings/test_ibmmq.py:531 -/
example : (do
  raises (do
    discard (load .IBMMQChannelBindings (.dict [(p!"destinationType", (.str p!"topic")), (p!"queue", (.dict [(p!"objectName", (.str p!"myQueue"))])), (p!"topic", (.dict [(p!"objectName", (.str p!"myTopic"))])), (p!"bindingVersion", (.str p!"0.1.0"))])) : Option Unit) : Option Unit).isSome = true := by decide +kernel

/-- `test_ibmmq_channel_bindings_model_validator_errors_case_channel_binding_queue_destination_type_without_queue`, tests/models/bindings/test_ibmmq.py:531 -/
example : (do
  raises (do
    discard (load .IBMMQChannelBindings (.dict [(p!"destinationType", (.str p!"queue")), (p!"bindingVersion", (.str p!"0.1.0"))])) : Option Unit) : Option Unit).isSome = true := by decide +kernel

/-- `test_ibmmq_message_bindings_field_validator_errors_case_message_binding_expiry_negative`, tests/models/bindings/test_ibmmq.py:549 -/
example : (do
  raises (do
    discard (load .IBMMQMessageBindings (.dict [(p!"type", (.str p!"binary")), (p!"expiry", (.int (-1))), (p!"bindingVersion", (.str p!"0.1.0"))])) : Option Unit) : Option Unit).isSome = true := by decide +kernel

/-- `test_ibmmq_message_bindings_model_validator_errors_case_message_binding_headers_with_string_type`, tests/models/bindings/test_ibmmq.py:564 -/
example : (do
  raises (do
    discard (load .IBMMQMessageBindings (.dict [(p!"type", (.str p!"string")), (p!"headers", (.str p!"some_headers")), (p!"bindingVersion", (.str p!"0.1.0"))])) : Option Unit) : Option Unit).isSome = true := by decide +kernel

/-- `test_ibmmq_message_bindings_model_validator_errors_case_message_binding_headers_with_jms_type`, tests/models/bindings/test_ibmmq.py:564 -/
example : (do
  raises (do
    discard (load .IBMMQMessageBindings (.dict [(p!"type", (.str p!"jms")), (p!"headers", (.str p!"some_headers")), (p!"bindingVersion", (.str p!"0.1.0"))])) : Option Unit) : Option Unit).isSome = true := by decide +kernel

end Verif.Conformance
