import Verif.Conformance.Support

/-! Translated from tests/models/bindings/test_amqp.py by tools/gen_conformance.py. -/

set_option maxRecDepth 100000
set_option linter.unusedVariables false
namespace Verif.Conformance
open Verif Verif.Gen Verif.Pyd

/-- `test_amqp_server_bindings_serialization`, tests/models/bindings/test_amqp.py:209 -/
example : (do
  let v1 ← make .AMQPServerBindings []
  check (eq (dump v1) (.dict [])) : Option Unit).isSome = true := by decide +kernel

/-- `test_amqp_server_bindings_python_validation_error`, tests/models/bindings/test_amqp.py:215 -/
example : (do
  raises (do
    discard (make .AMQPServerBindings [(p!"some_field", (.str p!"value"))]) : Option Unit) : Option Unit).isSome = true := by decide +kernel

/-- `test_amqp_server_bindings_yaml_validation_error`, tests/models/bindings/test_amqp.py:220 -/
example : (do
  raises (do
    discard (load .AMQPServerBindings (.dict [(p!"some_field", (.str p!"value"))])) : Option Unit) : Option Unit).isSome = true := by decide +kernel

/-- `test_amqp_server_bindings_yaml_empty_validation`, tests/models/bindings/test_amqp.py:230 -/
example : (do
  let v1 ← load .AMQPServerBindings (.dict [])
  check (!(V.isNone v1)) : Option Unit).isSome = true := by decide +kernel

/-- `test_amqp_channel_bindings_validation_case_channel_binding_routing_key`, tests/models/bindings/test_amqp.py:247 -/
example : (do
  let v1 ← load .AMQPChannelBindings (.dict [(p!"is", (.str p!"routingKey")), (p!"exchange", (.dict [(p!"name", (.str p!"myExchange")), (p!"type", (.str p!"topic")), (p!"durable", (.bool true)), (p!"autoDelete", (.bool false)), (p!"vhost", (.str p!"/"))])), (p!"bindingVersion", (.str p!"0.3.0"))])
  check (!(V.isNone v1))
  let v2 ← get v1 p!"binding_version"
  check (eq v2 (.str p!"0.3.0")) : Option Unit).isSome = true := by decide +kernel

/-- `test_amqp_channel_bindings_validation_case_channel_binding_queue`, tests/models/bindings/test_amqp.py:247 -/
example : (do
  let v1 ← load .AMQPChannelBindings (.dict [(p!"is", (.str p!"queue")), (p!"queue", (.dict [(p!"name", (.str p!"my-queue-name")), (p!"durable", (.bool true)), (p!"exclusive", (.bool true)), (p!"autoDelete", (.bool false)), (p!"vhost", (.str p!"/"))])), (p!"bindingVersion", (.str p!"0.3.0"))])
  check (!(V.isNone v1))
  let v2 ← get v1 p!"binding_version"
  check (eq v2 (.str p!"0.3.0")) : Option Unit).isSome = true := by decide +kernel

/-- `test_amqp_channel_bindings_serialization_case_amqp_channel_binding_serialization_routing_key`, tests/models/bindings/test_amqp.py:261 -/
example : (do
  let v1 ← make .AMQPExchange [(p!"name", (.str p!"myExchange")), (p!"type", (.str p!"topic")), (p!"durable", (.bool true)), (p!"auto_delete", (.bool false)), (p!"vhost", (.str p!"/"))]
  let v2 ← make .AMQPChannelBindings [(p!"is_", (.str p!"routingKey")), (p!"exchange", v1)]
  check (eq (dump v2) (.dict [(p!"is", (.str p!"routingKey")), (p!"exchange", (.dict [(p!"name", (.str p!"myExchange")), (p!"type", (.str p!"topic")), (p!"durable", (.bool true)), (p!"autoDelete", (.bool false)), (p!"vhost", (.str p!"/"))])), (p!"bindingVersion", (.str p!"0.3.0"))])) : Option Unit).isSome = true := by decide +kernel

/-- `test_amqp_channel_bindings_serialization_case_amqp_channel_binding_serialization_queue`, tests/models/bindings/test_amqp.py:261 -/
example : (do
  let v1 ← make .AMQPQueue [(p!"name", (.str p!"my-queue-name")), (p!"durable", (.bool true)), (p!"exclusive", (.bool true)), (p!"auto_delete", (.bool false)), (p!"vhost", (.str p!"/"))]
  let v2 ← make .AMQPChannelBindings [(p!"is_", (.str p!"queue")), (p!"queue", v1)]
  check (eq (dump v2) (.dict [(p!"is", (.str p!"queue")), (p!"queue", (.dict [(p!"name", (.str p!"my-queue-name")), (p!"durable", (.bool true)), (p!"exclusive", (.bool true)), (p!"autoDelete", (.bool false)), (p!"vhost", (.str p!"/"))])), (p!"bindingVersion", (.str p!"0.3.0"))])) : Option Unit).isSome = true := by decide +kernel

/-- `test_amqp_channel_binding_exchange_validation`, tests/models/bindings/test_amqp.py:270 -/
example : (do
  let v1 ← load .AMQPChannelBindings (.dict [(p!"is", (.str p!"routingKey")), (p!"exchange", (.dict [(p!"name", (.str p!"myExchange")), (p!"type", (.str p!"topic")), (p!"durable", (.bool true)), (p!"autoDelete", (.bool false)), (p!"vhost", (.str p!"/"))])), (p!"bindingVersion", (.str p!"0.3.0"))])
  let v2 ← get v1 p!"exchange"
  check (!(V.isNone v2))
  let v3 ← get v1 p!"exchange"
  check (isA .AMQPExchange v3)
  let v4 ← get v1 p!"exchange"
  let v5 ← get v4 p!"name"
  check (eq v5 (.str p!"myExchange"))
  let v6 ← get v1 p!"exchange"
  let v7 ← get v6 p!"type"
  check (eq v7 (.str p!"topic"))
  let v8 ← get v1 p!"exchange"
  let v9 ← get v8 p!"durable"
  check (eq v9 (.bool true))
  let v10 ← get v1 p!"exchange"
  let v11 ← get v10 p!"auto_delete"
  check (eq v11 (.bool false))
  let v12 ← get v1 p!"exchange"
  let v13 ← get v12 p!"vhost"
  check (eq v13 (.str p!"/"))
  let v14 ← get v1 p!"binding_version"
  check (eq v14 (.str p!"0.3.0")) : Option Unit).isSome = true := by decide +kernel

/-- `test_amqp_channel_binding_queue_validation`, tests/models/bindings/test_amqp.py:295 -/
example : (do
  let v1 ← load .AMQPChannelBindings (.dict [(p!"is", (.str p!"queue")), (p!"queue", (.dict [(p!"name", (.str p!"my-queue-name")), (p!"durable", (.bool true)), (p!"exclusive", (.bool true)), (p!"autoDelete", (.bool false)), (p!"vhost", (.str p!"/"))])), (p!"bindingVersion", (.str p!"0.3.0"))])
  let v2 ← get v1 p!"queue"
  check (!(V.isNone v2))
  let v3 ← get v1 p!"queue"
  check (isA .AMQPQueue v3)
  let v4 ← get v1 p!"queue"
  let v5 ← get v4 p!"name"
  check (eq v5 (.str p!"my-queue-name"))
  let v6 ← get v1 p!"queue"
  let v7 ← get v6 p!"durable"
  check (eq v7 (.bool true))
  let v8 ← get v1 p!"queue"
  let v9 ← get v8 p!"exclusive"
  check (eq v9 (.bool true))
  let v10 ← get v1 p!"queue"
  let v11 ← get v10 p!"auto_delete"
  check (eq v11 (.bool false))
  let v12 ← get v1 p!"queue"
  let v13 ← get v12 p!"vhost"
  check (eq v13 (.str p!"/"))
  let v14 ← get v1 p!"binding_version"
  check (eq v14 (.str p!"0.3.0")) : Option Unit).isSome = true := by decide +kernel

/-- `test_amqp_channel_bindings_python_validation_error`, tests/models/bindings/test_amqp.py:320 -/
example : (do
  raises (do
    discard (make .AMQPChannelBindings [(p!"invalid_field", (.str p!"value"))]) : Option Unit) : Option Unit).isSome = true := by decide +kernel

/-- `test_amqp_channel_bindings_yaml_validation_error`, tests/models/bindings/test_amqp.py:325 -/
example : (do
  raises (do
    discard (load .AMQPChannelBindings (.dict [(p!"is", (.str p!"routingKey")), (p!"exchange", (.dict [(p!"name", (.str p!"myExchange")), (p!"type", (.str p!"topic"))])), (p!"invalid_field", (.str p!"value")), (p!"bindingVersion", (.str p!"0.3.0"))])) : Option Unit) : Option Unit).isSome = true := by decide +kernel

/-- `test_amqp_channel_bindings_validator_errors_case_amqp_channel_binding_validator_routing_key_without_exchange`, tests/models/bindings/test_amqp.py:410 -/
example : (do
  raises (do
    discard (load .AMQPChannelBindings (.dict [(p!"is", (.str p!"routingKey")), (p!"bindingVersion", (.str p!"0.3.0"))])) : Option Unit) : Option Unit).isSome = true := by decide +kernel

/-- `test_amqp_channel_bindings_validator_errors_case_amqp_channel_binding_validator_routing_key_with_queue`, tests/models/bindings/test_amqp.py:410 -/
example : (do
  raises (do
    discard (load .AMQPChannelBindings (.dict [(p!"is", (.str p!"routingKey")), (p!"exchange", (.dict [(p!"name", (.str p!"myExchange")), (p!"type", (.str p!"topic"))])), (p!"queue", (.dict [(p!"name", (.str p!"myQueue"))])), (p!"bindingVersion", (.str p!"0.3.0"))])) : Option Unit) : Option Unit).isSome = true := by decide +kernel

/-- `test_amqp_channel_bindings_validator_errors_case_amqp_channel_binding_validator_queue_without_queue`, tests/models/bindings/test_amqp.py:410 -/
example : (do
  raises (do
    discard (load .AMQPChannelBindings (.dict [(p!"is", (.str p!"queue")), (p!"bindingVersion", (.str p!"0.3.0"))])) : Option Unit) : Option Unit).isSome = true := by decide +kernel

/-- `test_amqp_channel_bindings_validator_errors_case_amqp_channel_binding_validator_queue_with_exchange`, tests/models/bindings/test_amqp.py:410 -/
example : (do
  raises (do
    discard (load .AMQPChannelBindings (.dict [(p!"is", (.str p!"queue")), (p!"queue", (.dict [(p!"name", (.str p!"myQueue"))])), (p!"exchange", (.dict [(p!"name", (.str p!"myExchange")), (p!"type", (.str p!"topic"))])), (p!"bindingVersion", (.str p!"0.3.0"))])) : Option Unit) : Option Unit).isSome = true := by decide +kernel

/-- `test_amqp_operation_bindings_validation_case_operation_binding_full`, tests/models/bindings/test_amqp.py:423 -/
example : (do
  let v1 ← load .AMQPOperationBindings (.dict [(p!"expiration", (.int (100000))), (p!"userId", (.str p!"guest")), (p!"cc", (.list [(.str p!"user.logs")])), (p!"priority", (.int (10))), (p!"deliveryMode", (.int (2))), (p!"mandatory", (.bool false)), (p!"bcc", (.list [(.str p!"external.audit")])), (p!"timestamp", (.bool true)), (p!"ack", (.bool false)), (p!"bindingVersion", (.str p!"0.3.0"))])
  check (!(V.isNone v1))
  let v2 ← get v1 p!"binding_version"
  check (eq v2 (.str p!"0.3.0")) : Option Unit).isSome = true := by decide +kernel

/-- `test_amqp_operation_binding_expiration_negative_validation_error`, tests/models/bindings/test_amqp.py:430 -/
example : (do
  raises (do
    discard (load .AMQPOperationBindings (.dict [(p!"expiration", (.int (-100))), (p!"bindingVersion", (.str p!"0.3.0"))])) : Option Unit) : Option Unit).isSome = true := by decide +kernel

/-- `test_amqp_operation_bindings_serialization_case_amqp_operation_binding_serialization_empty`, tests/models/bindings/test_amqp.py:450 -/
example : (do
  let v1 ← make .AMQPOperationBindings []
  check (eq (dump v1) (.dict [(p!"bindingVersion", (.str p!"0.3.0"))])) : Option Unit).isSome = true := by decide +kernel

/-- `test_amqp_operation_bindings_serialization_case_amqp_operation_binding_serialization_full`, tests/models/bindings/test_amqp.py:450 -/
example : (do
  let v1 ← make .AMQPOperationBindings [(p!"expiration", (.int (100000))), (p!"user_id", (.str p!"guest")), (p!"cc", (.list [(.str p!"user.logs")])), (p!"priority", (.int (10))), (p!"delivery_mode", (.int (2))), (p!"mandatory", (.bool false)), (p!"bcc", (.list [(.str p!"external.audit")])), (p!"timestamp", (.bool true)), (p!"ack", (.bool false))]
  check (eq (dump v1) (.dict [(p!"expiration", (.int (100000))), (p!"userId", (.str p!"guest")), (p!"cc", (.list [(.str p!"user.logs")])), (p!"priority", (.int (10))), (p!"deliveryMode", (.int (2))), (p!"mandatory", (.bool false)), (p!"bcc", (.list [(.str p!"external.audit")])), (p!"timestamp", (.bool true)), (p!"ack", (.bool false)), (p!"bindingVersion", (.str p!"0.3.0"))])) : Option Unit).isSome = true := by decide +kernel

/-- `test_amqp_operation_binding_all_fields_validation`, tests/models/bindings/test_amqp.py:459 -/
example : (do
  let v1 ← load .AMQPOperationBindings (.dict [(p!"expiration", (.int (100000))), (p!"userId", (.str p!"guest")), (p!"cc", (.list [(.str p!"user.logs")])), (p!"priority", (.int (10))), (p!"deliveryMode", (.int (2))), (p!"mandatory", (.bool false)), (p!"bcc", (.list [(.str p!"external.audit")])), (p!"timestamp", (.bool true)), (p!"ack", (.bool false)), (p!"bindingVersion", (.str p!"0.3.0"))])
  let v2 ← get v1 p!"expiration"
  check (eq v2 (.int (100000)))
  let v3 ← get v1 p!"user_id"
  check (eq v3 (.str p!"guest"))
  let v4 ← get v1 p!"cc"
  check (eq v4 (.list [(.str p!"user.logs")]))
  let v5 ← get v1 p!"priority"
  check (eq v5 (.int (10)))
  let v6 ← get v1 p!"delivery_mode"
  check (eq v6 (.int (2)))
  let v7 ← get v1 p!"mandatory"
  check (eq v7 (.bool false))
  let v8 ← get v1 p!"bcc"
  check (eq v8 (.list [(.str p!"external.audit")]))
  let v9 ← get v1 p!"timestamp"
  check (eq v9 (.bool true))
  let v10 ← get v1 p!"ack"
  check (eq v10 (.bool false))
  let v11 ← get v1 p!"binding_version"
  check (eq v11 (.str p!"0.3.0")) : Option Unit).isSome = true := by decide +kernel

/-- `test_amqp_operation_bindings_python_validation_error`, tests/models/bindings/test_amqp.py:488 -/
example : (do
  raises (do
    discard (make .AMQPOperationBindings [(p!"invalid_field", (.str p!"value"))]) : Option Unit) : Option Unit).isSome = true := by decide +kernel

/-- `test_amqp_operation_bindings_yaml_validation_error`, tests/models/bindings/test_amqp.py:493 -/
example : (do
  raises (do
    discard (load .AMQPOperationBindings (.dict [(p!"expiration", (.int (100000))), (p!"invalid_field", (.str p!"value")), (p!"bindingVersion", (.str p!"0.3.0"))])) : Option Unit) : Option Unit).isSome = true := by decide +kernel

/-- `test_amqp_message_bindings_validation_case_message_binding_full`, tests/models/bindings/test_amqp.py:510 -/
example : (do
  let v1 ← load .AMQPMessageBindings (.dict [(p!"contentEncoding", (.str p!"gzip")), (p!"messageType", (.str p!"user.signup")), (p!"bindingVersion", (.str p!"0.3.0"))])
  check (!(V.isNone v1))
  let v2 ← get v1 p!"binding_version"
  check (eq v2 (.str p!"0.3.0")) : Option Unit).isSome = true := by decide +kernel

/-- `test_amqp_message_bindings_serialization_case_amqp_message_binding_serialization_empty`, tests/models/bindings/test_amqp.py:524 -/
example : (do
  let v1 ← make .AMQPMessageBindings []
  check (eq (dump v1) (.dict [(p!"bindingVersion", (.str p!"0.3.0"))])) : Option Unit).isSome = true := by decide +kernel

/-- `test_amqp_message_bindings_serialization_case_amqp_message_binding_serialization_full`, tests/models/bindings/test_amqp.py:524 -/
example : (do
  let v1 ← make .AMQPMessageBindings [(p!"content_encoding", (.str p!"gzip")), (p!"message_type", (.str p!"user.signup"))]
  check (eq (dump v1) (.dict [(p!"contentEncoding", (.str p!"gzip")), (p!"messageType", (.str p!"user.signup")), (p!"bindingVersion", (.str p!"0.3.0"))])) : Option Unit).isSome = true := by decide +kernel

/-- `test_amqp_message_binding_all_fields_validation`, tests/models/bindings/test_amqp.py:533 -/
example : (do
  let v1 ← load .AMQPMessageBindings (.dict [(p!"contentEncoding", (.str p!"gzip")), (p!"messageType", (.str p!"user.signup")), (p!"bindingVersion", (.str p!"0.3.0"))])
  let v2 ← get v1 p!"content_encoding"
  check (eq v2 (.str p!"gzip"))
  let v3 ← get v1 p!"message_type"
  check (eq v3 (.str p!"user.signup"))
  let v4 ← get v1 p!"binding_version"
  check (eq v4 (.str p!"0.3.0")) : Option Unit).isSome = true := by decide +kernel

/-- `test_amqp_message_bindings_python_validation_error`, tests/models/bindings/test_amqp.py:548 -/
example : (do
  raises (do
    discard (make .AMQPMessageBindings [(p!"invalid_field", (.str p!"value"))]) : Option Unit) : Option Unit).isSome = true := by decide +kernel

/-- `test_amqp_message_bindings_yaml_validation_error`, tests/models/bindings/test_amqp.py:553 -/
example : (do
  raises (do
    discard (load .AMQPMessageBindings (.dict [(p!"contentEncoding", (.str p!"gzip")), (p!"invalid_field", (.str p!"value")), (p!"bindingVersion", (.str p!"0.3.0"))])) : Option Unit) : Option Unit).isSome = true := by decide +kernel

end Verif.Conformance
