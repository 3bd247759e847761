import Verif.Conformance.Support

/-! Translated from tests/models/bindings/test_jms.py by tools/gen_conformance.py. -/

set_option maxRecDepth 100000
set_option linter.unusedVariables false
namespace Verif.Conformance
open Verif Verif.Gen Verif.Pyd

/-- `test_jms_server_bindings_validation_case_server_binding_full`, tests/models/bindings/test_jms.py:185 -/
example : (do
  let v1 ← load .JMSServerBindings (.dict [(p!"jmsConnectionFactory", (.str p!"org.apache.activemq.ActiveMQConnectionFactory")), (p!"properties", (.list [(.dict [(p!"name", (.str p!"disableTimeStampsByDefault")), (p!"value", (.bool false))])])), (p!"clientID", (.str p!"my-application-1")), (p!"bindingVersion", (.str p!"0.0.1"))])
  check (!(V.isNone v1))
  let v2 ← get v1 p!"binding_version"
  check (eq v2 (.str p!"0.0.1")) : Option Unit).isSome = true := by decide +kernel

/-- `test_jms_server_bindings_serialization_case_jms_server_binding_serialization_full`, tests/models/bindings/test_jms.py:196 -/
example : (do
  let v1 ← make .Schema [(p!"type", (.str p!"string")), (p!"const", (.str p!"disableTimeStampsByDefault"))]
  let v2 ← make .Schema [(p!"type", (.str p!"boolean")), (p!"const", (.bool false))]
  let v3 ← make .Schema [(p!"type", (.str p!"object")), (p!"properties", (.dict [(p!"name", v1), (p!"value", v2)]))]
  let v4 ← make .JMSServerBindings [(p!"jms_connection_factory", (.str p!"org.apache.activemq.ActiveMQConnectionFactory")), (p!"properties", (.list [v3])), (p!"client_id", (.str p!"my-application-1"))]
  check (eq (dump v4) (.dict [(p!"jmsConnectionFactory", (.str p!"org.apache.activemq.ActiveMQConnectionFactory")), (p!"properties", (.list [(.dict [(p!"type", (.str p!"object")), (p!"properties", (.dict [(p!"name", (.dict [(p!"type", (.str p!"string")), (p!"const", (.str p!"disableTimeStampsByDefault"))])), (p!"value", (.dict [(p!"type", (.str p!"boolean")), (p!"const", (.bool false))]))]))])])), (p!"clientID", (.str p!"my-application-1")), (p!"bindingVersion", (.str p!"0.0.1"))])) : Option Unit).isSome = true := by decide +kernel

/-- `test_jms_server_binding_all_fields_validation`, tests/models/bindings/test_jms.py:205 -/
example : (do
  let v1 ← load .JMSServerBindings (.dict [(p!"jmsConnectionFactory", (.str p!"org.apache.activemq.ActiveMQConnectionFactory")), (p!"properties", (.list [(.dict [(p!"name", (.str p!"disableTimeStampsByDefault")), (p!"value", (.bool false))])])), (p!"clientID", (.str p!"my-application-1")), (p!"bindingVersion", (.str p!"0.0.1"))])
  let v2 ← get v1 p!"jms_connection_factory"
  check (eq v2 (.str p!"org.apache.activemq.ActiveMQConnectionFactory"))
  let v3 ← get v1 p!"properties"
  check (!(V.isNone v3))
  let v4 ← get v1 p!"properties"
  check (len v4 == 1)
  let v5 ← get v1 p!"client_id"
  check (eq v5 (.str p!"my-application-1"))
  let v6 ← get v1 p!"binding_version"
  check (eq v6 (.str p!"0.0.1")) : Option Unit).isSome = true := by decide +kernel

/-- `test_jms_server_bindings_python_validation_error`, tests/models/bindings/test_jms.py:228 -/
example : (do
  raises (do
    discard (make .JMSServerBindings [(p!"jms_connection_factory", (.str p!"test.factory")), (p!"some_field", (.str p!"value"))]) : Option Unit) : Option Unit).isSome = true := by decide +kernel

/-- `test_jms_server_bindings_yaml_validation_error`, tests/models/bindings/test_jms.py:233 -/
example : (do
  raises (do
    discard (load .JMSServerBindings (.dict [(p!"jmsConnectionFactory", (.str p!"test.factory")), (p!"some_field", (.str p!"value")), (p!"bindingVersion", (.str p!"0.0.1"))])) : Option Unit) : Option Unit).isSome = true := by decide +kernel

/-- `test_jms_channel_bindings_validation_case_channel_binding_fifo_queue`, tests/models/bindings/test_jms.py:250 -/
example : (do
  let v1 ← load .JMSChannelBindings (.dict [(p!"destination", (.str p!"user-sign-up")), (p!"destinationType", (.str p!"fifo-queue")), (p!"bindingVersion", (.str p!"0.0.1"))])
  check (!(V.isNone v1))
  let v2 ← get v1 p!"binding_version"
  check (eq v2 (.str p!"0.0.1")) : Option Unit).isSome = true := by decide +kernel

/-- `test_jms_channel_bindings_serialization_case_jms_channel_binding_serialization_empty`, tests/models/bindings/test_jms.py:264 -/
example : (do
  let v1 ← make .JMSChannelBindings []
  check (eq (dump v1) (.dict [(p!"bindingVersion", (.str p!"0.0.1"))])) : Option Unit).isSome = true := by decide +kernel

/-- `test_jms_channel_bindings_serialization_case_jms_channel_binding_serialization_fifo_queue`, tests/models/bindings/test_jms.py:264 -/
example : (do
  let v1 ← make .JMSChannelBindings [(p!"destination", (.str p!"user-sign-up")), (p!"destination_type", (.str p!"fifo-queue"))]
  check (eq (dump v1) (.dict [(p!"destination", (.str p!"user-sign-up")), (p!"destinationType", (.str p!"fifo-queue")), (p!"bindingVersion", (.str p!"0.0.1"))])) : Option Unit).isSome = true := by decide +kernel

/-- `test_jms_channel_binding_all_fields_validation`, tests/models/bindings/test_jms.py:273 -/
example : (do
  let v1 ← load .JMSChannelBindings (.dict [(p!"destination", (.str p!"user-sign-up")), (p!"destinationType", (.str p!"fifo-queue")), (p!"bindingVersion", (.str p!"0.0.1"))])
  let v2 ← get v1 p!"destination"
  check (eq v2 (.str p!"user-sign-up"))
  let v3 ← get v1 p!"destination_type"
  check (eq v3 (.str p!"fifo-queue"))
  let v4 ← get v1 p!"binding_version"
  check (eq v4 (.str p!"0.0.1")) : Option Unit).isSome = true := by decide +kernel

/-- `test_jms_channel_bindings_python_validation_error`, tests/models/bindings/test_jms.py:288 -/
example : (do
  raises (do
    discard (make .JMSChannelBindings [(p!"some_field", (.str p!"value"))]) : Option Unit) : Option Unit).isSome = true := by decide +kernel

/-- `test_jms_channel_bindings_yaml_validation_error`, tests/models/bindings/test_jms.py:293 -/
example : (do
  raises (do
    discard (load .JMSChannelBindings (.dict [(p!"some_field", (.str p!"value")), (p!"bindingVersion", (.str p!"0.0.1"))])) : Option Unit) : Option Unit).isSome = true := by decide +kernel

/-- `test_jms_operation_bindings_serialization`, tests/models/bindings/test_jms.py:308 -/
example : (do
  let v1 ← make .JMSOperationBindings []
  check (eq (dump v1) (.dict [])) : Option Unit).isSome = true := by decide +kernel

/-- `test_jms_operation_bindings_python_validation_error`, tests/models/bindings/test_jms.py:314 -/
example : (do
  raises (do
    discard (make .JMSOperationBindings [(p!"some_field", (.str p!"value"))]) : Option Unit) : Option Unit).isSome = true := by decide +kernel

/-- `test_jms_operation_bindings_yaml_validation_error`, tests/models/bindings/test_jms.py:319 -/
example : (do
  raises (do
    discard (load .JMSOperationBindings (.dict [(p!"some_field", (.str p!"value"))])) : Option Unit) : Option Unit).isSome = true := by decide +kernel

/-- `test_jms_operation_bindings_yaml_empty_validation`, tests/models/bindings/test_jms.py:329 -/
example : (do
  let v1 ← load .JMSOperationBindings (.dict [])
  check (!(V.isNone v1)) : Option Unit).isSome = true := by decide +kernel

/-- `test_jms_message_bindings_validation_case_message_binding_with_headers`, tests/models/bindings/test_jms.py:343 -/
example : (do
  let v1 ← load .JMSMessageBindings (.dict [(p!"headers", (.dict [(p!"required", (.list [(.str p!"JMSMessageID")])), (p!"properties", (.dict [(p!"JMSMessageID", (.dict [(p!"name", (.str p!"JMSMessageID")), (p!"description", (.str p!"A unique message identifier.")), (p!"type", (.str p!"string"))])), (p!"JMSReplyTo", (.dict [(p!"name", (.str p!"JMSReplyTo")), (p!"description", (.str p!"The queue or topic that the message sender expects replies to.")), (p!"type", (.str p!"string"))]))]))])), (p!"bindingVersion", (.str p!"0.0.1"))])
  check (!(V.isNone v1))
  let v2 ← get v1 p!"binding_version"
  check (eq v2 (.str p!"0.0.1")) : Option Unit).isSome = true := by decide +kernel

/-- `test_jms_message_bindings_serialization_case_jms_message_binding_serialization_empty`, tests/models/bindings/test_jms.py:357 -/
example : (do
  let v1 ← make .JMSMessageBindings []
  check (eq (dump v1) (.dict [(p!"bindingVersion", (.str p!"0.0.1"))])) : Option Unit).isSome = true := by decide +kernel

/-- `test_jms_message_bindings_serialization_case_jms_message_binding_serialization_with_headers`, tests/models/bindings/test_jms.py:357 -/
example : (do
  let v1 ← make .Schema [(p!"name", (.str p!"JMSMessageID")), (p!"description", (.str p!"A unique message identifier.")), (p!"type", (.str p!"string"))]
  let v2 ← make .Schema [(p!"name", (.str p!"JMSReplyTo")), (p!"description", (.str p!"The queue or topic that the message sender expects replies to.")), (p!"type", (.str p!"string"))]
  let v3 ← make .Schema [(p!"type", (.str p!"object")), (p!"required", (.list [(.str p!"JMSMessageID")])), (p!"properties", (.dict [(p!"JMSMessageID", v1), (p!"JMSReplyTo", v2)]))]
  let v4 ← make .JMSMessageBindings [(p!"headers", v3)]
  check (eq (dump v4) (.dict [(p!"headers", (.dict [(p!"type", (.str p!"object")), (p!"required", (.list [(.str p!"JMSMessageID")])), (p!"properties", (.dict [(p!"JMSMessageID", (.dict [(p!"name", (.str p!"JMSMessageID")), (p!"description", (.str p!"A unique message identifier.")), (p!"type", (.str p!"string"))])), (p!"JMSReplyTo", (.dict [(p!"name", (.str p!"JMSReplyTo")), (p!"description", (.str p!"The queue or topic that the message sender expects replies to.")), (p!"type", (.str p!"string"))]))]))])), (p!"bindingVersion", (.str p!"0.0.1"))])) : Option Unit).isSome = true := by decide +kernel

/-- `test_jms_message_binding_headers_schema_validation`, tests/models/bindings/test_jms.py:366 -/
example : (do
  let v1 ← load .JMSMessageBindings (.dict [(p!"headers", (.dict [(p!"type", (.str p!"object")), (p!"required", (.list [(.str p!"JMSMessageID")])), (p!"properties", (.dict [(p!"JMSMessageID", (.dict [(p!"name", (.str p!"JMSMessageID")), (p!"description", (.str p!"A unique message identifier.")), (p!"type", (.str p!"string"))]))]))])), (p!"bindingVersion", (.str p!"0.0.1"))])
  let v2 ← get v1 p!"headers"
  check (!(V.isNone v2))
  let v3 ← get v1 p!"headers"
  check (isA .Schema v3)
  let v4 ← get v1 p!"binding_version"
  check (eq v4 (.str p!"0.0.1")) : Option Unit).isSome = true := by decide +kernel

/-- `test_jms_message_bindings_python_validation_error`, tests/models/bindings/test_jms.py:388 -/
example : (do
  raises (do
    discard (make .JMSMessageBindings [(p!"some_field", (.str p!"value"))]) : Option Unit) : Option Unit).isSome = true := by decide +kernel

/-- `test_jms_message_bindings_yaml_validation_error`, tests/models/bindings/test_jms.py:393 -/
example : (do
  raises (do
    discard (load .JMSMessageBindings (.dict [(p!"some_field", (.str p!"value")), (p!"bindingVersion", (.str p!"0.0.1"))])) : Option Unit) : Option Unit).isSome = true := by decide +kernel

end Verif.Conformance
