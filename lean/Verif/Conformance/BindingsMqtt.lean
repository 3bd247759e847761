import Verif.Conformance.Support

/-! Translated from tests/models/bindings/test_mqtt.py by tools/gen_conformance.py. -/

set_option maxRecDepth 100000
set_option linter.unusedVariables false
namespace Verif.Conformance
open Verif Verif.Gen Verif.Pyd

/-- `test_mqtt_server_bindings_validation_case_server_binding_full`, tests/models/bindings/test_mqtt.py:312 -/
example : (do
  let v1 ← load .MQTTServerBindings (.dict [(p!"clientId", (.str p!"guest")), (p!"cleanSession", (.bool true)), (p!"lastWill", (.dict [(p!"topic", (.str p!"/last-wills")), (p!"qos", (.int (2))), (p!"message", (.str p!"Guest gone offline.")), (p!"retain", (.bool false))])), (p!"keepAlive", (.int (60))), (p!"sessionExpiryInterval", (.int (600))), (p!"maximumPacketSize", (.int (1200))), (p!"bindingVersion", (.str p!"0.2.0"))])
  check (!(V.isNone v1))
  let v2 ← get v1 p!"binding_version"
  check (eq v2 (.str p!"0.2.0")) : Option Unit).isSome = true := by decide +kernel

/-- `test_mqtt_server_bindings_validation_case_server_binding_with_schema`, tests/models/bindings/test_mqtt.py:312 -/
example : (do
  let v1 ← load .MQTTServerBindings (.dict [(p!"sessionExpiryInterval", (.dict [(p!"type", (.str p!"integer")), (p!"minimum", (.int (30))), (p!"maximum", (.int (1200)))])), (p!"maximumPacketSize", (.dict [(p!"type", (.str p!"integer")), (p!"minimum", (.int (256)))])), (p!"bindingVersion", (.str p!"0.2.0"))])
  check (!(V.isNone v1))
  let v2 ← get v1 p!"binding_version"
  check (eq v2 (.str p!"0.2.0")) : Option Unit).isSome = true := by decide +kernel

/-- `test_mqtt_server_bindings_serialization_case_mqtt_server_binding_serialization_empty`, tests/models/bindings/test_mqtt.py:327 -/
example : (do
  let v1 ← make .MQTTServerBindings []
  check (eq (dump v1) (.dict [(p!"bindingVersion", (.str p!"0.2.0"))])) : Option Unit).isSome = true := by decide +kernel

/-- `test_mqtt_server_bindings_serialization_case_mqtt_server_binding_serialization_full`, tests/models/bindings/test_mqtt.py:327 -/
example : (do
  let v1 ← make .MQTTLastWill [(p!"topic", (.str p!"/last-wills")), (p!"qos", (.int (2))), (p!"message", (.str p!"Guest gone offline.")), (p!"retain", (.bool false))]
  let v2 ← make .MQTTServerBindings [(p!"client_id", (.str p!"guest")), (p!"clean_session", (.bool true)), (p!"last_will", v1), (p!"keep_alive", (.int (60))), (p!"session_expiry_interval", (.int (600))), (p!"maximum_packet_size", (.int (1200)))]
  check (eq (dump v2) (.dict [(p!"clientId", (.str p!"guest")), (p!"cleanSession", (.bool true)), (p!"lastWill", (.dict [(p!"topic", (.str p!"/last-wills")), (p!"qos", (.int (2))), (p!"message", (.str p!"Guest gone offline.")), (p!"retain", (.bool false))])), (p!"keepAlive", (.int (60))), (p!"sessionExpiryInterval", (.int (600))), (p!"maximumPacketSize", (.int (1200))), (p!"bindingVersion", (.str p!"0.2.0"))])) : Option Unit).isSome = true := by decide +kernel

/-- `test_mqtt_server_bindings_serialization_case_mqtt_server_binding_serialization_with_schema`, tests/models/bindings/test_mqtt.py:327 -/
example : (do
  let v1 ← make .Schema [(p!"type", (.str p!"integer")), (p!"minimum", (.int (30))), (p!"maximum", (.int (1200)))]
  let v2 ← make .Schema [(p!"type", (.str p!"integer")), (p!"minimum", (.int (256)))]
  let v3 ← make .MQTTServerBindings [(p!"session_expiry_interval", v1), (p!"maximum_packet_size", v2)]
  check (eq (dump v3) (.dict [(p!"sessionExpiryInterval", (.dict [(p!"type", (.str p!"integer")), (p!"minimum", (.int (30))), (p!"maximum", (.int (1200)))])), (p!"maximumPacketSize", (.dict [(p!"type", (.str p!"integer")), (p!"minimum", (.int (256)))])), (p!"bindingVersion", (.str p!"0.2.0"))])) : Option Unit).isSome = true := by decide +kernel

/-- `test_mqtt_server_binding_last_will_validation`, tests/models/bindings/test_mqtt.py:336 -/
example : (do
  let v1 ← load .MQTTServerBindings (.dict [(p!"lastWill", (.dict [(p!"topic", (.str p!"/last-wills")), (p!"qos", (.int (2))), (p!"message", (.str p!"Guest gone offline.")), (p!"retain", (.bool false))])), (p!"bindingVersion", (.str p!"0.2.0"))])
  let v2 ← get v1 p!"last_will"
  check (!(V.isNone v2))
  let v3 ← get v1 p!"last_will"
  check (isA .MQTTLastWill v3)
  let v4 ← get v1 p!"last_will"
  let v5 ← get v4 p!"topic"
  check (eq v5 (.str p!"/last-wills"))
  let v6 ← get v1 p!"last_will"
  let v7 ← get v6 p!"qos"
  check (eq v7 (.int (2)))
  let v8 ← get v1 p!"last_will"
  let v9 ← get v8 p!"message"
  check (eq v9 (.str p!"Guest gone offline."))
  let v10 ← get v1 p!"last_will"
  let v11 ← get v10 p!"retain"
  check (eq v11 (.bool false))
  let v12 ← get v1 p!"binding_version"
  check (eq v12 (.str p!"0.2.0")) : Option Unit).isSome = true := by decide +kernel

/-- `test_mqtt_server_binding_session_expiry_interval_schema_validation`, tests/models/bindings/test_mqtt.py:359 -/
example : (do
  let v1 ← load .MQTTServerBindings (.dict [(p!"sessionExpiryInterval", (.dict [(p!"type", (.str p!"integer")), (p!"minimum", (.int (30))), (p!"maximum", (.int (1200)))])), (p!"bindingVersion", (.str p!"0.2.0"))])
  let v2 ← get v1 p!"session_expiry_interval"
  check (!(V.isNone v2))
  let v3 ← get v1 p!"session_expiry_interval"
  check (isA .Schema v3)
  let v4 ← get v1 p!"session_expiry_interval"
  let v5 ← get v4 p!"type"
  check (eq v5 (.str p!"integer"))
  let v6 ← get v1 p!"binding_version"
  check (eq v6 (.str p!"0.2.0")) : Option Unit).isSome = true := by decide +kernel

/-- `test_mqtt_server_bindings_python_validation_error`, tests/models/bindings/test_mqtt.py:380 -/
example : (do
  raises (do
    discard (make .MQTTServerBindings [(p!"some_field", (.str p!"value"))]) : Option Unit) : Option Unit).isSome = true := by decide +kernel

/-- `test_mqtt_server_bindings_yaml_validation_error`, tests/models/bindings/test_mqtt.py:385 -/
example : (do
  raises (do
    discard (load .MQTTServerBindings (.dict [(p!"some_field", (.str p!"value")), (p!"bindingVersion", (.str p!"0.2.0"))])) : Option Unit) : Option Unit).isSome = true := by decide +kernel

/-- `test_mqtt_channel_bindings_serialization`, tests/models/bindings/test_mqtt.py:400 -/
example : (do
  let v1 ← make .MQTTChannelBindings []
  check (eq (dump v1) (.dict [])) : Option Unit).isSome = true := by decide +kernel

/-- `test_mqtt_channel_bindings_python_validation_error`, tests/models/bindings/test_mqtt.py:406 -/
example : (do
  raises (do
    discard (make .MQTTChannelBindings [(p!"some_field", (.str p!"value"))]) : Option Unit) : Option Unit).isSome = true := by decide +kernel

/-- `test_mqtt_channel_bindings_yaml_validation_error`, tests/models/bindings/test_mqtt.py:411 -/
example : (do
  raises (do
    discard (load .MQTTChannelBindings (.dict [(p!"some_field", (.str p!"value"))])) : Option Unit) : Option Unit).isSome = true := by decide +kernel

/-- `test_mqtt_channel_bindings_yaml_empty_validation`, tests/models/bindings/test_mqtt.py:421 -/
example : (do
  let v1 ← load .MQTTChannelBindings (.dict [])
  check (!(V.isNone v1)) : Option Unit).isSome = true := by decide +kernel

/-- `test_mqtt_operation_bindings_validation_case_operation_binding_publish_full`, tests/models/bindings/test_mqtt.py:442 -/
example : (do
  let v1 ← load .MQTTOperationBindings (.dict [(p!"qos", (.int (2))), (p!"retain", (.bool true)), (p!"messageExpiryInterval", (.int (60))), (p!"bindingVersion", (.str p!"0.2.0"))])
  check (!(V.isNone v1))
  let v2 ← get v1 p!"binding_version"
  check (eq v2 (.str p!"0.2.0")) : Option Unit).isSome = true := by decide +kernel

/-- `test_mqtt_operation_bindings_validation_case_operation_binding_publish_with_schema`, tests/models/bindings/test_mqtt.py:442 -/
example : (do
  let v1 ← load .MQTTOperationBindings (.dict [(p!"messageExpiryInterval", (.dict [(p!"type", (.str p!"integer")), (p!"minimum", (.int (30))), (p!"maximum", (.int (300)))])), (p!"bindingVersion", (.str p!"0.2.0"))])
  check (!(V.isNone v1))
  let v2 ← get v1 p!"binding_version"
  check (eq v2 (.str p!"0.2.0")) : Option Unit).isSome = true := by decide +kernel

/-- `test_mqtt_operation_bindings_validation_case_operation_binding_subscribe`, tests/models/bindings/test_mqtt.py:442 -/
example : (do
  let v1 ← load .MQTTOperationBindings (.dict [(p!"qos", (.int (2))), (p!"bindingVersion", (.str p!"0.2.0"))])
  check (!(V.isNone v1))
  let v2 ← get v1 p!"binding_version"
  check (eq v2 (.str p!"0.2.0")) : Option Unit).isSome = true := by decide +kernel

/-- `test_mqtt_operation_bindings_serialization_case_mqtt_operation_binding_serialization_empty`, tests/models/bindings/test_mqtt.py:458 -/
example : (do
  let v1 ← make .MQTTOperationBindings []
  check (eq (dump v1) (.dict [(p!"bindingVersion", (.str p!"0.2.0"))])) : Option Unit).isSome = true := by decide +kernel

/-- `test_mqtt_operation_bindings_serialization_case_mqtt_operation_binding_serialization_publish_full`, tests/models/bindings/test_mqtt.py:458 -/
example : (do
  let v1 ← make .MQTTOperationBindings [(p!"qos", (.int (2))), (p!"retain", (.bool true)), (p!"message_expiry_interval", (.int (60)))]
  check (eq (dump v1) (.dict [(p!"qos", (.int (2))), (p!"retain", (.bool true)), (p!"messageExpiryInterval", (.int (60))), (p!"bindingVersion", (.str p!"0.2.0"))])) : Option Unit).isSome = true := by decide +kernel

/-- `test_mqtt_operation_bindings_serialization_case_mqtt_operation_binding_serialization_publish_with_schema`, tests/models/bindings/test_mqtt.py:458 -/
example : (do
  let v1 ← make .Schema [(p!"type", (.str p!"integer")), (p!"minimum", (.int (30))), (p!"maximum", (.int (300)))]
  let v2 ← make .MQTTOperationBindings [(p!"message_expiry_interval", v1)]
  check (eq (dump v2) (.dict [(p!"messageExpiryInterval", (.dict [(p!"type", (.str p!"integer")), (p!"minimum", (.int (30))), (p!"maximum", (.int (300)))])), (p!"bindingVersion", (.str p!"0.2.0"))])) : Option Unit).isSome = true := by decide +kernel

/-- `test_mqtt_operation_bindings_serialization_case_mqtt_operation_binding_serialization_subscribe`, tests/models/bindings/test_mqtt.py:458 -/
example : (do
  let v1 ← make .MQTTOperationBindings [(p!"qos", (.int (2)))]
  check (eq (dump v1) (.dict [(p!"qos", (.int (2))), (p!"bindingVersion", (.str p!"0.2.0"))])) : Option Unit).isSome = true := by decide +kernel

/-- `test_mqtt_operation_binding_message_expiry_interval_schema_validation`, tests/models/bindings/test_mqtt.py:467 -/
example : (do
  let v1 ← load .MQTTOperationBindings (.dict [(p!"messageExpiryInterval", (.dict [(p!"type", (.str p!"integer")), (p!"minimum", (.int (30))), (p!"maximum", (.int (300)))])), (p!"bindingVersion", (.str p!"0.2.0"))])
  let v2 ← get v1 p!"message_expiry_interval"
  check (!(V.isNone v2))
  let v3 ← get v1 p!"message_expiry_interval"
  check (isA .Schema v3)
  let v4 ← get v1 p!"message_expiry_interval"
  let v5 ← get v4 p!"type"
  check (eq v5 (.str p!"integer"))
  let v6 ← get v1 p!"binding_version"
  check (eq v6 (.str p!"0.2.0")) : Option Unit).isSome = true := by decide +kernel

/-- `test_mqtt_operation_bindings_python_validation_error`, tests/models/bindings/test_mqtt.py:488 -/
example : (do
  raises (do
    discard (make .MQTTOperationBindings [(p!"some_field", (.str p!"value"))]) : Option Unit) : Option Unit).isSome = true := by decide +kernel

/-- `test_mqtt_operation_bindings_yaml_validation_error`, tests/models/bindings/test_mqtt.py:493 -/
example : (do
  raises (do
    discard (load .MQTTOperationBindings (.dict [(p!"some_field", (.str p!"value")), (p!"bindingVersion", (.str p!"0.2.0"))])) : Option Unit) : Option Unit).isSome = true := by decide +kernel

/-- `test_mqtt_message_bindings_validation_case_message_binding_basic`, tests/models/bindings/test_mqtt.py:512 -/
example : (do
  let v1 ← load .MQTTMessageBindings (.dict [(p!"contentType", (.str p!"application/json")), (p!"correlationData", (.dict [(p!"type", (.str p!"string")), (p!"format", (.str p!"uuid"))])), (p!"bindingVersion", (.str p!"0.2.0"))])
  check (!(V.isNone v1))
  let v2 ← get v1 p!"binding_version"
  check (eq v2 (.str p!"0.2.0")) : Option Unit).isSome = true := by decide +kernel

/-- `test_mqtt_message_bindings_validation_case_message_binding_full`, tests/models/bindings/test_mqtt.py:512 -/
example : (do
  let v1 ← load .MQTTMessageBindings (.dict [(p!"payloadFormatIndicator", (.int (1))), (p!"contentType", (.str p!"application/json")), (p!"correlationData", (.dict [(p!"type", (.str p!"string")), (p!"format", (.str p!"uuid"))])), (p!"responseTopic", (.dict [(p!"type", (.str p!"string")), (p!"pattern", (.str p!"response/client/([a-z1-9]+)"))])), (p!"bindingVersion", (.str p!"0.2.0"))])
  check (!(V.isNone v1))
  let v2 ← get v1 p!"binding_version"
  check (eq v2 (.str p!"0.2.0")) : Option Unit).isSome = true := by decide +kernel

/-- `test_mqtt_message_bindings_serialization_case_mqtt_message_binding_serialization_empty`, tests/models/bindings/test_mqtt.py:527 -/
example : (do
  let v1 ← make .MQTTMessageBindings []
  check (eq (dump v1) (.dict [(p!"bindingVersion", (.str p!"0.2.0"))])) : Option Unit).isSome = true := by decide +kernel

/-- `test_mqtt_message_bindings_serialization_case_mqtt_message_binding_serialization_basic`, tests/models/bindings/test_mqtt.py:527 -/
example : (do
  let v1 ← make .Schema [(p!"type", (.str p!"string")), (p!"format", (.str p!"uuid"))]
  let v2 ← make .MQTTMessageBindings [(p!"content_type", (.str p!"application/json")), (p!"correlation_data", v1)]
  check (eq (dump v2) (.dict [(p!"contentType", (.str p!"application/json")), (p!"correlationData", (.dict [(p!"type", (.str p!"string")), (p!"format", (.str p!"uuid"))])), (p!"bindingVersion", (.str p!"0.2.0"))])) : Option Unit).isSome = true := by decide +kernel

/-- `test_mqtt_message_bindings_serialization_case_mqtt_message_binding_serialization_full`, tests/models/bindings/test_mqtt.py:527 -/
example : (do
  let v1 ← make .Schema [(p!"type", (.str p!"string")), (p!"format", (.str p!"uuid"))]
  let v2 ← make .Schema [(p!"type", (.str p!"string")), (p!"pattern", (.str p!"response/client/([a-z1-9]+)"))]
  let v3 ← make .MQTTMessageBindings [(p!"payload_format_indicator", (.int (1))), (p!"content_type", (.str p!"application/json")), (p!"correlation_data", v1), (p!"response_topic", v2)]
  check (eq (dump v3) (.dict [(p!"payloadFormatIndicator", (.int (1))), (p!"contentType", (.str p!"application/json")), (p!"correlationData", (.dict [(p!"type", (.str p!"string")), (p!"format", (.str p!"uuid"))])), (p!"responseTopic", (.dict [(p!"type", (.str p!"string")), (p!"pattern", (.str p!"response/client/([a-z1-9]+)"))])), (p!"bindingVersion", (.str p!"0.2.0"))])) : Option Unit).isSome = true := by decide +kernel

/-- `test_mqtt_message_binding_correlation_data_schema_validation`, tests/models/bindings/test_mqtt.py:536 -/
example : (do
  let v1 ← load .MQTTMessageBindings (.dict [(p!"correlationData", (.dict [(p!"type", (.str p!"string")), (p!"format", (.str p!"uuid"))])), (p!"bindingVersion", (.str p!"0.2.0"))])
  let v2 ← get v1 p!"correlation_data"
  check (!(V.isNone v2))
  let v3 ← get v1 p!"correlation_data"
  check (isA .Schema v3)
  let v4 ← get v1 p!"correlation_data"
  let v5 ← get v4 p!"type"
  check (eq v5 (.str p!"string"))
  let v6 ← get v1 p!"correlation_data"
  let v7 ← get v6 p!"format"
  check (eq v7 (.str p!"uuid"))
  let v8 ← get v1 p!"binding_version"
  check (eq v8 (.str p!"0.2.0")) : Option Unit).isSome = true := by decide +kernel

/-- `test_mqtt_message_binding_response_topic_schema_validation`, tests/models/bindings/test_mqtt.py:555 -/
example : (do
  let v1 ← load .MQTTMessageBindings (.dict [(p!"responseTopic", (.dict [(p!"type", (.str p!"string")), (p!"pattern", (.str p!"response/client/([a-z1-9]+)"))])), (p!"bindingVersion", (.str p!"0.2.0"))])
  let v2 ← get v1 p!"response_topic"
  check (!(V.isNone v2))
  let v3 ← get v1 p!"response_topic"
  check (isA .Schema v3)
  let v4 ← get v1 p!"response_topic"
  let v5 ← get v4 p!"type"
  check (eq v5 (.str p!"string"))
  let v6 ← get v1 p!"response_topic"
  let v7 ← get v6 p!"pattern"
  check (eq v7 (.str p!"response/client/([a-z1-9]+)"))
  let v8 ← get v1 p!"binding_version"
  check (eq v8 (.str p!"0.2.0")) : Option Unit).isSome = true := by decide +kernel

/-- `test_mqtt_message_bindings_python_validation_error`, tests/models/bindings/test_mqtt.py:574 -/
example : (do
  raises (do
    discard (make .MQTTMessageBindings [(p!"some_field", (.str p!"value"))]) : Option Unit) : Option Unit).isSome = true := by decide +kernel

/-- `test_mqtt_message_bindings_yaml_validation_error`, tests/models/bindings/test_mqtt.py:579 -/
example : (do
  raises (do
    discard (load .MQTTMessageBindings (.dict [(p!"some_field", (.str p!"value")), (p!"bindingVersion", (.str p!"0.2.0"))])) : Option Unit) : Option Unit).isSome = true := by decide +kernel

end Verif.Conformance
