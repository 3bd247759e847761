import Verif.Conformance.Support

/-! Translated from tests/models/bindings/test_solace.py by tools/gen_conformance.py. -/

set_option maxRecDepth 100000
set_option linter.unusedVariables false
namespace Verif.Conformance
open Verif Verif.Gen Verif.Pyd

/-- `test_solace_server_bindings_validation_case_server_binding_with_vpn`, tests/models/bindings/test_solace.py:129 -/
example : (do
  let v1 ← load .SolaceServerBindings (.dict [(p!"msgVpn", (.str p!"my-vpn")), (p!"clientName", (.str p!"my-client")), (p!"bindingVersion", (.str p!"0.4.0"))])
  check (!(V.isNone v1))
  let v2 ← get v1 p!"binding_version"
  check (eq v2 (.str p!"0.4.0")) : Option Unit).isSome = true := by decide +kernel

/-- `test_solace_server_bindings_serialization_case_solace_server_binding_serialization_empty`, tests/models/bindings/test_solace.py:143 -/
example : (do
  let v1 ← make .SolaceServerBindings []
  check (eq (dump v1) (.dict [(p!"bindingVersion", (.str p!"0.4.0"))])) : Option Unit).isSome = true := by decide +kernel

/-- `test_solace_server_bindings_serialization_case_solace_server_binding_serialization_with_vpn`, tests/models/bindings/test_solace.py:143 -/
example : (do
  let v1 ← make .SolaceServerBindings [(p!"msg_vpn", (.str p!"my-vpn")), (p!"client_name", (.str p!"my-client"))]
  check (eq (dump v1) (.dict [(p!"msgVpn", (.str p!"my-vpn")), (p!"clientName", (.str p!"my-client")), (p!"bindingVersion", (.str p!"0.4.0"))])) : Option Unit).isSome = true := by decide +kernel

/-- `test_solace_server_bindings_client_name_too_long`, tests/models/bindings/test_solace.py:152 -/
example : (do
  raises (do
    discard (make .SolaceServerBindings [(p!"client_name", (.str p!"aaaaaaaaaaaaaaaaaaaaaaaaaaaaaaaaaaaaaaaaaaaaaaaaaaaaaaaaaaaaaaaaaaaaaaaaaaaaaaaaaaaaaaaaaaaaaaaaaaaaaaaaaaaaaaaaaaaaaaaaaaaaaaaaaaaaaaaaaaaaaaaaaaaaaaaaaaaaaaaaa"))]) : Option Unit) : Option Unit).isSome = true := by decide +kernel

/-- `test_solace_server_bindings_client_name_max_length`, tests/models/bindings/test_solace.py:159 -/
example : (do
  let v1 ← make .SolaceServerBindings [(p!"client_name", (.str p!"aaaaaaaaaaaaaaaaaaaaaaaaaaaaaaaaaaaaaaaaaaaaaaaaaaaaaaaaaaaaaaaaaaaaaaaaaaaaaaaaaaaaaaaaaaaaaaaaaaaaaaaaaaaaaaaaaaaaaaaaaaaaaaaaaaaaaaaaaaaaaaaaaaaaaaaaaaaaaaaa"))]
  let v2 ← get v1 p!"client_name"
  check (eq v2 (.str p!"aaaaaaaaaaaaaaaaaaaaaaaaaaaaaaaaaaaaaaaaaaaaaaaaaaaaaaaaaaaaaaaaaaaaaaaaaaaaaaaaaaaaaaaaaaaaaaaaaaaaaaaaaaaaaaaaaaaaaaaaaaaaaaaaaaaaaaaaaaaaaaaaaaaaaaaaaaaaaaaa")) : Option Unit).isSome = true := by decide +kernel

/-- `test_solace_server_bindings_empty_creation`, tests/models/bindings/test_solace.py:166 -/
example : (do
  let v1 ← make .SolaceServerBindings []
  let v2 ← get v1 p!"binding_version"
  check (eq v2 (.str p!"0.4.0"))
  let v3 ← get v1 p!"msg_vpn"
  check (V.isNone v3)
  let v4 ← get v1 p!"client_name"
  check (V.isNone v4) : Option Unit).isSome = true := by decide +kernel

/-- `test_solace_server_bindings_python_extra_fields_error`, tests/models/bindings/test_solace.py:173 -/
example : (do
  raises (do
    discard (make .SolaceServerBindings [(p!"extra_field", (.str p!"value"))]) : Option Unit) : Option Unit).isSome = true := by decide +kernel

/-- `test_solace_server_bindings_yaml_extra_fields_error`, tests/models/bindings/test_solace.py:178 -/
example : (do
  raises (do
    discard (load .SolaceServerBindings (.dict [(p!"msgVpn", (.str p!"my-vpn")), (p!"extraField", (.str p!"value")), (p!"bindingVersion", (.str p!"0.4.0"))])) : Option Unit) : Option Unit).isSome = true := by decide +kernel

/-- `test_solace_channel_bindings_serialization_empty`, tests/models/bindings/test_solace.py:194 -/
example : (do
  let v1 ← make .SolaceChannelBindings []
  check (eq (dump v1) (.dict [])) : Option Unit).isSome = true := by decide +kernel

/-- `test_solace_channel_bindings_python_validation_error`, tests/models/bindings/test_solace.py:200 -/
example : (do
  raises (do
    discard (make .SolaceChannelBindings [(p!"some_field", (.str p!"value"))]) : Option Unit) : Option Unit).isSome = true := by decide +kernel

/-- `test_solace_channel_bindings_yaml_validation_error`, tests/models/bindings/test_solace.py:205 -/
example : (do
  raises (do
    discard (load .SolaceChannelBindings (.dict [(p!"some_field", (.str p!"value"))])) : Option Unit) : Option Unit).isSome = true := by decide +kernel

/-- `test_solace_channel_bindings_yaml_empty_validation`, tests/models/bindings/test_solace.py:215 -/
example : (do
  let v1 ← load .SolaceChannelBindings (.dict [])
  check (!(V.isNone v1)) : Option Unit).isSome = true := by decide +kernel

/-- `test_solace_operation_bindings_validation_case_operation_binding_with_destinations`, tests/models/bindings/test_solace.py:231 -/
example : (do
  let v1 ← load .SolaceOperationBindings (.dict [(p!"destinations", (.list [(.dict [(p!"destinationType", (.str p!"queue")), (p!"queue", (.dict [(p!"name", (.str p!"CreatedHREvents")), (p!"topicSubscriptions", (.list [(.str p!"person/*/created")]))]))])])), (p!"timeToLive", (.int (5000))), (p!"priority", (.int (120))), (p!"dmqEligible", (.bool true)), (p!"bindingVersion", (.str p!"0.4.0"))])
  check (!(V.isNone v1))
  let v2 ← get v1 p!"binding_version"
  check (eq v2 (.str p!"0.4.0")) : Option Unit).isSome = true := by decide +kernel

/-- `test_solace_operation_bindings_serialization_case_solace_operation_binding_serialization_empty`, tests/models/bindings/test_solace.py:245 -/
example : (do
  let v1 ← make .SolaceOperationBindings []
  check (eq (dump v1) (.dict [(p!"bindingVersion", (.str p!"0.4.0"))])) : Option Unit).isSome = true := by decide +kernel

/-- `test_solace_operation_bindings_serialization_case_solace_operation_binding_serialization_with_destinations`, tests/models/bindings/test_solace.py:245 -/
example : (do
  let v1 ← make .SolaceQueue [(p!"name", (.str p!"CreatedHREvents")), (p!"topic_subscriptions", (.list [(.str p!"person/*/created")]))]
  let v2 ← make .SolaceDestination [(p!"destination_type", (.str p!"queue")), (p!"queue", v1)]
  let v3 ← make .SolaceOperationBindings [(p!"destinations", (.list [v2])), (p!"time_to_live", (.int (5000))), (p!"priority", (.int (120))), (p!"dmq_eligible", (.bool true))]
  check (eq (dump v3) (.dict [(p!"destinations", (.list [(.dict [(p!"deliveryMode", (.str p!"persistent")), (p!"destinationType", (.str p!"queue")), (p!"queue", (.dict [(p!"name", (.str p!"CreatedHREvents")), (p!"topicSubscriptions", (.list [(.str p!"person/*/created")]))])), (p!"bindingVersion", (.str p!"0.4.0"))])])), (p!"timeToLive", (.int (5000))), (p!"priority", (.int (120))), (p!"dmqEligible", (.bool true)), (p!"bindingVersion", (.str p!"0.4.0"))])) : Option Unit).isSome = true := by decide +kernel

/-- `test_solace_operation_binding_destinations_validation`, tests/models/bindings/test_solace.py:254 -/
example : (do
  let v1 ← load .SolaceOperationBindings (.dict [(p!"destinations", (.list [(.dict [(p!"destinationType", (.str p!"queue")), (p!"queue", (.dict [(p!"name", (.str p!"CreatedHREvents")), (p!"topicSubscriptions", (.list [(.str p!"person/*/created")]))]))])])), (p!"bindingVersion", (.str p!"0.4.0"))])
  let v2 ← get v1 p!"destinations"
  check (!(V.isNone v2))
  let v3 ← get v1 p!"destinations"
  check (len v3 == 1)
  let v4 ← get v1 p!"destinations"
  let v5 ← nth v4 0
  check (isA .SolaceDestination v5)
  let v6 ← get v1 p!"destinations"
  let v7 ← nth v6 0
  let v8 ← get v7 p!"destination_type"
  check (eq v8 (.str p!"queue"))
  let v9 ← get v1 p!"binding_version"
  check (eq v9 (.str p!"0.4.0")) : Option Unit).isSome = true := by decide +kernel

/-- `test_solace_operation_bindings_priority_too_low`, tests/models/bindings/test_solace.py:275 -/
example : (do
  raises (do
    discard (make .SolaceOperationBindings [(p!"priority", (.int (-1)))]) : Option Unit) : Option Unit).isSome = true := by decide +kernel

/-- `test_solace_operation_bindings_priority_too_high`, tests/models/bindings/test_solace.py:280 -/
example : (do
  raises (do
    discard (make .SolaceOperationBindings [(p!"priority", (.int (256)))]) : Option Unit) : Option Unit).isSome = true := by decide +kernel

/-- `test_solace_operation_bindings_priority_valid_range_0`, tests/models/bindings/test_solace.py:298 -/
example : (do
  let v1 ← make .SolaceOperationBindings [(p!"priority", (.int (0)))]
  let v2 ← get v1 p!"priority"
  check (eq v2 (.int (0))) : Option Unit).isSome = true := by decide +kernel

/-- `test_solace_operation_bindings_priority_valid_range_1`, tests/models/bindings/test_solace.py:298 -/
example : (do
  let v1 ← make .SolaceOperationBindings [(p!"priority", (.int (255)))]
  let v2 ← get v1 p!"priority"
  check (eq v2 (.int (255))) : Option Unit).isSome = true := by decide +kernel

/-- `test_solace_operation_bindings_priority_valid_range_2`, tests/models/bindings/test_solace.py:298 -/
example : (do
  let v1 ← make .SolaceOperationBindings [(p!"priority", (.int (120)))]
  let v2 ← get v1 p!"priority"
  check (eq v2 (.int (120))) : Option Unit).isSome = true := by decide +kernel

/-- `test_solace_operation_bindings_empty_creation`, tests/models/bindings/test_solace.py:307 -/
example : (do
  let v1 ← make .SolaceOperationBindings []
  let v2 ← get v1 p!"binding_version"
  check (eq v2 (.str p!"0.4.0"))
  let v3 ← get v1 p!"destinations"
  check (V.isNone v3)
  let v4 ← get v1 p!"time_to_live"
  check (V.isNone v4)
  let v5 ← get v1 p!"priority"
  check (V.isNone v5)
  let v6 ← get v1 p!"dmq_eligible"
  check (V.isNone v6) : Option Unit).isSome = true := by decide +kernel

/-- `test_solace_operation_bindings_python_extra_fields_error`, tests/models/bindings/test_solace.py:316 -/
example : (do
  raises (do
    discard (make .SolaceOperationBindings [(p!"extra_field", (.str p!"value"))]) : Option Unit) : Option Unit).isSome = true := by decide +kernel

/-- `test_solace_operation_bindings_yaml_extra_fields_error`, tests/models/bindings/test_solace.py:321 -/
example : (do
  raises (do
    discard (load .SolaceOperationBindings (.dict [(p!"destinations", (.list [])), (p!"extraField", (.str p!"value")), (p!"bindingVersion", (.str p!"0.4.0"))])) : Option Unit) : Option Unit).isSome = true := by decide +kernel

/-- `test_solace_message_bindings_serialization_empty`, tests/models/bindings/test_solace.py:337 -/
example : (do
  let v1 ← make .SolaceMessageBindings []
  check (eq (dump v1) (.dict [])) : Option Unit).isSome = true := by decide +kernel

/-- `test_solace_message_bindings_python_validation_error`, tests/models/bindings/test_solace.py:343 -/
example : (do
  raises (do
    discard (make .SolaceMessageBindings [(p!"some_field", (.str p!"value"))]) : Option Unit) : Option Unit).isSome = true := by decide +kernel

/-- `test_solace_message_bindings_yaml_validation_error`, tests/models/bindings/test_solace.py:348 -/
example : (do
  raises (do
    discard (load .SolaceMessageBindings (.dict [(p!"some_field", (.str p!"value"))])) : Option Unit) : Option Unit).isSome = true := by decide +kernel

/-- `test_solace_message_bindings_yaml_empty_validation`, tests/models/bindings/test_solace.py:358 -/
example : (do
  let v1 ← load .SolaceMessageBindings (.dict [])
  check (!(V.isNone v1)) : Option Unit).isSome = true := by decide +kernel

/-- `test_solace_destination_queue_validation_success`, tests/models/bindings/test_solace.py:371 -/
example : (do
  let v1 ← make .SolaceQueue [(p!"name", (.str p!"test_queue"))]
  let v2 ← make .SolaceDestination [(p!"destination_type", (.str p!"queue")), (p!"queue", v1)]
  let v3 ← get v2 p!"destination_type"
  check (eq v3 (.str p!"queue"))
  let v4 ← get v2 p!"queue"
  check (!(V.isNone v4))
  let v5 ← get v2 p!"topic"
  check (V.isNone v5) : Option Unit).isSome = true := by decide +kernel

/-- `test_solace_destination_topic_validation_success`, tests/models/bindings/test_solace.py:380 -/
example : (do
  let v1 ← make .SolaceTopic [(p!"topic_subscriptions", (.list [(.str p!"test/topic")]))]
  let v2 ← make .SolaceDestination [(p!"destination_type", (.str p!"topic")), (p!"topic", v1)]
  let v3 ← get v2 p!"destination_type"
  check (eq v3 (.str p!"topic"))
  let v4 ← get v2 p!"topic"
  check (!(V.isNone v4))
  let v5 ← get v2 p!"queue"
  check (V.isNone v5) : Option Unit).isSome = true := by decide +kernel

/-- `test_solace_destination_queue_missing_queue_error`, tests/models/bindings/test_solace.py:390 -/
example : (do
  raises (do
    discard (make .SolaceDestination [(p!"destination_type", (.str p!"queue"))]) : Option Unit) : Option Unit).isSome = true := by decide +kernel

/-- `test_solace_destination_topic_missing_topic_error`, tests/models/bindings/test_solace.py:397 -/
example : (do
  raises (do
    discard (make .SolaceDestination [(p!"destination_type", (.str p!"topic"))]) : Option Unit) : Option Unit).isSome = true := by decide +kernel

/-- `test_solace_destination_queue_with_topic_error`, tests/models/bindings/test_solace.py:404 -/
example : (do
  raises (do
    let v1 ← make .SolaceQueue [(p!"name", (.str p!"test_queue"))]
    let v2 ← make .SolaceTopic [(p!"topic_subscriptions", (.list [(.str p!"test/topic")]))]
    discard (make .SolaceDestination [(p!"destination_type", (.str p!"queue")), (p!"queue", v1), (p!"topic", v2)]) : Option Unit) : Option Unit).isSome = true := by decide +kernel

/-- `test_solace_destination_topic_with_queue_error`, tests/models/bindings/test_solace.py:415 -/
example : (do
  raises (do
    let v1 ← make .SolaceTopic [(p!"topic_subscriptions", (.list [(.str p!"test/topic")]))]
    let v2 ← make .SolaceQueue [(p!"name", (.str p!"test_queue"))]
    discard (make .SolaceDestination [(p!"destination_type", (.str p!"topic")), (p!"topic", v1), (p!"queue", v2)]) : Option Unit) : Option Unit).isSome = true := by decide +kernel

/-- `test_solace_topic_empty_validation`, tests/models/bindings/test_solace.py:430 -/
example : (do
  let v1 ← make .SolaceTopic []
  let v2 ← get v1 p!"topic_subscriptions"
  check (V.isNone v2) : Option Unit).isSome = true := by decide +kernel

/-- `test_solace_topic_with_subscriptions_validation`, tests/models/bindings/test_solace.py:435 -/
example : (do
  let v1 ← make .SolaceTopic [(p!"topic_subscriptions", (.list [(.str p!"topic1"), (.str p!"topic2")]))]
  let v2 ← get v1 p!"topic_subscriptions"
  check (eq v2 (.list [(.str p!"topic1"), (.str p!"topic2")])) : Option Unit).isSome = true := by decide +kernel

/-- `test_solace_topic_serialization_empty`, tests/models/bindings/test_solace.py:441 -/
example : (do
  let v1 ← make .SolaceTopic []
  check (eq (dump v1) (.dict [])) : Option Unit).isSome = true := by decide +kernel

/-- `test_solace_topic_serialization_with_subscriptions`, tests/models/bindings/test_solace.py:447 -/
example : (do
  let v1 ← make .SolaceTopic [(p!"topic_subscriptions", (.list [(.str p!"topic1"), (.str p!"topic2")]))]
  check (eq (dump v1) (.dict [(p!"topicSubscriptions", (.list [(.str p!"topic1"), (.str p!"topic2")]))])) : Option Unit).isSome = true := by decide +kernel

end Verif.Conformance
