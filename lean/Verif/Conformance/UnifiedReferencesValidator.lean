import Verif.Conformance.Support

/-! Translated from tests/validators/test_unified_references_validator.py by tools/gen_conformance.py. -/

set_option maxRecDepth 100000
set_option linter.unusedVariables false
namespace Verif.Conformance
open Verif Verif.Gen Verif.Pyd

/-- `test_unified_validator_valid_channel_reference`, tests/validators/test_unified_references_validator.py:614 -/
example : (do
  let v1 ← make .AsyncAPI3 [(p!"asyncapi", (.str p!"3.0.0")), (p!"info", (.dict [(p!"title", (.str p!"Test API")), (p!"version", (.str p!"1.0.0"))])), (p!"channels", (.dict [(p!"userChannel", (.dict [(p!"address", (.str p!"user/{userId}")), (p!"messages", (.dict []))]))])), (p!"operations", (.dict [(p!"userOp", (.dict [(p!"action", (.str p!"send")), (p!"channel", (.dict [(p!"$ref", (.str p!"#/channels/userChannel"))]))]))])), (p!"extra_validators", (.list [(.proc 0)]))]
  check (!(V.isNone v1)) : Option Unit).isSome = true := by decide +kernel

/-- `test_unified_validator_invalid_server_reference_path`, tests/validators/test_unified_references_validator.py:640 -/
example : (do
  raises (do
    discard (make .AsyncAPI3 [(p!"asyncapi", (.str p!"3.0.0")), (p!"info", (.dict [(p!"title", (.str p!"Test API")), (p!"version", (.str p!"1.0.0"))])), (p!"channels", (.dict [(p!"test", (.dict [(p!"$ref", (.str p!"#/servers/nonexistent"))]))])), (p!"extra_validators", (.list [(.proc 0)]))]) : Option Unit) : Option Unit).isSome = true := by decide +kernel

/-- `test_unified_validator_valid_tag_reference`, tests/validators/test_unified_references_validator.py:657 -/
example : (do
  let v1 ← make .AsyncAPI3 [(p!"asyncapi", (.str p!"3.0.0")), (p!"info", (.dict [(p!"title", (.str p!"Test API")), (p!"version", (.str p!"1.0.0")), (p!"tags", (.list [(.dict [(p!"$ref", (.str p!"#/components/tags/prod"))])]))])), (p!"components", (.dict [(p!"tags", (.dict [(p!"prod", (.dict [(p!"name", (.str p!"prod")), (p!"description", (.str p!"Production environment"))]))]))])), (p!"extra_validators", (.list [(.proc 0)]))]
  check (!(V.isNone v1)) : Option Unit).isSome = true := by decide +kernel

/-- `test_unified_validator_invalid_tag_reference_path`, tests/validators/test_unified_references_validator.py:680 -/
example : (do
  raises (do
    discard (make .AsyncAPI3 [(p!"asyncapi", (.str p!"3.0.0")), (p!"info", (.dict [(p!"title", (.str p!"Test API")), (p!"version", (.str p!"1.0.0")), (p!"tags", (.list [(.dict [(p!"$ref", (.str p!"#/components/tags/nonexistent"))])]))])), (p!"components", (.dict [(p!"tags", (.dict [(p!"prod", (.dict [(p!"name", (.str p!"prod")), (p!"description", (.str p!"Production environment"))]))]))])), (p!"extra_validators", (.list [(.proc 0)]))]) : Option Unit) : Option Unit).isSome = true := by decide +kernel

/-- `test_unified_validator_external_reference_logs_warning`, tests/validators/test_unified_references_validator.py:703 -/
example : (do
  let v1 ← make .AsyncAPI3 [(p!"asyncapi", (.str p!"3.0.0")), (p!"info", (.dict [(p!"title", (.str p!"Test API")), (p!"version", (.str p!"1.0.0")), (p!"tags", (.list [(.dict [(p!"$ref", (.str p!"https://example.com/external-tag"))])]))])), (p!"extra_validators", (.list [(.proc 0)]))]
  check (true) : Option Unit).isSome = true := by decide +kernel

/-- `test_unified_validator_unsupported_reference_format`, tests/validators/test_unified_references_validator.py:721 -/
example : (do
  raises (do
    discard (make .AsyncAPI3 [(p!"asyncapi", (.str p!"3.0.0")), (p!"info", (.dict [(p!"title", (.str p!"Test API")), (p!"version", (.str p!"1.0.0")), (p!"tags", (.list [(.dict [(p!"$ref", (.str p!"file://local-tag"))])]))])), (p!"extra_validators", (.list [(.proc 0)]))]) : Option Unit) : Option Unit).isSome = true := by decide +kernel

/-- `test_unified_validator_valid_schema_reference`, tests/validators/test_unified_references_validator.py:740 -/
example : (do
  let v1 ← make .AsyncAPI3 [(p!"asyncapi", (.str p!"3.0.0")), (p!"info", (.dict [(p!"title", (.str p!"Test API")), (p!"version", (.str p!"1.0.0"))])), (p!"components", (.dict [(p!"schemas", (.dict [(p!"User", (.dict [(p!"type", (.str p!"object")), (p!"properties", (.dict [(p!"name", (.dict [(p!"type", (.str p!"string"))]))]))]))])), (p!"messages", (.dict [(p!"UserMessage", (.dict [(p!"payload", (.dict [(p!"$ref", (.str p!"#/components/schemas/User"))]))]))]))])), (p!"extra_validators", (.list [(.proc 0)]))]
  check (!(V.isNone v1)) : Option Unit).isSome = true := by decide +kernel

/-- `test_unified_validator_invalid_schema_reference`, tests/validators/test_unified_references_validator.py:769 -/
example : (do
  raises (do
    discard (make .AsyncAPI3 [(p!"asyncapi", (.str p!"3.0.0")), (p!"info", (.dict [(p!"title", (.str p!"Test API")), (p!"version", (.str p!"1.0.0"))])), (p!"components", (.dict [(p!"messages", (.dict [(p!"UserMessage", (.dict [(p!"payload", (.dict [(p!"$ref", (.str p!"#/components/schemas/NonExistentSchema"))]))]))]))])), (p!"extra_validators", (.list [(.proc 0)]))]) : Option Unit) : Option Unit).isSome = true := by decide +kernel

/-- `test_reference_type_mappings_resolve_old_paths_0`, tests/validators/test_unified_references_validator.py:1124 -/
example : (do
  let v1 ← expected p!"spec.channels.*"
  check (sameClasses v1 [.Channel]) : Option Unit).isSome = true := by decide +kernel

/-- `test_reference_type_mappings_resolve_old_paths_1`, tests/validators/test_unified_references_validator.py:1124 -/
example : (do
  let v1 ← expected p!"spec.channels.*.bindings"
  check (sameClasses v1 [.ChannelBindingsObject]) : Option Unit).isSome = true := by decide +kernel

/-- `test_reference_type_mappings_resolve_old_paths_2`, tests/validators/test_unified_references_validator.py:1124 -/
example : (do
  let v1 ← expected p!"spec.channels.*.bindings.ws.headers"
  check (sameClasses v1 [.Schema]) : Option Unit).isSome = true := by decide +kernel

/-- `test_reference_type_mappings_resolve_old_paths_3`, tests/validators/test_unified_references_validator.py:1124 -/
example : (do
  let v1 ← expected p!"spec.channels.*.bindings.ws.headers.external_docs"
  check (sameClasses v1 [.ExternalDocumentation]) : Option Unit).isSome = true := by decide +kernel

/-- `test_reference_type_mappings_resolve_old_paths_4`, tests/validators/test_unified_references_validator.py:1124 -/
example : (do
  let v1 ← expected p!"spec.channels.*.bindings.ws.query"
  check (sameClasses v1 [.Schema]) : Option Unit).isSome = true := by decide +kernel

/-- `test_reference_type_mappings_resolve_old_paths_5`, tests/validators/test_unified_references_validator.py:1124 -/
example : (do
  let v1 ← expected p!"spec.channels.*.bindings.ws.query.external_docs"
  check (sameClasses v1 [.ExternalDocumentation]) : Option Unit).isSome = true := by decide +kernel

/-- `test_reference_type_mappings_resolve_old_paths_6`, tests/validators/test_unified_references_validator.py:1124 -/
example : (do
  let v1 ← expected p!"spec.channels.*.external_docs"
  check (sameClasses v1 [.ExternalDocumentation]) : Option Unit).isSome = true := by decide +kernel

/-- `test_reference_type_mappings_resolve_old_paths_7`, tests/validators/test_unified_references_validator.py:1124 -/
example : (do
  let v1 ← expected p!"spec.channels.*.messages.*"
  check (sameClasses v1 [.Message]) : Option Unit).isSome = true := by decide +kernel

/-- `test_reference_type_mappings_resolve_old_paths_8`, tests/validators/test_unified_references_validator.py:1124 -/
example : (do
  let v1 ← expected p!"spec.channels.*.messages.*.bindings"
  check (sameClasses v1 [.MessageBindingsObject]) : Option Unit).isSome = true := by decide +kernel

/-- `test_reference_type_mappings_resolve_old_paths_9`, tests/validators/test_unified_references_validator.py:1124 -/
example : (do
  let v1 ← expected p!"spec.channels.*.messages.*.bindings.anypointmq.headers"
  check (sameClasses v1 [.Schema]) : Option Unit).isSome = true := by decide +kernel

/-- `test_reference_type_mappings_resolve_old_paths_10`, tests/validators/test_unified_references_validator.py:1124 -/
example : (do
  let v1 ← expected p!"spec.channels.*.messages.*.bindings.anypointmq.headers.external_docs"
  check (sameClasses v1 [.ExternalDocumentation]) : Option Unit).isSome = true := by decide +kernel

/-- `test_reference_type_mappings_resolve_old_paths_11`, tests/validators/test_unified_references_validator.py:1124 -/
example : (do
  let v1 ← expected p!"spec.channels.*.messages.*.bindings.http.headers"
  check (sameClasses v1 [.Schema]) : Option Unit).isSome = true := by decide +kernel

/-- `test_reference_type_mappings_resolve_old_paths_12`, tests/validators/test_unified_references_validator.py:1124 -/
example : (do
  let v1 ← expected p!"spec.channels.*.messages.*.bindings.http.headers.external_docs"
  check (sameClasses v1 [.ExternalDocumentation]) : Option Unit).isSome = true := by decide +kernel

/-- `test_reference_type_mappings_resolve_old_paths_13`, tests/validators/test_unified_references_validator.py:1124 -/
example : (do
  let v1 ← expected p!"spec.channels.*.messages.*.bindings.jms.headers"
  check (sameClasses v1 [.Schema]) : Option Unit).isSome = true := by decide +kernel

/-- `test_reference_type_mappings_resolve_old_paths_14`, tests/validators/test_unified_references_validator.py:1124 -/
example : (do
  let v1 ← expected p!"spec.channels.*.messages.*.bindings.jms.headers.external_docs"
  check (sameClasses v1 [.ExternalDocumentation]) : Option Unit).isSome = true := by decide +kernel

/-- `test_reference_type_mappings_resolve_old_paths_15`, tests/validators/test_unified_references_validator.py:1124 -/
example : (do
  let v1 ← expected p!"spec.channels.*.messages.*.bindings.kafka.key"
  check (sameClasses v1 [.Schema]) : Option Unit).isSome = true := by decide +kernel

/-- `test_reference_type_mappings_resolve_old_paths_16`, tests/validators/test_unified_references_validator.py:1124 -/
example : (do
  let v1 ← expected p!"spec.channels.*.messages.*.bindings.kafka.key.external_docs"
  check (sameClasses v1 [.ExternalDocumentation]) : Option Unit).isSome = true := by decide +kernel

/-- `test_reference_type_mappings_resolve_old_paths_17`, tests/validators/test_unified_references_validator.py:1124 -/
example : (do
  let v1 ← expected p!"spec.channels.*.messages.*.bindings.mqtt.correlation_data"
  check (sameClasses v1 [.Schema]) : Option Unit).isSome = true := by decide +kernel

/-- `test_reference_type_mappings_resolve_old_paths_18`, tests/validators/test_unified_references_validator.py:1124 -/
example : (do
  let v1 ← expected p!"spec.channels.*.messages.*.bindings.mqtt.correlation_data.external_docs"
  check (sameClasses v1 [.ExternalDocumentation]) : Option Unit).isSome = true := by decide +kernel

/-- `test_reference_type_mappings_resolve_old_paths_19`, tests/validators/test_unified_references_validator.py:1124 -/
example : (do
  let v1 ← expected p!"spec.channels.*.messages.*.bindings.mqtt.response_topic"
  check (sameClasses v1 [.Schema]) : Option Unit).isSome = true := by decide +kernel

/-- `test_reference_type_mappings_resolve_old_paths_20`, tests/validators/test_unified_references_validator.py:1124 -/
example : (do
  let v1 ← expected p!"spec.channels.*.messages.*.bindings.mqtt.response_topic.external_docs"
  check (sameClasses v1 [.ExternalDocumentation]) : Option Unit).isSome = true := by decide +kernel

/-- `test_reference_type_mappings_resolve_old_paths_21`, tests/validators/test_unified_references_validator.py:1124 -/
example : (do
  let v1 ← expected p!"spec.channels.*.messages.*.correlation_id"
  check (sameClasses v1 [.CorrelationID]) : Option Unit).isSome = true := by decide +kernel

/-- `test_reference_type_mappings_resolve_old_paths_22`, tests/validators/test_unified_references_validator.py:1124 -/
example : (do
  let v1 ← expected p!"spec.channels.*.messages.*.external_docs"
  check (sameClasses v1 [.ExternalDocumentation]) : Option Unit).isSome = true := by decide +kernel

/-- `test_reference_type_mappings_resolve_old_paths_23`, tests/validators/test_unified_references_validator.py:1124 -/
example : (do
  let v1 ← expected p!"spec.channels.*.messages.*.headers"
  check (sameClasses v1 [.MultiFormatSchema, .Schema]) : Option Unit).isSome = true := by decide +kernel

/-- `test_reference_type_mappings_resolve_old_paths_24`, tests/validators/test_unified_references_validator.py:1124 -/
example : (do
  let v1 ← expected p!"spec.channels.*.messages.*.headers.external_docs"
  check (sameClasses v1 [.ExternalDocumentation]) : Option Unit).isSome = true := by decide +kernel

/-- `test_reference_type_mappings_resolve_old_paths_25`, tests/validators/test_unified_references_validator.py:1124 -/
example : (do
  let v1 ← expected p!"spec.channels.*.messages.*.payload"
  check (sameClasses v1 [.MultiFormatSchema, .Schema]) : Option Unit).isSome = true := by decide +kernel

/-- `test_reference_type_mappings_resolve_old_paths_26`, tests/validators/test_unified_references_validator.py:1124 -/
example : (do
  let v1 ← expected p!"spec.channels.*.messages.*.payload.external_docs"
  check (sameClasses v1 [.ExternalDocumentation]) : Option Unit).isSome = true := by decide +kernel

/-- `test_reference_type_mappings_resolve_old_paths_27`, tests/validators/test_unified_references_validator.py:1124 -/
example : (do
  let v1 ← expected p!"spec.channels.*.messages.*.tags.*"
  check (sameClasses v1 [.Tag]) : Option Unit).isSome = true := by decide +kernel

/-- `test_reference_type_mappings_resolve_old_paths_28`, tests/validators/test_unified_references_validator.py:1124 -/
example : (do
  let v1 ← expected p!"spec.channels.*.messages.*.tags.*.external_docs"
  check (sameClasses v1 [.ExternalDocumentation]) : Option Unit).isSome = true := by decide +kernel

/-- `test_reference_type_mappings_resolve_old_paths_29`, tests/validators/test_unified_references_validator.py:1124 -/
example : (do
  let v1 ← expected p!"spec.channels.*.messages.*.traits.*"
  check (sameClasses v1 [.MessageTrait]) : Option Unit).isSome = true := by decide +kernel

/-- `test_reference_type_mappings_resolve_old_paths_30`, tests/validators/test_unified_references_validator.py:1124 -/
example : (do
  let v1 ← expected p!"spec.channels.*.messages.*.traits.*.bindings"
  check (sameClasses v1 [.MessageBindingsObject]) : Option Unit).isSome = true := by decide +kernel

/-- `test_reference_type_mappings_resolve_old_paths_31`, tests/validators/test_unified_references_validator.py:1124 -/
example : (do
  let v1 ← expected p!"spec.channels.*.messages.*.traits.*.bindings.anypointmq.headers"
  check (sameClasses v1 [.Schema]) : Option Unit).isSome = true := by decide +kernel

/-- `test_reference_type_mappings_resolve_old_paths_32`, tests/validators/test_unified_references_validator.py:1124 -/
example : (do
  let v1 ← expected p!"spec.channels.*.messages.*.traits.*.bindings.anypointmq.headers.external_docs"
  check (sameClasses v1 [.ExternalDocumentation]) : Option Unit).isSome = true := by decide +kernel

/-- `test_reference_type_mappings_resolve_old_paths_33`, tests/validators/test_unified_references_validator.py:1124 -/
example : (do
  let v1 ← expected p!"spec.channels.*.messages.*.traits.*.bindings.http.headers"
  check (sameClasses v1 [.Schema]) : Option Unit).isSome = true := by decide +kernel

/-- `test_reference_type_mappings_resolve_old_paths_34`, tests/validators/test_unified_references_validator.py:1124 -/
example : (do
  let v1 ← expected p!"spec.channels.*.messages.*.traits.*.bindings.http.headers.external_docs"
  check (sameClasses v1 [.ExternalDocumentation]) : Option Unit).isSome = true := by decide +kernel

/-- `test_reference_type_mappings_resolve_old_paths_35`, tests/validators/test_unified_references_validator.py:1124 -/
example : (do
  let v1 ← expected p!"spec.channels.*.messages.*.traits.*.bindings.jms.headers"
  check (sameClasses v1 [.Schema]) : Option Unit).isSome = true := by decide +kernel

/-- `test_reference_type_mappings_resolve_old_paths_36`, tests/validators/test_unified_references_validator.py:1124 -/
example : (do
  let v1 ← expected p!"spec.channels.*.messages.*.traits.*.bindings.jms.headers.external_docs"
  check (sameClasses v1 [.ExternalDocumentation]) : Option Unit).isSome = true := by decide +kernel

/-- `test_reference_type_mappings_resolve_old_paths_37`, tests/validators/test_unified_references_validator.py:1124 -/
example : (do
  let v1 ← expected p!"spec.channels.*.messages.*.traits.*.bindings.kafka.key"
  check (sameClasses v1 [.Schema]) : Option Unit).isSome = true := by decide +kernel

/-- `test_reference_type_mappings_resolve_old_paths_38`, tests/validators/test_unified_references_validator.py:1124 -/
example : (do
  let v1 ← expected p!"spec.channels.*.messages.*.traits.*.bindings.kafka.key.external_docs"
  check (sameClasses v1 [.ExternalDocumentation]) : Option Unit).isSome = true := by decide +kernel

/-- `test_reference_type_mappings_resolve_old_paths_39`, tests/validators/test_unified_references_validator.py:1124 -/
example : (do
  let v1 ← expected p!"spec.channels.*.messages.*.traits.*.bindings.mqtt.correlation_data"
  check (sameClasses v1 [.Schema]) : Option Unit).isSome = true := by decide +kernel

/-- `test_reference_type_mappings_resolve_old_paths_40`, tests/validators/test_unified_references_validator.py:1124 -/
example : (do
  let v1 ← expected p!"spec.channels.*.messages.*.traits.*.bindings.mqtt.correlation_data.external_docs"
  check (sameClasses v1 [.ExternalDocumentation]) : Option Unit).isSome = true := by decide +kernel

/-- `test_reference_type_mappings_resolve_old_paths_41`, tests/validators/test_unified_references_validator.py:1124 -/
example : (do
  let v1 ← expected p!"spec.channels.*.messages.*.traits.*.bindings.mqtt.response_topic"
  check (sameClasses v1 [.Schema]) : Option Unit).isSome = true := by decide +kernel

/-- `test_reference_type_mappings_resolve_old_paths_42`, tests/validators/test_unified_references_validator.py:1124 -/
example : (do
  let v1 ← expected p!"spec.channels.*.messages.*.traits.*.bindings.mqtt.response_topic.external_docs"
  check (sameClasses v1 [.ExternalDocumentation]) : Option Unit).isSome = true := by decide +kernel

/-- `test_reference_type_mappings_resolve_old_paths_43`, tests/validators/test_unified_references_validator.py:1124 -/
example : (do
  let v1 ← expected p!"spec.channels.*.messages.*.traits.*.correlation_id"
  check (sameClasses v1 [.CorrelationID]) : Option Unit).isSome = true := by decide +kernel

/-- `test_reference_type_mappings_resolve_old_paths_44`, tests/validators/test_unified_references_validator.py:1124 -/
example : (do
  let v1 ← expected p!"spec.channels.*.messages.*.traits.*.external_docs"
  check (sameClasses v1 [.ExternalDocumentation]) : Option Unit).isSome = true := by decide +kernel

/-- `test_reference_type_mappings_resolve_old_paths_45`, tests/validators/test_unified_references_validator.py:1124 -/
example : (do
  let v1 ← expected p!"spec.channels.*.messages.*.traits.*.headers"
  check (sameClasses v1 [.MultiFormatSchema, .Schema]) : Option Unit).isSome = true := by decide +kernel

/-- `test_reference_type_mappings_resolve_old_paths_46`, tests/validators/test_unified_references_validator.py:1124 -/
example : (do
  let v1 ← expected p!"spec.channels.*.messages.*.traits.*.headers.external_docs"
  check (sameClasses v1 [.ExternalDocumentation]) : Option Unit).isSome = true := by decide +kernel

/-- `test_reference_type_mappings_resolve_old_paths_47`, tests/validators/test_unified_references_validator.py:1124 -/
example : (do
  let v1 ← expected p!"spec.channels.*.messages.*.traits.*.tags.*"
  check (sameClasses v1 [.Tag]) : Option Unit).isSome = true := by decide +kernel

/-- `test_reference_type_mappings_resolve_old_paths_48`, tests/validators/test_unified_references_validator.py:1124 -/
example : (do
  let v1 ← expected p!"spec.channels.*.messages.*.traits.*.tags.*.external_docs"
  check (sameClasses v1 [.ExternalDocumentation]) : Option Unit).isSome = true := by decide +kernel

/-- `test_reference_type_mappings_resolve_old_paths_49`, tests/validators/test_unified_references_validator.py:1124 -/
example : (do
  let v1 ← expected p!"spec.channels.*.parameters.*"
  check (sameClasses v1 [.Parameter]) : Option Unit).isSome = true := by decide +kernel

/-- `test_reference_type_mappings_resolve_old_paths_50`, tests/validators/test_unified_references_validator.py:1124 -/
example : (do
  let v1 ← expected p!"spec.channels.*.servers.*"
  check (sameClasses v1 [.Server]) : Option Unit).isSome = true := by decide +kernel

/-- `test_reference_type_mappings_resolve_old_paths_51`, tests/validators/test_unified_references_validator.py:1124 -/
example : (do
  let v1 ← expected p!"spec.channels.*.tags.*"
  check (sameClasses v1 [.Tag]) : Option Unit).isSome = true := by decide +kernel

/-- `test_reference_type_mappings_resolve_old_paths_52`, tests/validators/test_unified_references_validator.py:1124 -/
example : (do
  let v1 ← expected p!"spec.channels.*.tags.*.external_docs"
  check (sameClasses v1 [.ExternalDocumentation]) : Option Unit).isSome = true := by decide +kernel

/-- `test_reference_type_mappings_resolve_old_paths_53`, tests/validators/test_unified_references_validator.py:1124 -/
example : (do
  let v1 ← expected p!"spec.components.channel_bindings.*"
  check (sameClasses v1 [.ChannelBindingsObject]) : Option Unit).isSome = true := by decide +kernel

/-- `test_reference_type_mappings_resolve_old_paths_54`, tests/validators/test_unified_references_validator.py:1124 -/
example : (do
  let v1 ← expected p!"spec.components.channel_bindings.*.ws.headers"
  check (sameClasses v1 [.Schema]) : Option Unit).isSome = true := by decide +kernel

/-- `test_reference_type_mappings_resolve_old_paths_55`, tests/validators/test_unified_references_validator.py:1124 -/
example : (do
  let v1 ← expected p!"spec.components.channel_bindings.*.ws.headers.external_docs"
  check (sameClasses v1 [.ExternalDocumentation]) : Option Unit).isSome = true := by decide +kernel

/-- `test_reference_type_mappings_resolve_old_paths_56`, tests/validators/test_unified_references_validator.py:1124 -/
example : (do
  let v1 ← expected p!"spec.components.channel_bindings.*.ws.query"
  check (sameClasses v1 [.Schema]) : Option Unit).isSome = true := by decide +kernel

/-- `test_reference_type_mappings_resolve_old_paths_57`, tests/validators/test_unified_references_validator.py:1124 -/
example : (do
  let v1 ← expected p!"spec.components.channel_bindings.*.ws.query.external_docs"
  check (sameClasses v1 [.ExternalDocumentation]) : Option Unit).isSome = true := by decide +kernel

/-- `test_reference_type_mappings_resolve_old_paths_58`, tests/validators/test_unified_references_validator.py:1124 -/
example : (do
  let v1 ← expected p!"spec.components.channels.*"
  check (sameClasses v1 [.Channel]) : Option Unit).isSome = true := by decide +kernel

/-- `test_reference_type_mappings_resolve_old_paths_59`, tests/validators/test_unified_references_validator.py:1124 -/
example : (do
  let v1 ← expected p!"spec.components.channels.*.bindings"
  check (sameClasses v1 [.ChannelBindingsObject]) : Option Unit).isSome = true := by decide +kernel

/-- `test_reference_type_mappings_resolve_old_paths_60`, tests/validators/test_unified_references_validator.py:1124 -/
example : (do
  let v1 ← expected p!"spec.components.channels.*.bindings.ws.headers"
  check (sameClasses v1 [.Schema]) : Option Unit).isSome = true := by decide +kernel

/-- `test_reference_type_mappings_resolve_old_paths_61`, tests/validators/test_unified_references_validator.py:1124 -/
example : (do
  let v1 ← expected p!"spec.components.channels.*.bindings.ws.headers.external_docs"
  check (sameClasses v1 [.ExternalDocumentation]) : Option Unit).isSome = true := by decide +kernel

/-- `test_reference_type_mappings_resolve_old_paths_62`, tests/validators/test_unified_references_validator.py:1124 -/
example : (do
  let v1 ← expected p!"spec.components.channels.*.bindings.ws.query"
  check (sameClasses v1 [.Schema]) : Option Unit).isSome = true := by decide +kernel

/-- `test_reference_type_mappings_resolve_old_paths_63`, tests/validators/test_unified_references_validator.py:1124 -/
example : (do
  let v1 ← expected p!"spec.components.channels.*.bindings.ws.query.external_docs"
  check (sameClasses v1 [.ExternalDocumentation]) : Option Unit).isSome = true := by decide +kernel

/-- `test_reference_type_mappings_resolve_old_paths_64`, tests/validators/test_unified_references_validator.py:1124 -/
example : (do
  let v1 ← expected p!"spec.components.channels.*.external_docs"
  check (sameClasses v1 [.ExternalDocumentation]) : Option Unit).isSome = true := by decide +kernel

/-- `test_reference_type_mappings_resolve_old_paths_65`, tests/validators/test_unified_references_validator.py:1124 -/
example : (do
  let v1 ← expected p!"spec.components.channels.*.messages.*"
  check (sameClasses v1 [.Message]) : Option Unit).isSome = true := by decide +kernel

/-- `test_reference_type_mappings_resolve_old_paths_66`, tests/validators/test_unified_references_validator.py:1124 -/
example : (do
  let v1 ← expected p!"spec.components.channels.*.messages.*.bindings"
  check (sameClasses v1 [.MessageBindingsObject]) : Option Unit).isSome = true := by decide +kernel

/-- `test_reference_type_mappings_resolve_old_paths_67`, tests/validators/test_unified_references_validator.py:1124 -/
example : (do
  let v1 ← expected p!"spec.components.channels.*.messages.*.bindings.anypointmq.headers"
  check (sameClasses v1 [.Schema]) : Option Unit).isSome = true := by decide +kernel

/-- `test_reference_type_mappings_resolve_old_paths_68`, tests/validators/test_unified_references_validator.py:1124 -/
example : (do
  let v1 ← expected p!"spec.components.channels.*.messages.*.bindings.anypointmq.headers.external_docs"
  check (sameClasses v1 [.ExternalDocumentation]) : Option Unit).isSome = true := by decide +kernel

/-- `test_reference_type_mappings_resolve_old_paths_69`, tests/validators/test_unified_references_validator.py:1124 -/
example : (do
  let v1 ← expected p!"spec.components.channels.*.messages.*.bindings.http.headers"
  check (sameClasses v1 [.Schema]) : Option Unit).isSome = true := by decide +kernel

/-- `test_reference_type_mappings_resolve_old_paths_70`, tests/validators/test_unified_references_validator.py:1124 -/
example : (do
  let v1 ← expected p!"spec.components.channels.*.messages.*.bindings.http.headers.external_docs"
  check (sameClasses v1 [.ExternalDocumentation]) : Option Unit).isSome = true := by decide +kernel

/-- `test_reference_type_mappings_resolve_old_paths_71`, tests/validators/test_unified_references_validator.py:1124 -/
example : (do
  let v1 ← expected p!"spec.components.channels.*.messages.*.bindings.jms.headers"
  check (sameClasses v1 [.Schema]) : Option Unit).isSome = true := by decide +kernel

/-- `test_reference_type_mappings_resolve_old_paths_72`, tests/validators/test_unified_references_validator.py:1124 -/
example : (do
  let v1 ← expected p!"spec.components.channels.*.messages.*.bindings.jms.headers.external_docs"
  check (sameClasses v1 [.ExternalDocumentation]) : Option Unit).isSome = true := by decide +kernel

/-- `test_reference_type_mappings_resolve_old_paths_73`, tests/validators/test_unified_references_validator.py:1124 -/
example : (do
  let v1 ← expected p!"spec.components.channels.*.messages.*.bindings.kafka.key"
  check (sameClasses v1 [.Schema]) : Option Unit).isSome = true := by decide +kernel

/-- `test_reference_type_mappings_resolve_old_paths_74`, tests/validators/test_unified_references_validator.py:1124 -/
example : (do
  let v1 ← expected p!"spec.components.channels.*.messages.*.bindings.kafka.key.external_docs"
  check (sameClasses v1 [.ExternalDocumentation]) : Option Unit).isSome = true := by decide +kernel

/-- `test_reference_type_mappings_resolve_old_paths_75`, tests/validators/test_unified_references_validator.py:1124 -/
example : (do
  let v1 ← expected p!"spec.components.channels.*.messages.*.bindings.mqtt.correlation_data"
  check (sameClasses v1 [.Schema]) : Option Unit).isSome = true := by decide +kernel

/-- `test_reference_type_mappings_resolve_old_paths_76`, tests/validators/test_unified_references_validator.py:1124 -/
example : (do
  let v1 ← expected p!"spec.components.channels.*.messages.*.bindings.mqtt.correlation_data.external_docs"
  check (sameClasses v1 [.ExternalDocumentation]) : Option Unit).isSome = true := by decide +kernel

/-- `test_reference_type_mappings_resolve_old_paths_77`, tests/validators/test_unified_references_validator.py:1124 -/
example : (do
  let v1 ← expected p!"spec.components.channels.*.messages.*.bindings.mqtt.response_topic"
  check (sameClasses v1 [.Schema]) : Option Unit).isSome = true := by decide +kernel

/-- `test_reference_type_mappings_resolve_old_paths_78`, tests/validators/test_unified_references_validator.py:1124 -/
example : (do
  let v1 ← expected p!"spec.components.channels.*.messages.*.bindings.mqtt.response_topic.external_docs"
  check (sameClasses v1 [.ExternalDocumentation]) : Option Unit).isSome = true := by decide +kernel

/-- `test_reference_type_mappings_resolve_old_paths_79`, tests/validators/test_unified_references_validator.py:1124 -/
example : (do
  let v1 ← expected p!"spec.components.channels.*.messages.*.correlation_id"
  check (sameClasses v1 [.CorrelationID]) : Option Unit).isSome = true := by decide +kernel

/-- `test_reference_type_mappings_resolve_old_paths_80`, tests/validators/test_unified_references_validator.py:1124 -/
example : (do
  let v1 ← expected p!"spec.components.channels.*.messages.*.external_docs"
  check (sameClasses v1 [.ExternalDocumentation]) : Option Unit).isSome = true := by decide +kernel

/-- `test_reference_type_mappings_resolve_old_paths_81`, tests/validators/test_unified_references_validator.py:1124 -/
example : (do
  let v1 ← expected p!"spec.components.channels.*.messages.*.headers"
  check (sameClasses v1 [.MultiFormatSchema, .Schema]) : Option Unit).isSome = true := by decide +kernel

/-- `test_reference_type_mappings_resolve_old_paths_82`, tests/validators/test_unified_references_validator.py:1124 -/
example : (do
  let v1 ← expected p!"spec.components.channels.*.messages.*.headers.external_docs"
  check (sameClasses v1 [.ExternalDocumentation]) : Option Unit).isSome = true := by decide +kernel

/-- `test_reference_type_mappings_resolve_old_paths_83`, tests/validators/test_unified_references_validator.py:1124 -/
example : (do
  let v1 ← expected p!"spec.components.channels.*.messages.*.payload"
  check (sameClasses v1 [.MultiFormatSchema, .Schema]) : Option Unit).isSome = true := by decide +kernel

/-- `test_reference_type_mappings_resolve_old_paths_84`, tests/validators/test_unified_references_validator.py:1124 -/
example : (do
  let v1 ← expected p!"spec.components.channels.*.messages.*.payload.external_docs"
  check (sameClasses v1 [.ExternalDocumentation]) : Option Unit).isSome = true := by decide +kernel

/-- `test_reference_type_mappings_resolve_old_paths_85`, tests/validators/test_unified_references_validator.py:1124 -/
example : (do
  let v1 ← expected p!"spec.components.channels.*.messages.*.tags.*"
  check (sameClasses v1 [.Tag]) : Option Unit).isSome = true := by decide +kernel

/-- `test_reference_type_mappings_resolve_old_paths_86`, tests/validators/test_unified_references_validator.py:1124 -/
example : (do
  let v1 ← expected p!"spec.components.channels.*.messages.*.tags.*.external_docs"
  check (sameClasses v1 [.ExternalDocumentation]) : Option Unit).isSome = true := by decide +kernel

/-- `test_reference_type_mappings_resolve_old_paths_87`, tests/validators/test_unified_references_validator.py:1124 -/
example : (do
  let v1 ← expected p!"spec.components.channels.*.messages.*.traits.*"
  check (sameClasses v1 [.MessageTrait]) : Option Unit).isSome = true := by decide +kernel

/-- `test_reference_type_mappings_resolve_old_paths_88`, tests/validators/test_unified_references_validator.py:1124 -/
example : (do
  let v1 ← expected p!"spec.components.channels.*.messages.*.traits.*.bindings"
  check (sameClasses v1 [.MessageBindingsObject]) : Option Unit).isSome = true := by decide +kernel

/-- `test_reference_type_mappings_resolve_old_paths_89`, tests/validators/test_unified_references_validator.py:1124 -/
example : (do
  let v1 ← expected p!"spec.components.channels.*.messages.*.traits.*.bindings.anypointmq.headers"
  check (sameClasses v1 [.Schema]) : Option Unit).isSome = true := by decide +kernel

/-- `test_reference_type_mappings_resolve_old_paths_90`, tests/validators/test_unified_references_validator.py:1124 -/
example : (do
  let v1 ← expected p!"spec.components.channels.*.messages.*.traits.*.bindings.anypointmq.headers.external_docs"
  check (sameClasses v1 [.ExternalDocumentation]) : Option Unit).isSome = true := by decide +kernel

/-- `test_reference_type_mappings_resolve_old_paths_91`, tests/validators/test_unified_references_validator.py:1124 -/
example : (do
  let v1 ← expected p!"spec.components.channels.*.messages.*.traits.*.bindings.http.headers"
  check (sameClasses v1 [.Schema]) : Option Unit).isSome = true := by decide +kernel

/-- `test_reference_type_mappings_resolve_old_paths_92`, tests/validators/test_unified_references_validator.py:1124 -/
example : (do
  let v1 ← expected p!"spec.components.channels.*.messages.*.traits.*.bindings.http.headers.external_docs"
  check (sameClasses v1 [.ExternalDocumentation]) : Option Unit).isSome = true := by decide +kernel

/-- `test_reference_type_mappings_resolve_old_paths_93`, tests/validators/test_unified_references_validator.py:1124 -/
example : (do
  let v1 ← expected p!"spec.components.channels.*.messages.*.traits.*.bindings.jms.headers"
  check (sameClasses v1 [.Schema]) : Option Unit).isSome = true := by decide +kernel

/-- `test_reference_type_mappings_resolve_old_paths_94`, tests/validators/test_unified_references_validator.py:1124 -/
example : (do
  let v1 ← expected p!"spec.components.channels.*.messages.*.traits.*.bindings.jms.headers.external_docs"
  check (sameClasses v1 [.ExternalDocumentation]) : Option Unit).isSome = true := by decide +kernel

/-- `test_reference_type_mappings_resolve_old_paths_95`, tests/validators/test_unified_references_validator.py:1124 -/
example : (do
  let v1 ← expected p!"spec.components.channels.*.messages.*.traits.*.bindings.kafka.key"
  check (sameClasses v1 [.Schema]) : Option Unit).isSome = true := by decide +kernel

/-- `test_reference_type_mappings_resolve_old_paths_96`, tests/validators/test_unified_references_validator.py:1124 -/
example : (do
  let v1 ← expected p!"spec.components.channels.*.messages.*.traits.*.bindings.kafka.key.external_docs"
  check (sameClasses v1 [.ExternalDocumentation]) : Option Unit).isSome = true := by decide +kernel

/-- `test_reference_type_mappings_resolve_old_paths_97`, tests/validators/test_unified_references_validator.py:1124 -/
example : (do
  let v1 ← expected p!"spec.components.channels.*.messages.*.traits.*.bindings.mqtt.correlation_data"
  check (sameClasses v1 [.Schema]) : Option Unit).isSome = true := by decide +kernel

/-- `test_reference_type_mappings_resolve_old_paths_98`, tests/validators/test_unified_references_validator.py:1124 -/
example : (do
  let v1 ← expected p!"spec.components.channels.*.messages.*.traits.*.bindings.mqtt.correlation_data.external_docs"
  check (sameClasses v1 [.ExternalDocumentation]) : Option Unit).isSome = true := by decide +kernel

/-- `test_reference_type_mappings_resolve_old_paths_99`, tests/validators/test_unified_references_validator.py:1124 -/
example : (do
  let v1 ← expected p!"spec.components.channels.*.messages.*.traits.*.bindings.mqtt.response_topic"
  check (sameClasses v1 [.Schema]) : Option Unit).isSome = true := by decide +kernel

/-- `test_reference_type_mappings_resolve_old_paths_100`, tests/validators/test_unified_references_validator.py:1124 -/
example : (do
  let v1 ← expected p!"spec.components.channels.*.messages.*.traits.*.bindings.mqtt.response_topic.external_docs"
  check (sameClasses v1 [.ExternalDocumentation]) : Option Unit).isSome = true := by decide +kernel

/-- `test_reference_type_mappings_resolve_old_paths_101`, tests/validators/test_unified_references_validator.py:1124 -/
example : (do
  let v1 ← expected p!"spec.components.channels.*.messages.*.traits.*.correlation_id"
  check (sameClasses v1 [.CorrelationID]) : Option Unit).isSome = true := by decide +kernel

/-- `test_reference_type_mappings_resolve_old_paths_102`, tests/validators/test_unified_references_validator.py:1124 -/
example : (do
  let v1 ← expected p!"spec.components.channels.*.messages.*.traits.*.external_docs"
  check (sameClasses v1 [.ExternalDocumentation]) : Option Unit).isSome = true := by decide +kernel

/-- `test_reference_type_mappings_resolve_old_paths_103`, tests/validators/test_unified_references_validator.py:1124 -/
example : (do
  let v1 ← expected p!"spec.components.channels.*.messages.*.traits.*.headers"
  check (sameClasses v1 [.MultiFormatSchema, .Schema]) : Option Unit).isSome = true := by decide +kernel

/-- `test_reference_type_mappings_resolve_old_paths_104`, tests/validators/test_unified_references_validator.py:1124 -/
example : (do
  let v1 ← expected p!"spec.components.channels.*.messages.*.traits.*.headers.external_docs"
  check (sameClasses v1 [.ExternalDocumentation]) : Option Unit).isSome = true := by decide +kernel

/-- `test_reference_type_mappings_resolve_old_paths_105`, tests/validators/test_unified_references_validator.py:1124 -/
example : (do
  let v1 ← expected p!"spec.components.channels.*.messages.*.traits.*.tags.*"
  check (sameClasses v1 [.Tag]) : Option Unit).isSome = true := by decide +kernel

/-- `test_reference_type_mappings_resolve_old_paths_106`, tests/validators/test_unified_references_validator.py:1124 -/
example : (do
  let v1 ← expected p!"spec.components.channels.*.messages.*.traits.*.tags.*.external_docs"
  check (sameClasses v1 [.ExternalDocumentation]) : Option Unit).isSome = true := by decide +kernel

/-- `test_reference_type_mappings_resolve_old_paths_107`, tests/validators/test_unified_references_validator.py:1124 -/
example : (do
  let v1 ← expected p!"spec.components.channels.*.parameters.*"
  check (sameClasses v1 [.Parameter]) : Option Unit).isSome = true := by decide +kernel

/-- `test_reference_type_mappings_resolve_old_paths_108`, tests/validators/test_unified_references_validator.py:1124 -/
example : (do
  let v1 ← expected p!"spec.components.channels.*.servers.*"
  check (sameClasses v1 [.Server]) : Option Unit).isSome = true := by decide +kernel

/-- `test_reference_type_mappings_resolve_old_paths_109`, tests/validators/test_unified_references_validator.py:1124 -/
example : (do
  let v1 ← expected p!"spec.components.channels.*.tags.*"
  check (sameClasses v1 [.Tag]) : Option Unit).isSome = true := by decide +kernel

/-- `test_reference_type_mappings_resolve_old_paths_110`, tests/validators/test_unified_references_validator.py:1124 -/
example : (do
  let v1 ← expected p!"spec.components.channels.*.tags.*.external_docs"
  check (sameClasses v1 [.ExternalDocumentation]) : Option Unit).isSome = true := by decide +kernel

/-- `test_reference_type_mappings_resolve_old_paths_111`, tests/validators/test_unified_references_validator.py:1124 -/
example : (do
  let v1 ← expected p!"spec.components.correlation_ids.*"
  check (sameClasses v1 [.CorrelationID]) : Option Unit).isSome = true := by decide +kernel

/-- `test_reference_type_mappings_resolve_old_paths_112`, tests/validators/test_unified_references_validator.py:1124 -/
example : (do
  let v1 ← expected p!"spec.components.external_docs.*"
  check (sameClasses v1 [.ExternalDocumentation]) : Option Unit).isSome = true := by decide +kernel

/-- `test_reference_type_mappings_resolve_old_paths_113`, tests/validators/test_unified_references_validator.py:1124 -/
example : (do
  let v1 ← expected p!"spec.components.message_bindings.*"
  check (sameClasses v1 [.MessageBindingsObject]) : Option Unit).isSome = true := by decide +kernel

/-- `test_reference_type_mappings_resolve_old_paths_114`, tests/validators/test_unified_references_validator.py:1124 -/
example : (do
  let v1 ← expected p!"spec.components.message_bindings.*.anypointmq.headers"
  check (sameClasses v1 [.Schema]) : Option Unit).isSome = true := by decide +kernel

/-- `test_reference_type_mappings_resolve_old_paths_115`, tests/validators/test_unified_references_validator.py:1124 -/
example : (do
  let v1 ← expected p!"spec.components.message_bindings.*.anypointmq.headers.external_docs"
  check (sameClasses v1 [.ExternalDocumentation]) : Option Unit).isSome = true := by decide +kernel

/-- `test_reference_type_mappings_resolve_old_paths_116`, tests/validators/test_unified_references_validator.py:1124 -/
example : (do
  let v1 ← expected p!"spec.components.message_bindings.*.http.headers"
  check (sameClasses v1 [.Schema]) : Option Unit).isSome = true := by decide +kernel

/-- `test_reference_type_mappings_resolve_old_paths_117`, tests/validators/test_unified_references_validator.py:1124 -/
example : (do
  let v1 ← expected p!"spec.components.message_bindings.*.http.headers.external_docs"
  check (sameClasses v1 [.ExternalDocumentation]) : Option Unit).isSome = true := by decide +kernel

/-- `test_reference_type_mappings_resolve_old_paths_118`, tests/validators/test_unified_references_validator.py:1124 -/
example : (do
  let v1 ← expected p!"spec.components.message_bindings.*.jms.headers"
  check (sameClasses v1 [.Schema]) : Option Unit).isSome = true := by decide +kernel

/-- `test_reference_type_mappings_resolve_old_paths_119`, tests/validators/test_unified_references_validator.py:1124 -/
example : (do
  let v1 ← expected p!"spec.components.message_bindings.*.jms.headers.external_docs"
  check (sameClasses v1 [.ExternalDocumentation]) : Option Unit).isSome = true := by decide +kernel

/-- `test_reference_type_mappings_resolve_old_paths_120`, tests/validators/test_unified_references_validator.py:1124 -/
example : (do
  let v1 ← expected p!"spec.components.message_bindings.*.kafka.key"
  check (sameClasses v1 [.Schema]) : Option Unit).isSome = true := by decide +kernel

/-- `test_reference_type_mappings_resolve_old_paths_121`, tests/validators/test_unified_references_validator.py:1124 -/
example : (do
  let v1 ← expected p!"spec.components.message_bindings.*.kafka.key.external_docs"
  check (sameClasses v1 [.ExternalDocumentation]) : Option Unit).isSome = true := by decide +kernel

/-- `test_reference_type_mappings_resolve_old_paths_122`, tests/validators/test_unified_references_validator.py:1124 -/
example : (do
  let v1 ← expected p!"spec.components.message_bindings.*.mqtt.correlation_data"
  check (sameClasses v1 [.Schema]) : Option Unit).isSome = true := by decide +kernel

/-- `test_reference_type_mappings_resolve_old_paths_123`, tests/validators/test_unified_references_validator.py:1124 -/
example : (do
  let v1 ← expected p!"spec.components.message_bindings.*.mqtt.correlation_data.external_docs"
  check (sameClasses v1 [.ExternalDocumentation]) : Option Unit).isSome = true := by decide +kernel

/-- `test_reference_type_mappings_resolve_old_paths_124`, tests/validators/test_unified_references_validator.py:1124 -/
example : (do
  let v1 ← expected p!"spec.components.message_bindings.*.mqtt.response_topic"
  check (sameClasses v1 [.Schema]) : Option Unit).isSome = true := by decide +kernel

/-- `test_reference_type_mappings_resolve_old_paths_125`, tests/validators/test_unified_references_validator.py:1124 -/
example : (do
  let v1 ← expected p!"spec.components.message_bindings.*.mqtt.response_topic.external_docs"
  check (sameClasses v1 [.ExternalDocumentation]) : Option Unit).isSome = true := by decide +kernel

/-- `test_reference_type_mappings_resolve_old_paths_126`, tests/validators/test_unified_references_validator.py:1124 -/
example : (do
  let v1 ← expected p!"spec.components.message_traits.*"
  check (sameClasses v1 [.MessageTrait]) : Option Unit).isSome = true := by decide +kernel

/-- `test_reference_type_mappings_resolve_old_paths_127`, tests/validators/test_unified_references_validator.py:1124 -/
example : (do
  let v1 ← expected p!"spec.components.message_traits.*.bindings"
  check (sameClasses v1 [.MessageBindingsObject]) : Option Unit).isSome = true := by decide +kernel

/-- `test_reference_type_mappings_resolve_old_paths_128`, tests/validators/test_unified_references_validator.py:1124 -/
example : (do
  let v1 ← expected p!"spec.components.message_traits.*.bindings.anypointmq.headers"
  check (sameClasses v1 [.Schema]) : Option Unit).isSome = true := by decide +kernel

/-- `test_reference_type_mappings_resolve_old_paths_129`, tests/validators/test_unified_references_validator.py:1124 -/
example : (do
  let v1 ← expected p!"spec.components.message_traits.*.bindings.anypointmq.headers.external_docs"
  check (sameClasses v1 [.ExternalDocumentation]) : Option Unit).isSome = true := by decide +kernel

/-- `test_reference_type_mappings_resolve_old_paths_130`, tests/validators/test_unified_references_validator.py:1124 -/
example : (do
  let v1 ← expected p!"spec.components.message_traits.*.bindings.http.headers"
  check (sameClasses v1 [.Schema]) : Option Unit).isSome = true := by decide +kernel

/-- `test_reference_type_mappings_resolve_old_paths_131`, tests/validators/test_unified_references_validator.py:1124 -/
example : (do
  let v1 ← expected p!"spec.components.message_traits.*.bindings.http.headers.external_docs"
  check (sameClasses v1 [.ExternalDocumentation]) : Option Unit).isSome = true := by decide +kernel

/-- `test_reference_type_mappings_resolve_old_paths_132`, tests/validators/test_unified_references_validator.py:1124 -/
example : (do
  let v1 ← expected p!"spec.components.message_traits.*.bindings.jms.headers"
  check (sameClasses v1 [.Schema]) : Option Unit).isSome = true := by decide +kernel

/-- `test_reference_type_mappings_resolve_old_paths_133`, tests/validators/test_unified_references_validator.py:1124 -/
example : (do
  let v1 ← expected p!"spec.components.message_traits.*.bindings.jms.headers.external_docs"
  check (sameClasses v1 [.ExternalDocumentation]) : Option Unit).isSome = true := by decide +kernel

/-- `test_reference_type_mappings_resolve_old_paths_134`, tests/validators/test_unified_references_validator.py:1124 -/
example : (do
  let v1 ← expected p!"spec.components.message_traits.*.bindings.kafka.key"
  check (sameClasses v1 [.Schema]) : Option Unit).isSome = true := by decide +kernel

/-- `test_reference_type_mappings_resolve_old_paths_135`, tests/validators/test_unified_references_validator.py:1124 -/
example : (do
  let v1 ← expected p!"spec.components.message_traits.*.bindings.kafka.key.external_docs"
  check (sameClasses v1 [.ExternalDocumentation]) : Option Unit).isSome = true := by decide +kernel

/-- `test_reference_type_mappings_resolve_old_paths_136`, tests/validators/test_unified_references_validator.py:1124 -/
example : (do
  let v1 ← expected p!"spec.components.message_traits.*.bindings.mqtt.correlation_data"
  check (sameClasses v1 [.Schema]) : Option Unit).isSome = true := by decide +kernel

/-- `test_reference_type_mappings_resolve_old_paths_137`, tests/validators/test_unified_references_validator.py:1124 -/
example : (do
  let v1 ← expected p!"spec.components.message_traits.*.bindings.mqtt.correlation_data.external_docs"
  check (sameClasses v1 [.ExternalDocumentation]) : Option Unit).isSome = true := by decide +kernel

/-- `test_reference_type_mappings_resolve_old_paths_138`, tests/validators/test_unified_references_validator.py:1124 -/
example : (do
  let v1 ← expected p!"spec.components.message_traits.*.bindings.mqtt.response_topic"
  check (sameClasses v1 [.Schema]) : Option Unit).isSome = true := by decide +kernel

/-- `test_reference_type_mappings_resolve_old_paths_139`, tests/validators/test_unified_references_validator.py:1124 -/
example : (do
  let v1 ← expected p!"spec.components.message_traits.*.bindings.mqtt.response_topic.external_docs"
  check (sameClasses v1 [.ExternalDocumentation]) : Option Unit).isSome = true := by decide +kernel

/-- `test_reference_type_mappings_resolve_old_paths_140`, tests/validators/test_unified_references_validator.py:1124 -/
example : (do
  let v1 ← expected p!"spec.components.message_traits.*.correlation_id"
  check (sameClasses v1 [.CorrelationID]) : Option Unit).isSome = true := by decide +kernel

/-- `test_reference_type_mappings_resolve_old_paths_141`, tests/validators/test_unified_references_validator.py:1124 -/
example : (do
  let v1 ← expected p!"spec.components.message_traits.*.external_docs"
  check (sameClasses v1 [.ExternalDocumentation]) : Option Unit).isSome = true := by decide +kernel

/-- `test_reference_type_mappings_resolve_old_paths_142`, tests/validators/test_unified_references_validator.py:1124 -/
example : (do
  let v1 ← expected p!"spec.components.message_traits.*.headers"
  check (sameClasses v1 [.MultiFormatSchema, .Schema]) : Option Unit).isSome = true := by decide +kernel

/-- `test_reference_type_mappings_resolve_old_paths_143`, tests/validators/test_unified_references_validator.py:1124 -/
example : (do
  let v1 ← expected p!"spec.components.message_traits.*.headers.external_docs"
  check (sameClasses v1 [.ExternalDocumentation]) : Option Unit).isSome = true := by decide +kernel

/-- `test_reference_type_mappings_resolve_old_paths_144`, tests/validators/test_unified_references_validator.py:1124 -/
example : (do
  let v1 ← expected p!"spec.components.message_traits.*.tags.*"
  check (sameClasses v1 [.Tag]) : Option Unit).isSome = true := by decide +kernel

/-- `test_reference_type_mappings_resolve_old_paths_145`, tests/validators/test_unified_references_validator.py:1124 -/
example : (do
  let v1 ← expected p!"spec.components.message_traits.*.tags.*.external_docs"
  check (sameClasses v1 [.ExternalDocumentation]) : Option Unit).isSome = true := by decide +kernel

/-- `test_reference_type_mappings_resolve_old_paths_146`, tests/validators/test_unified_references_validator.py:1124 -/
example : (do
  let v1 ← expected p!"spec.components.messages.*"
  check (sameClasses v1 [.Message]) : Option Unit).isSome = true := by decide +kernel

/-- `test_reference_type_mappings_resolve_old_paths_147`, tests/validators/test_unified_references_validator.py:1124 -/
example : (do
  let v1 ← expected p!"spec.components.messages.*.bindings"
  check (sameClasses v1 [.MessageBindingsObject]) : Option Unit).isSome = true := by decide +kernel

/-- `test_reference_type_mappings_resolve_old_paths_148`, tests/validators/test_unified_references_validator.py:1124 -/
example : (do
  let v1 ← expected p!"spec.components.messages.*.bindings.anypointmq.headers"
  check (sameClasses v1 [.Schema]) : Option Unit).isSome = true := by decide +kernel

/-- `test_reference_type_mappings_resolve_old_paths_149`, tests/validators/test_unified_references_validator.py:1124 -/
example : (do
  let v1 ← expected p!"spec.components.messages.*.bindings.anypointmq.headers.external_docs"
  check (sameClasses v1 [.ExternalDocumentation]) : Option Unit).isSome = true := by decide +kernel

/-- `test_reference_type_mappings_resolve_old_paths_150`, tests/validators/test_unified_references_validator.py:1124 -/
example : (do
  let v1 ← expected p!"spec.components.messages.*.bindings.http.headers"
  check (sameClasses v1 [.Schema]) : Option Unit).isSome = true := by decide +kernel

/-- `test_reference_type_mappings_resolve_old_paths_151`, tests/validators/test_unified_references_validator.py:1124 -/
example : (do
  let v1 ← expected p!"spec.components.messages.*.bindings.http.headers.external_docs"
  check (sameClasses v1 [.ExternalDocumentation]) : Option Unit).isSome = true := by decide +kernel

/-- `test_reference_type_mappings_resolve_old_paths_152`, tests/validators/test_unified_references_validator.py:1124 -/
example : (do
  let v1 ← expected p!"spec.components.messages.*.bindings.jms.headers"
  check (sameClasses v1 [.Schema]) : Option Unit).isSome = true := by decide +kernel

/-- `test_reference_type_mappings_resolve_old_paths_153`, tests/validators/test_unified_references_validator.py:1124 -/
example : (do
  let v1 ← expected p!"spec.components.messages.*.bindings.jms.headers.external_docs"
  check (sameClasses v1 [.ExternalDocumentation]) : Option Unit).isSome = true := by decide +kernel

/-- `test_reference_type_mappings_resolve_old_paths_154`, tests/validators/test_unified_references_validator.py:1124 -/
example : (do
  let v1 ← expected p!"spec.components.messages.*.bindings.kafka.key"
  check (sameClasses v1 [.Schema]) : Option Unit).isSome = true := by decide +kernel

/-- `test_reference_type_mappings_resolve_old_paths_155`, tests/validators/test_unified_references_validator.py:1124 -/
example : (do
  let v1 ← expected p!"spec.components.messages.*.bindings.kafka.key.external_docs"
  check (sameClasses v1 [.ExternalDocumentation]) : Option Unit).isSome = true := by decide +kernel

/-- `test_reference_type_mappings_resolve_old_paths_156`, tests/validators/test_unified_references_validator.py:1124 -/
example : (do
  let v1 ← expected p!"spec.components.messages.*.bindings.mqtt.correlation_data"
  check (sameClasses v1 [.Schema]) : Option Unit).isSome = true := by decide +kernel

/-- `test_reference_type_mappings_resolve_old_paths_157`, tests/validators/test_unified_references_validator.py:1124 -/
example : (do
  let v1 ← expected p!"spec.components.messages.*.bindings.mqtt.correlation_data.external_docs"
  check (sameClasses v1 [.ExternalDocumentation]) : Option Unit).isSome = true := by decide +kernel

/-- `test_reference_type_mappings_resolve_old_paths_158`, tests/validators/test_unified_references_validator.py:1124 -/
example : (do
  let v1 ← expected p!"spec.components.messages.*.bindings.mqtt.response_topic"
  check (sameClasses v1 [.Schema]) : Option Unit).isSome = true := by decide +kernel

/-- `test_reference_type_mappings_resolve_old_paths_159`, tests/validators/test_unified_references_validator.py:1124 -/
example : (do
  let v1 ← expected p!"spec.components.messages.*.bindings.mqtt.response_topic.external_docs"
  check (sameClasses v1 [.ExternalDocumentation]) : Option Unit).isSome = true := by decide +kernel

/-- `test_reference_type_mappings_resolve_old_paths_160`, tests/validators/test_unified_references_validator.py:1124 -/
example : (do
  let v1 ← expected p!"spec.components.messages.*.correlation_id"
  check (sameClasses v1 [.CorrelationID]) : Option Unit).isSome = true := by decide +kernel

/-- `test_reference_type_mappings_resolve_old_paths_161`, tests/validators/test_unified_references_validator.py:1124 -/
example : (do
  let v1 ← expected p!"spec.components.messages.*.external_docs"
  check (sameClasses v1 [.ExternalDocumentation]) : Option Unit).isSome = true := by decide +kernel

/-- `test_reference_type_mappings_resolve_old_paths_162`, tests/validators/test_unified_references_validator.py:1124 -/
example : (do
  let v1 ← expected p!"spec.components.messages.*.headers"
  check (sameClasses v1 [.MultiFormatSchema, .Schema]) : Option Unit).isSome = true := by decide +kernel

/-- `test_reference_type_mappings_resolve_old_paths_163`, tests/validators/test_unified_references_validator.py:1124 -/
example : (do
  let v1 ← expected p!"spec.components.messages.*.headers.external_docs"
  check (sameClasses v1 [.ExternalDocumentation]) : Option Unit).isSome = true := by decide +kernel

/-- `test_reference_type_mappings_resolve_old_paths_164`, tests/validators/test_unified_references_validator.py:1124 -/
example : (do
  let v1 ← expected p!"spec.components.messages.*.payload"
  check (sameClasses v1 [.MultiFormatSchema, .Schema]) : Option Unit).isSome = true := by decide +kernel

/-- `test_reference_type_mappings_resolve_old_paths_165`, tests/validators/test_unified_references_validator.py:1124 -/
example : (do
  let v1 ← expected p!"spec.components.messages.*.payload.external_docs"
  check (sameClasses v1 [.ExternalDocumentation]) : Option Unit).isSome = true := by decide +kernel

/-- `test_reference_type_mappings_resolve_old_paths_166`, tests/validators/test_unified_references_validator.py:1124 -/
example : (do
  let v1 ← expected p!"spec.components.messages.*.tags.*"
  check (sameClasses v1 [.Tag]) : Option Unit).isSome = true := by decide +kernel

/-- `test_reference_type_mappings_resolve_old_paths_167`, tests/validators/test_unified_references_validator.py:1124 -/
example : (do
  let v1 ← expected p!"spec.components.messages.*.tags.*.external_docs"
  check (sameClasses v1 [.ExternalDocumentation]) : Option Unit).isSome = true := by decide +kernel

/-- `test_reference_type_mappings_resolve_old_paths_168`, tests/validators/test_unified_references_validator.py:1124 -/
example : (do
  let v1 ← expected p!"spec.components.messages.*.traits.*"
  check (sameClasses v1 [.MessageTrait]) : Option Unit).isSome = true := by decide +kernel

/-- `test_reference_type_mappings_resolve_old_paths_169`, tests/validators/test_unified_references_validator.py:1124 -/
example : (do
  let v1 ← expected p!"spec.components.messages.*.traits.*.bindings"
  check (sameClasses v1 [.MessageBindingsObject]) : Option Unit).isSome = true := by decide +kernel

/-- `test_reference_type_mappings_resolve_old_paths_170`, tests/validators/test_unified_references_validator.py:1124 -/
example : (do
  let v1 ← expected p!"spec.components.messages.*.traits.*.bindings.anypointmq.headers"
  check (sameClasses v1 [.Schema]) : Option Unit).isSome = true := by decide +kernel

/-- `test_reference_type_mappings_resolve_old_paths_171`, tests/validators/test_unified_references_validator.py:1124 -/
example : (do
  let v1 ← expected p!"spec.components.messages.*.traits.*.bindings.anypointmq.headers.external_docs"
  check (sameClasses v1 [.ExternalDocumentation]) : Option Unit).isSome = true := by decide +kernel

/-- `test_reference_type_mappings_resolve_old_paths_172`, tests/validators/test_unified_references_validator.py:1124 -/
example : (do
  let v1 ← expected p!"spec.components.messages.*.traits.*.bindings.http.headers"
  check (sameClasses v1 [.Schema]) : Option Unit).isSome = true := by decide +kernel

/-- `test_reference_type_mappings_resolve_old_paths_173`, tests/validators/test_unified_references_validator.py:1124 -/
example : (do
  let v1 ← expected p!"spec.components.messages.*.traits.*.bindings.http.headers.external_docs"
  check (sameClasses v1 [.ExternalDocumentation]) : Option Unit).isSome = true := by decide +kernel

/-- `test_reference_type_mappings_resolve_old_paths_174`, tests/validators/test_unified_references_validator.py:1124 -/
example : (do
  let v1 ← expected p!"spec.components.messages.*.traits.*.bindings.jms.headers"
  check (sameClasses v1 [.Schema]) : Option Unit).isSome = true := by decide +kernel

/-- `test_reference_type_mappings_resolve_old_paths_175`, tests/validators/test_unified_references_validator.py:1124 -/
example : (do
  let v1 ← expected p!"spec.components.messages.*.traits.*.bindings.jms.headers.external_docs"
  check (sameClasses v1 [.ExternalDocumentation]) : Option Unit).isSome = true := by decide +kernel

/-- `test_reference_type_mappings_resolve_old_paths_176`, tests/validators/test_unified_references_validator.py:1124 -/
example : (do
  let v1 ← expected p!"spec.components.messages.*.traits.*.bindings.kafka.key"
  check (sameClasses v1 [.Schema]) : Option Unit).isSome = true := by decide +kernel

/-- `test_reference_type_mappings_resolve_old_paths_177`, tests/validators/test_unified_references_validator.py:1124 -/
example : (do
  let v1 ← expected p!"spec.components.messages.*.traits.*.bindings.kafka.key.external_docs"
  check (sameClasses v1 [.ExternalDocumentation]) : Option Unit).isSome = true := by decide +kernel

/-- `test_reference_type_mappings_resolve_old_paths_178`, tests/validators/test_unified_references_validator.py:1124 -/
example : (do
  let v1 ← expected p!"spec.components.messages.*.traits.*.bindings.mqtt.correlation_data"
  check (sameClasses v1 [.Schema]) : Option Unit).isSome = true := by decide +kernel

/-- `test_reference_type_mappings_resolve_old_paths_179`, tests/validators/test_unified_references_validator.py:1124 -/
example : (do
  let v1 ← expected p!"spec.components.messages.*.traits.*.bindings.mqtt.correlation_data.external_docs"
  check (sameClasses v1 [.ExternalDocumentation]) : Option Unit).isSome = true := by decide +kernel

/-- `test_reference_type_mappings_resolve_old_paths_180`, tests/validators/test_unified_references_validator.py:1124 -/
example : (do
  let v1 ← expected p!"spec.components.messages.*.traits.*.bindings.mqtt.response_topic"
  check (sameClasses v1 [.Schema]) : Option Unit).isSome = true := by decide +kernel

/-- `test_reference_type_mappings_resolve_old_paths_181`, tests/validators/test_unified_references_validator.py:1124 -/
example : (do
  let v1 ← expected p!"spec.components.messages.*.traits.*.bindings.mqtt.response_topic.external_docs"
  check (sameClasses v1 [.ExternalDocumentation]) : Option Unit).isSome = true := by decide +kernel

/-- `test_reference_type_mappings_resolve_old_paths_182`, tests/validators/test_unified_references_validator.py:1124 -/
example : (do
  let v1 ← expected p!"spec.components.messages.*.traits.*.correlation_id"
  check (sameClasses v1 [.CorrelationID]) : Option Unit).isSome = true := by decide +kernel

/-- `test_reference_type_mappings_resolve_old_paths_183`, tests/validators/test_unified_references_validator.py:1124 -/
example : (do
  let v1 ← expected p!"spec.components.messages.*.traits.*.external_docs"
  check (sameClasses v1 [.ExternalDocumentation]) : Option Unit).isSome = true := by decide +kernel

/-- `test_reference_type_mappings_resolve_old_paths_184`, tests/validators/test_unified_references_validator.py:1124 -/
example : (do
  let v1 ← expected p!"spec.components.messages.*.traits.*.headers"
  check (sameClasses v1 [.MultiFormatSchema, .Schema]) : Option Unit).isSome = true := by decide +kernel

/-- `test_reference_type_mappings_resolve_old_paths_185`, tests/validators/test_unified_references_validator.py:1124 -/
example : (do
  let v1 ← expected p!"spec.components.messages.*.traits.*.headers.external_docs"
  check (sameClasses v1 [.ExternalDocumentation]) : Option Unit).isSome = true := by decide +kernel

/-- `test_reference_type_mappings_resolve_old_paths_186`, tests/validators/test_unified_references_validator.py:1124 -/
example : (do
  let v1 ← expected p!"spec.components.messages.*.traits.*.tags.*"
  check (sameClasses v1 [.Tag]) : Option Unit).isSome = true := by decide +kernel

/-- `test_reference_type_mappings_resolve_old_paths_187`, tests/validators/test_unified_references_validator.py:1124 -/
example : (do
  let v1 ← expected p!"spec.components.messages.*.traits.*.tags.*.external_docs"
  check (sameClasses v1 [.ExternalDocumentation]) : Option Unit).isSome = true := by decide +kernel

/-- `test_reference_type_mappings_resolve_old_paths_188`, tests/validators/test_unified_references_validator.py:1124 -/
example : (do
  let v1 ← expected p!"spec.components.operation_bindings.*"
  check (sameClasses v1 [.OperationBindingsObject]) : Option Unit).isSome = true := by decide +kernel

/-- `test_reference_type_mappings_resolve_old_paths_189`, tests/validators/test_unified_references_validator.py:1124 -/
example : (do
  let v1 ← expected p!"spec.components.operation_bindings.*.http.query"
  check (sameClasses v1 [.Schema]) : Option Unit).isSome = true := by decide +kernel

/-- `test_reference_type_mappings_resolve_old_paths_190`, tests/validators/test_unified_references_validator.py:1124 -/
example : (do
  let v1 ← expected p!"spec.components.operation_bindings.*.http.query.external_docs"
  check (sameClasses v1 [.ExternalDocumentation]) : Option Unit).isSome = true := by decide +kernel

/-- `test_reference_type_mappings_resolve_old_paths_191`, tests/validators/test_unified_references_validator.py:1124 -/
example : (do
  let v1 ← expected p!"spec.components.operation_bindings.*.kafka.client_id"
  check (sameClasses v1 [.Schema]) : Option Unit).isSome = true := by decide +kernel

/-- `test_reference_type_mappings_resolve_old_paths_192`, tests/validators/test_unified_references_validator.py:1124 -/
example : (do
  let v1 ← expected p!"spec.components.operation_bindings.*.kafka.client_id.external_docs"
  check (sameClasses v1 [.ExternalDocumentation]) : Option Unit).isSome = true := by decide +kernel

/-- `test_reference_type_mappings_resolve_old_paths_193`, tests/validators/test_unified_references_validator.py:1124 -/
example : (do
  let v1 ← expected p!"spec.components.operation_bindings.*.kafka.group_id"
  check (sameClasses v1 [.Schema]) : Option Unit).isSome = true := by decide +kernel

/-- `test_reference_type_mappings_resolve_old_paths_194`, tests/validators/test_unified_references_validator.py:1124 -/
example : (do
  let v1 ← expected p!"spec.components.operation_bindings.*.kafka.group_id.external_docs"
  check (sameClasses v1 [.ExternalDocumentation]) : Option Unit).isSome = true := by decide +kernel

/-- `test_reference_type_mappings_resolve_old_paths_195`, tests/validators/test_unified_references_validator.py:1124 -/
example : (do
  let v1 ← expected p!"spec.components.operation_bindings.*.mqtt.message_expiry_interval"
  check (sameClasses v1 [.Schema]) : Option Unit).isSome = true := by decide +kernel

/-- `test_reference_type_mappings_resolve_old_paths_196`, tests/validators/test_unified_references_validator.py:1124 -/
example : (do
  let v1 ← expected p!"spec.components.operation_bindings.*.mqtt.message_expiry_interval.external_docs"
  check (sameClasses v1 [.ExternalDocumentation]) : Option Unit).isSome = true := by decide +kernel

/-- `test_reference_type_mappings_resolve_old_paths_197`, tests/validators/test_unified_references_validator.py:1124 -/
example : (do
  let v1 ← expected p!"spec.components.operation_bindings.*.solace.priority"
  check (sameClasses v1 [.Schema]) : Option Unit).isSome = true := by decide +kernel

/-- `test_reference_type_mappings_resolve_old_paths_198`, tests/validators/test_unified_references_validator.py:1124 -/
example : (do
  let v1 ← expected p!"spec.components.operation_bindings.*.solace.priority.external_docs"
  check (sameClasses v1 [.ExternalDocumentation]) : Option Unit).isSome = true := by decide +kernel

/-- `test_reference_type_mappings_resolve_old_paths_199`, tests/validators/test_unified_references_validator.py:1124 -/
example : (do
  let v1 ← expected p!"spec.components.operation_bindings.*.solace.time_to_live"
  check (sameClasses v1 [.Schema]) : Option Unit).isSome = true := by decide +kernel

/-- `test_reference_type_mappings_resolve_old_paths_200`, tests/validators/test_unified_references_validator.py:1124 -/
example : (do
  let v1 ← expected p!"spec.components.operation_bindings.*.solace.time_to_live.external_docs"
  check (sameClasses v1 [.ExternalDocumentation]) : Option Unit).isSome = true := by decide +kernel

/-- `test_reference_type_mappings_resolve_old_paths_201`, tests/validators/test_unified_references_validator.py:1124 -/
example : (do
  let v1 ← expected p!"spec.components.operation_traits.*"
  check (sameClasses v1 [.OperationTrait]) : Option Unit).isSome = true := by decide +kernel

/-- `test_reference_type_mappings_resolve_old_paths_202`, tests/validators/test_unified_references_validator.py:1124 -/
example : (do
  let v1 ← expected p!"spec.components.operation_traits.*.bindings"
  check (sameClasses v1 [.OperationBindingsObject]) : Option Unit).isSome = true := by decide +kernel

/-- `test_reference_type_mappings_resolve_old_paths_203`, tests/validators/test_unified_references_validator.py:1124 -/
example : (do
  let v1 ← expected p!"spec.components.operation_traits.*.bindings.http.query"
  check (sameClasses v1 [.Schema]) : Option Unit).isSome = true := by decide +kernel

/-- `test_reference_type_mappings_resolve_old_paths_204`, tests/validators/test_unified_references_validator.py:1124 -/
example : (do
  let v1 ← expected p!"spec.components.operation_traits.*.bindings.http.query.external_docs"
  check (sameClasses v1 [.ExternalDocumentation]) : Option Unit).isSome = true := by decide +kernel

/-- `test_reference_type_mappings_resolve_old_paths_205`, tests/validators/test_unified_references_validator.py:1124 -/
example : (do
  let v1 ← expected p!"spec.components.operation_traits.*.bindings.kafka.client_id"
  check (sameClasses v1 [.Schema]) : Option Unit).isSome = true := by decide +kernel

/-- `test_reference_type_mappings_resolve_old_paths_206`, tests/validators/test_unified_references_validator.py:1124 -/
example : (do
  let v1 ← expected p!"spec.components.operation_traits.*.bindings.kafka.client_id.external_docs"
  check (sameClasses v1 [.ExternalDocumentation]) : Option Unit).isSome = true := by decide +kernel

/-- `test_reference_type_mappings_resolve_old_paths_207`, tests/validators/test_unified_references_validator.py:1124 -/
example : (do
  let v1 ← expected p!"spec.components.operation_traits.*.bindings.kafka.group_id"
  check (sameClasses v1 [.Schema]) : Option Unit).isSome = true := by decide +kernel

/-- `test_reference_type_mappings_resolve_old_paths_208`, tests/validators/test_unified_references_validator.py:1124 -/
example : (do
  let v1 ← expected p!"spec.components.operation_traits.*.bindings.kafka.group_id.external_docs"
  check (sameClasses v1 [.ExternalDocumentation]) : Option Unit).isSome = true := by decide +kernel

/-- `test_reference_type_mappings_resolve_old_paths_209`, tests/validators/test_unified_references_validator.py:1124 -/
example : (do
  let v1 ← expected p!"spec.components.operation_traits.*.bindings.mqtt.message_expiry_interval"
  check (sameClasses v1 [.Schema]) : Option Unit).isSome = true := by decide +kernel

/-- `test_reference_type_mappings_resolve_old_paths_210`, tests/validators/test_unified_references_validator.py:1124 -/
example : (do
  let v1 ← expected p!"spec.components.operation_traits.*.bindings.mqtt.message_expiry_interval.external_docs"
  check (sameClasses v1 [.ExternalDocumentation]) : Option Unit).isSome = true := by decide +kernel

/-- `test_reference_type_mappings_resolve_old_paths_211`, tests/validators/test_unified_references_validator.py:1124 -/
example : (do
  let v1 ← expected p!"spec.components.operation_traits.*.bindings.solace.priority"
  check (sameClasses v1 [.Schema]) : Option Unit).isSome = true := by decide +kernel

/-- `test_reference_type_mappings_resolve_old_paths_212`, tests/validators/test_unified_references_validator.py:1124 -/
example : (do
  let v1 ← expected p!"spec.components.operation_traits.*.bindings.solace.priority.external_docs"
  check (sameClasses v1 [.ExternalDocumentation]) : Option Unit).isSome = true := by decide +kernel

/-- `test_reference_type_mappings_resolve_old_paths_213`, tests/validators/test_unified_references_validator.py:1124 -/
example : (do
  let v1 ← expected p!"spec.components.operation_traits.*.bindings.solace.time_to_live"
  check (sameClasses v1 [.Schema]) : Option Unit).isSome = true := by decide +kernel

/-- `test_reference_type_mappings_resolve_old_paths_214`, tests/validators/test_unified_references_validator.py:1124 -/
example : (do
  let v1 ← expected p!"spec.components.operation_traits.*.bindings.solace.time_to_live.external_docs"
  check (sameClasses v1 [.ExternalDocumentation]) : Option Unit).isSome = true := by decide +kernel

/-- `test_reference_type_mappings_resolve_old_paths_215`, tests/validators/test_unified_references_validator.py:1124 -/
example : (do
  let v1 ← expected p!"spec.components.operation_traits.*.external_docs"
  check (sameClasses v1 [.ExternalDocumentation]) : Option Unit).isSome = true := by decide +kernel

/-- `test_reference_type_mappings_resolve_old_paths_216`, tests/validators/test_unified_references_validator.py:1124 -/
example : (do
  let v1 ← expected p!"spec.components.operation_traits.*.security.*"
  check (sameClasses v1 [.SecurityScheme]) : Option Unit).isSome = true := by decide +kernel

/-- `test_reference_type_mappings_resolve_old_paths_217`, tests/validators/test_unified_references_validator.py:1124 -/
example : (do
  let v1 ← expected p!"spec.components.operation_traits.*.tags.*"
  check (sameClasses v1 [.Tag]) : Option Unit).isSome = true := by decide +kernel

/-- `test_reference_type_mappings_resolve_old_paths_218`, tests/validators/test_unified_references_validator.py:1124 -/
example : (do
  let v1 ← expected p!"spec.components.operation_traits.*.tags.*.external_docs"
  check (sameClasses v1 [.ExternalDocumentation]) : Option Unit).isSome = true := by decide +kernel

/-- `test_reference_type_mappings_resolve_old_paths_219`, tests/validators/test_unified_references_validator.py:1124 -/
example : (do
  let v1 ← expected p!"spec.components.operations.*"
  check (sameClasses v1 [.Operation]) : Option Unit).isSome = true := by decide +kernel

/-- `test_reference_type_mappings_resolve_old_paths_220`, tests/validators/test_unified_references_validator.py:1124 -/
example : (do
  let v1 ← expected p!"spec.components.operations.*.bindings"
  check (sameClasses v1 [.OperationBindingsObject]) : Option Unit).isSome = true := by decide +kernel

/-- `test_reference_type_mappings_resolve_old_paths_221`, tests/validators/test_unified_references_validator.py:1124 -/
example : (do
  let v1 ← expected p!"spec.components.operations.*.bindings.http.query"
  check (sameClasses v1 [.Schema]) : Option Unit).isSome = true := by decide +kernel

/-- `test_reference_type_mappings_resolve_old_paths_222`, tests/validators/test_unified_references_validator.py:1124 -/
example : (do
  let v1 ← expected p!"spec.components.operations.*.bindings.http.query.external_docs"
  check (sameClasses v1 [.ExternalDocumentation]) : Option Unit).isSome = true := by decide +kernel

/-- `test_reference_type_mappings_resolve_old_paths_223`, tests/validators/test_unified_references_validator.py:1124 -/
example : (do
  let v1 ← expected p!"spec.components.operations.*.bindings.kafka.client_id"
  check (sameClasses v1 [.Schema]) : Option Unit).isSome = true := by decide +kernel

/-- `test_reference_type_mappings_resolve_old_paths_224`, tests/validators/test_unified_references_validator.py:1124 -/
example : (do
  let v1 ← expected p!"spec.components.operations.*.bindings.kafka.client_id.external_docs"
  check (sameClasses v1 [.ExternalDocumentation]) : Option Unit).isSome = true := by decide +kernel

/-- `test_reference_type_mappings_resolve_old_paths_225`, tests/validators/test_unified_references_validator.py:1124 -/
example : (do
  let v1 ← expected p!"spec.components.operations.*.bindings.kafka.group_id"
  check (sameClasses v1 [.Schema]) : Option Unit).isSome = true := by decide +kernel

/-- `test_reference_type_mappings_resolve_old_paths_226`, tests/validators/test_unified_references_validator.py:1124 -/
example : (do
  let v1 ← expected p!"spec.components.operations.*.bindings.kafka.group_id.external_docs"
  check (sameClasses v1 [.ExternalDocumentation]) : Option Unit).isSome = true := by decide +kernel

/-- `test_reference_type_mappings_resolve_old_paths_227`, tests/validators/test_unified_references_validator.py:1124 -/
example : (do
  let v1 ← expected p!"spec.components.operations.*.bindings.mqtt.message_expiry_interval"
  check (sameClasses v1 [.Schema]) : Option Unit).isSome = true := by decide +kernel

/-- `test_reference_type_mappings_resolve_old_paths_228`, tests/validators/test_unified_references_validator.py:1124 -/
example : (do
  let v1 ← expected p!"spec.components.operations.*.bindings.mqtt.message_expiry_interval.external_docs"
  check (sameClasses v1 [.ExternalDocumentation]) : Option Unit).isSome = true := by decide +kernel

/-- `test_reference_type_mappings_resolve_old_paths_229`, tests/validators/test_unified_references_validator.py:1124 -/
example : (do
  let v1 ← expected p!"spec.components.operations.*.bindings.solace.priority"
  check (sameClasses v1 [.Schema]) : Option Unit).isSome = true := by decide +kernel

/-- `test_reference_type_mappings_resolve_old_paths_230`, tests/validators/test_unified_references_validator.py:1124 -/
example : (do
  let v1 ← expected p!"spec.components.operations.*.bindings.solace.priority.external_docs"
  check (sameClasses v1 [.ExternalDocumentation]) : Option Unit).isSome = true := by decide +kernel

/-- `test_reference_type_mappings_resolve_old_paths_231`, tests/validators/test_unified_references_validator.py:1124 -/
example : (do
  let v1 ← expected p!"spec.components.operations.*.bindings.solace.time_to_live"
  check (sameClasses v1 [.Schema]) : Option Unit).isSome = true := by decide +kernel

/-- `test_reference_type_mappings_resolve_old_paths_232`, tests/validators/test_unified_references_validator.py:1124 -/
example : (do
  let v1 ← expected p!"spec.components.operations.*.bindings.solace.time_to_live.external_docs"
  check (sameClasses v1 [.ExternalDocumentation]) : Option Unit).isSome = true := by decide +kernel

/-- `test_reference_type_mappings_resolve_old_paths_233`, tests/validators/test_unified_references_validator.py:1124 -/
example : (do
  let v1 ← expected p!"spec.components.operations.*.channel"
  check (sameClasses v1 [.Channel]) : Option Unit).isSome = true := by decide +kernel

/-- `test_reference_type_mappings_resolve_old_paths_234`, tests/validators/test_unified_references_validator.py:1124 -/
example : (do
  let v1 ← expected p!"spec.components.operations.*.external_docs"
  check (sameClasses v1 [.ExternalDocumentation]) : Option Unit).isSome = true := by decide +kernel

/-- `test_reference_type_mappings_resolve_old_paths_235`, tests/validators/test_unified_references_validator.py:1124 -/
example : (do
  let v1 ← expected p!"spec.components.operations.*.messages.*"
  check (sameClasses v1 [.Message]) : Option Unit).isSome = true := by decide +kernel

/-- `test_reference_type_mappings_resolve_old_paths_236`, tests/validators/test_unified_references_validator.py:1124 -/
example : (do
  let v1 ← expected p!"spec.components.operations.*.reply"
  check (sameClasses v1 [.OperationReply]) : Option Unit).isSome = true := by decide +kernel

/-- `test_reference_type_mappings_resolve_old_paths_237`, tests/validators/test_unified_references_validator.py:1124 -/
example : (do
  let v1 ← expected p!"spec.components.operations.*.reply.address"
  check (sameClasses v1 [.OperationReplyAddress]) : Option Unit).isSome = true := by decide +kernel

/-- `test_reference_type_mappings_resolve_old_paths_238`, tests/validators/test_unified_references_validator.py:1124 -/
example : (do
  let v1 ← expected p!"spec.components.operations.*.reply.channel"
  check (sameClasses v1 [.Channel]) : Option Unit).isSome = true := by decide +kernel

/-- `test_reference_type_mappings_resolve_old_paths_239`, tests/validators/test_unified_references_validator.py:1124 -/
example : (do
  let v1 ← expected p!"spec.components.operations.*.reply.messages.*"
  check (sameClasses v1 [.Message]) : Option Unit).isSome = true := by decide +kernel

/-- `test_reference_type_mappings_resolve_old_paths_240`, tests/validators/test_unified_references_validator.py:1124 -/
example : (do
  let v1 ← expected p!"spec.components.operations.*.security.*"
  check (sameClasses v1 [.SecurityScheme]) : Option Unit).isSome = true := by decide +kernel

/-- `test_reference_type_mappings_resolve_old_paths_241`, tests/validators/test_unified_references_validator.py:1124 -/
example : (do
  let v1 ← expected p!"spec.components.operations.*.tags.*"
  check (sameClasses v1 [.Tag]) : Option Unit).isSome = true := by decide +kernel

/-- `test_reference_type_mappings_resolve_old_paths_242`, tests/validators/test_unified_references_validator.py:1124 -/
example : (do
  let v1 ← expected p!"spec.components.operations.*.tags.*.external_docs"
  check (sameClasses v1 [.ExternalDocumentation]) : Option Unit).isSome = true := by decide +kernel

/-- `test_reference_type_mappings_resolve_old_paths_243`, tests/validators/test_unified_references_validator.py:1124 -/
example : (do
  let v1 ← expected p!"spec.components.operations.*.traits.*"
  check (sameClasses v1 [.OperationTrait]) : Option Unit).isSome = true := by decide +kernel

/-- `test_reference_type_mappings_resolve_old_paths_244`, tests/validators/test_unified_references_validator.py:1124 -/
example : (do
  let v1 ← expected p!"spec.components.operations.*.traits.*.bindings"
  check (sameClasses v1 [.OperationBindingsObject]) : Option Unit).isSome = true := by decide +kernel

/-- `test_reference_type_mappings_resolve_old_paths_245`, tests/validators/test_unified_references_validator.py:1124 -/
example : (do
  let v1 ← expected p!"spec.components.operations.*.traits.*.bindings.http.query"
  check (sameClasses v1 [.Schema]) : Option Unit).isSome = true := by decide +kernel

/-- `test_reference_type_mappings_resolve_old_paths_246`, tests/validators/test_unified_references_validator.py:1124 -/
example : (do
  let v1 ← expected p!"spec.components.operations.*.traits.*.bindings.http.query.external_docs"
  check (sameClasses v1 [.ExternalDocumentation]) : Option Unit).isSome = true := by decide +kernel

/-- `test_reference_type_mappings_resolve_old_paths_247`, tests/validators/test_unified_references_validator.py:1124 -/
example : (do
  let v1 ← expected p!"spec.components.operations.*.traits.*.bindings.kafka.client_id"
  check (sameClasses v1 [.Schema]) : Option Unit).isSome = true := by decide +kernel

/-- `test_reference_type_mappings_resolve_old_paths_248`, tests/validators/test_unified_references_validator.py:1124 -/
example : (do
  let v1 ← expected p!"spec.components.operations.*.traits.*.bindings.kafka.client_id.external_docs"
  check (sameClasses v1 [.ExternalDocumentation]) : Option Unit).isSome = true := by decide +kernel

/-- `test_reference_type_mappings_resolve_old_paths_249`, tests/validators/test_unified_references_validator.py:1124 -/
example : (do
  let v1 ← expected p!"spec.components.operations.*.traits.*.bindings.kafka.group_id"
  check (sameClasses v1 [.Schema]) : Option Unit).isSome = true := by decide +kernel

/-- `test_reference_type_mappings_resolve_old_paths_250`, tests/validators/test_unified_references_validator.py:1124 -/
example : (do
  let v1 ← expected p!"spec.components.operations.*.traits.*.bindings.kafka.group_id.external_docs"
  check (sameClasses v1 [.ExternalDocumentation]) : Option Unit).isSome = true := by decide +kernel

/-- `test_reference_type_mappings_resolve_old_paths_251`, tests/validators/test_unified_references_validator.py:1124 -/
example : (do
  let v1 ← expected p!"spec.components.operations.*.traits.*.bindings.mqtt.message_expiry_interval"
  check (sameClasses v1 [.Schema]) : Option Unit).isSome = true := by decide +kernel

/-- `test_reference_type_mappings_resolve_old_paths_252`, tests/validators/test_unified_references_validator.py:1124 -/
example : (do
  let v1 ← expected p!"spec.components.operations.*.traits.*.bindings.mqtt.message_expiry_interval.external_docs"
  check (sameClasses v1 [.ExternalDocumentation]) : Option Unit).isSome = true := by decide +kernel

/-- `test_reference_type_mappings_resolve_old_paths_253`, tests/validators/test_unified_references_validator.py:1124 -/
example : (do
  let v1 ← expected p!"spec.components.operations.*.traits.*.bindings.solace.priority"
  check (sameClasses v1 [.Schema]) : Option Unit).isSome = true := by decide +kernel

/-- `test_reference_type_mappings_resolve_old_paths_254`, tests/validators/test_unified_references_validator.py:1124 -/
example : (do
  let v1 ← expected p!"spec.components.operations.*.traits.*.bindings.solace.priority.external_docs"
  check (sameClasses v1 [.ExternalDocumentation]) : Option Unit).isSome = true := by decide +kernel

/-- `test_reference_type_mappings_resolve_old_paths_255`, tests/validators/test_unified_references_validator.py:1124 -/
example : (do
  let v1 ← expected p!"spec.components.operations.*.traits.*.bindings.solace.time_to_live"
  check (sameClasses v1 [.Schema]) : Option Unit).isSome = true := by decide +kernel

/-- `test_reference_type_mappings_resolve_old_paths_256`, tests/validators/test_unified_references_validator.py:1124 -/
example : (do
  let v1 ← expected p!"spec.components.operations.*.traits.*.bindings.solace.time_to_live.external_docs"
  check (sameClasses v1 [.ExternalDocumentation]) : Option Unit).isSome = true := by decide +kernel

/-- `test_reference_type_mappings_resolve_old_paths_257`, tests/validators/test_unified_references_validator.py:1124 -/
example : (do
  let v1 ← expected p!"spec.components.operations.*.traits.*.external_docs"
  check (sameClasses v1 [.ExternalDocumentation]) : Option Unit).isSome = true := by decide +kernel

/-- `test_reference_type_mappings_resolve_old_paths_258`, tests/validators/test_unified_references_validator.py:1124 -/
example : (do
  let v1 ← expected p!"spec.components.operations.*.traits.*.security.*"
  check (sameClasses v1 [.SecurityScheme]) : Option Unit).isSome = true := by decide +kernel

/-- `test_reference_type_mappings_resolve_old_paths_259`, tests/validators/test_unified_references_validator.py:1124 -/
example : (do
  let v1 ← expected p!"spec.components.operations.*.traits.*.tags.*"
  check (sameClasses v1 [.Tag]) : Option Unit).isSome = true := by decide +kernel

/-- `test_reference_type_mappings_resolve_old_paths_260`, tests/validators/test_unified_references_validator.py:1124 -/
example : (do
  let v1 ← expected p!"spec.components.operations.*.traits.*.tags.*.external_docs"
  check (sameClasses v1 [.ExternalDocumentation]) : Option Unit).isSome = true := by decide +kernel

/-- `test_reference_type_mappings_resolve_old_paths_261`, tests/validators/test_unified_references_validator.py:1124 -/
example : (do
  let v1 ← expected p!"spec.components.parameters.*"
  check (sameClasses v1 [.Parameter]) : Option Unit).isSome = true := by decide +kernel

/-- `test_reference_type_mappings_resolve_old_paths_262`, tests/validators/test_unified_references_validator.py:1124 -/
example : (do
  let v1 ← expected p!"spec.components.replies.*"
  check (sameClasses v1 [.OperationReply]) : Option Unit).isSome = true := by decide +kernel

/-- `test_reference_type_mappings_resolve_old_paths_263`, tests/validators/test_unified_references_validator.py:1124 -/
example : (do
  let v1 ← expected p!"spec.components.replies.*.address"
  check (sameClasses v1 [.OperationReplyAddress]) : Option Unit).isSome = true := by decide +kernel

/-- `test_reference_type_mappings_resolve_old_paths_264`, tests/validators/test_unified_references_validator.py:1124 -/
example : (do
  let v1 ← expected p!"spec.components.replies.*.channel"
  check (sameClasses v1 [.Channel]) : Option Unit).isSome = true := by decide +kernel

/-- `test_reference_type_mappings_resolve_old_paths_265`, tests/validators/test_unified_references_validator.py:1124 -/
example : (do
  let v1 ← expected p!"spec.components.replies.*.messages.*"
  check (sameClasses v1 [.Message]) : Option Unit).isSome = true := by decide +kernel

/-- `test_reference_type_mappings_resolve_old_paths_266`, tests/validators/test_unified_references_validator.py:1124 -/
example : (do
  let v1 ← expected p!"spec.components.reply_addresses.*"
  check (sameClasses v1 [.OperationReplyAddress]) : Option Unit).isSome = true := by decide +kernel

/-- `test_reference_type_mappings_resolve_old_paths_267`, tests/validators/test_unified_references_validator.py:1124 -/
example : (do
  let v1 ← expected p!"spec.components.schemas.*"
  check (sameClasses v1 [.MultiFormatSchema, .Schema]) : Option Unit).isSome = true := by decide +kernel

/-- `test_reference_type_mappings_resolve_old_paths_268`, tests/validators/test_unified_references_validator.py:1124 -/
example : (do
  let v1 ← expected p!"spec.components.schemas.*.external_docs"
  check (sameClasses v1 [.ExternalDocumentation]) : Option Unit).isSome = true := by decide +kernel

/-- `test_reference_type_mappings_resolve_old_paths_269`, tests/validators/test_unified_references_validator.py:1124 -/
example : (do
  let v1 ← expected p!"spec.components.security_schemes.*"
  check (sameClasses v1 [.SecurityScheme]) : Option Unit).isSome = true := by decide +kernel

/-- `test_reference_type_mappings_resolve_old_paths_270`, tests/validators/test_unified_references_validator.py:1124 -/
example : (do
  let v1 ← expected p!"spec.components.server_bindings.*"
  check (sameClasses v1 [.ServerBindingsObject]) : Option Unit).isSome = true := by decide +kernel

/-- `test_reference_type_mappings_resolve_old_paths_271`, tests/validators/test_unified_references_validator.py:1124 -/
example : (do
  let v1 ← expected p!"spec.components.server_bindings.*.jms.properties.*.external_docs"
  check (sameClasses v1 [.ExternalDocumentation]) : Option Unit).isSome = true := by decide +kernel

/-- `test_reference_type_mappings_resolve_old_paths_272`, tests/validators/test_unified_references_validator.py:1124 -/
example : (do
  let v1 ← expected p!"spec.components.server_bindings.*.mqtt.maximum_packet_size"
  check (sameClasses v1 [.Schema]) : Option Unit).isSome = true := by decide +kernel

/-- `test_reference_type_mappings_resolve_old_paths_273`, tests/validators/test_unified_references_validator.py:1124 -/
example : (do
  let v1 ← expected p!"spec.components.server_bindings.*.mqtt.maximum_packet_size.external_docs"
  check (sameClasses v1 [.ExternalDocumentation]) : Option Unit).isSome = true := by decide +kernel

/-- `test_reference_type_mappings_resolve_old_paths_274`, tests/validators/test_unified_references_validator.py:1124 -/
example : (do
  let v1 ← expected p!"spec.components.server_bindings.*.mqtt.session_expiry_interval"
  check (sameClasses v1 [.Schema]) : Option Unit).isSome = true := by decide +kernel

/-- `test_reference_type_mappings_resolve_old_paths_275`, tests/validators/test_unified_references_validator.py:1124 -/
example : (do
  let v1 ← expected p!"spec.components.server_bindings.*.mqtt.session_expiry_interval.external_docs"
  check (sameClasses v1 [.ExternalDocumentation]) : Option Unit).isSome = true := by decide +kernel

/-- `test_reference_type_mappings_resolve_old_paths_276`, tests/validators/test_unified_references_validator.py:1124 -/
example : (do
  let v1 ← expected p!"spec.components.server_bindings.*.mqtt5.session_expiry_interval"
  check (sameClasses v1 [.Schema]) : Option Unit).isSome = true := by decide +kernel

/-- `test_reference_type_mappings_resolve_old_paths_277`, tests/validators/test_unified_references_validator.py:1124 -/
example : (do
  let v1 ← expected p!"spec.components.server_bindings.*.mqtt5.session_expiry_interval.external_docs"
  check (sameClasses v1 [.ExternalDocumentation]) : Option Unit).isSome = true := by decide +kernel

/-- `test_reference_type_mappings_resolve_old_paths_278`, tests/validators/test_unified_references_validator.py:1124 -/
example : (do
  let v1 ← expected p!"spec.components.server_variables.*"
  check (sameClasses v1 [.ServerVariable]) : Option Unit).isSome = true := by decide +kernel

/-- `test_reference_type_mappings_resolve_old_paths_279`, tests/validators/test_unified_references_validator.py:1124 -/
example : (do
  let v1 ← expected p!"spec.components.servers.*"
  check (sameClasses v1 [.Server]) : Option Unit).isSome = true := by decide +kernel

/-- `test_reference_type_mappings_resolve_old_paths_280`, tests/validators/test_unified_references_validator.py:1124 -/
example : (do
  let v1 ← expected p!"spec.components.servers.*.bindings"
  check (sameClasses v1 [.ServerBindingsObject]) : Option Unit).isSome = true := by decide +kernel

/-- `test_reference_type_mappings_resolve_old_paths_281`, tests/validators/test_unified_references_validator.py:1124 -/
example : (do
  let v1 ← expected p!"spec.components.servers.*.bindings.jms.properties.*.external_docs"
  check (sameClasses v1 [.ExternalDocumentation]) : Option Unit).isSome = true := by decide +kernel

/-- `test_reference_type_mappings_resolve_old_paths_282`, tests/validators/test_unified_references_validator.py:1124 -/
example : (do
  let v1 ← expected p!"spec.components.servers.*.bindings.mqtt.maximum_packet_size"
  check (sameClasses v1 [.Schema]) : Option Unit).isSome = true := by decide +kernel

/-- `test_reference_type_mappings_resolve_old_paths_283`, tests/validators/test_unified_references_validator.py:1124 -/
example : (do
  let v1 ← expected p!"spec.components.servers.*.bindings.mqtt.maximum_packet_size.external_docs"
  check (sameClasses v1 [.ExternalDocumentation]) : Option Unit).isSome = true := by decide +kernel

/-- `test_reference_type_mappings_resolve_old_paths_284`, tests/validators/test_unified_references_validator.py:1124 -/
example : (do
  let v1 ← expected p!"spec.components.servers.*.bindings.mqtt.session_expiry_interval"
  check (sameClasses v1 [.Schema]) : Option Unit).isSome = true := by decide +kernel

/-- `test_reference_type_mappings_resolve_old_paths_285`, tests/validators/test_unified_references_validator.py:1124 -/
example : (do
  let v1 ← expected p!"spec.components.servers.*.bindings.mqtt.session_expiry_interval.external_docs"
  check (sameClasses v1 [.ExternalDocumentation]) : Option Unit).isSome = true := by decide +kernel

/-- `test_reference_type_mappings_resolve_old_paths_286`, tests/validators/test_unified_references_validator.py:1124 -/
example : (do
  let v1 ← expected p!"spec.components.servers.*.bindings.mqtt5.session_expiry_interval"
  check (sameClasses v1 [.Schema]) : Option Unit).isSome = true := by decide +kernel

/-- `test_reference_type_mappings_resolve_old_paths_287`, tests/validators/test_unified_references_validator.py:1124 -/
example : (do
  let v1 ← expected p!"spec.components.servers.*.bindings.mqtt5.session_expiry_interval.external_docs"
  check (sameClasses v1 [.ExternalDocumentation]) : Option Unit).isSome = true := by decide +kernel

/-- `test_reference_type_mappings_resolve_old_paths_288`, tests/validators/test_unified_references_validator.py:1124 -/
example : (do
  let v1 ← expected p!"spec.components.servers.*.external_docs"
  check (sameClasses v1 [.ExternalDocumentation]) : Option Unit).isSome = true := by decide +kernel

/-- `test_reference_type_mappings_resolve_old_paths_289`, tests/validators/test_unified_references_validator.py:1124 -/
example : (do
  let v1 ← expected p!"spec.components.servers.*.security.*"
  check (sameClasses v1 [.SecurityScheme]) : Option Unit).isSome = true := by decide +kernel

/-- `test_reference_type_mappings_resolve_old_paths_290`, tests/validators/test_unified_references_validator.py:1124 -/
example : (do
  let v1 ← expected p!"spec.components.servers.*.tags.*"
  check (sameClasses v1 [.Tag]) : Option Unit).isSome = true := by decide +kernel

/-- `test_reference_type_mappings_resolve_old_paths_291`, tests/validators/test_unified_references_validator.py:1124 -/
example : (do
  let v1 ← expected p!"spec.components.servers.*.tags.*.external_docs"
  check (sameClasses v1 [.ExternalDocumentation]) : Option Unit).isSome = true := by decide +kernel

/-- `test_reference_type_mappings_resolve_old_paths_292`, tests/validators/test_unified_references_validator.py:1124 -/
example : (do
  let v1 ← expected p!"spec.components.servers.*.variables.*"
  check (sameClasses v1 [.ServerVariable]) : Option Unit).isSome = true := by decide +kernel

/-- `test_reference_type_mappings_resolve_old_paths_293`, tests/validators/test_unified_references_validator.py:1124 -/
example : (do
  let v1 ← expected p!"spec.components.tags.*"
  check (sameClasses v1 [.Tag]) : Option Unit).isSome = true := by decide +kernel

/-- `test_reference_type_mappings_resolve_old_paths_294`, tests/validators/test_unified_references_validator.py:1124 -/
example : (do
  let v1 ← expected p!"spec.components.tags.*.external_docs"
  check (sameClasses v1 [.ExternalDocumentation]) : Option Unit).isSome = true := by decide +kernel

/-- `test_reference_type_mappings_resolve_old_paths_295`, tests/validators/test_unified_references_validator.py:1124 -/
example : (do
  let v1 ← expected p!"spec.info.external_docs"
  check (sameClasses v1 [.ExternalDocumentation]) : Option Unit).isSome = true := by decide +kernel

/-- `test_reference_type_mappings_resolve_old_paths_296`, tests/validators/test_unified_references_validator.py:1124 -/
example : (do
  let v1 ← expected p!"spec.info.tags.*"
  check (sameClasses v1 [.Tag]) : Option Unit).isSome = true := by decide +kernel

/-- `test_reference_type_mappings_resolve_old_paths_297`, tests/validators/test_unified_references_validator.py:1124 -/
example : (do
  let v1 ← expected p!"spec.info.tags.*.external_docs"
  check (sameClasses v1 [.ExternalDocumentation]) : Option Unit).isSome = true := by decide +kernel

/-- `test_reference_type_mappings_resolve_old_paths_298`, tests/validators/test_unified_references_validator.py:1124 -/
example : (do
  let v1 ← expected p!"spec.operations.*"
  check (sameClasses v1 [.Operation]) : Option Unit).isSome = true := by decide +kernel

/-- `test_reference_type_mappings_resolve_old_paths_299`, tests/validators/test_unified_references_validator.py:1124 -/
example : (do
  let v1 ← expected p!"spec.operations.*.bindings"
  check (sameClasses v1 [.OperationBindingsObject]) : Option Unit).isSome = true := by decide +kernel

/-- `test_reference_type_mappings_resolve_old_paths_300`, tests/validators/test_unified_references_validator.py:1124 -/
example : (do
  let v1 ← expected p!"spec.operations.*.bindings.http.query"
  check (sameClasses v1 [.Schema]) : Option Unit).isSome = true := by decide +kernel

/-- `test_reference_type_mappings_resolve_old_paths_301`, tests/validators/test_unified_references_validator.py:1124 -/
example : (do
  let v1 ← expected p!"spec.operations.*.bindings.http.query.external_docs"
  check (sameClasses v1 [.ExternalDocumentation]) : Option Unit).isSome = true := by decide +kernel

/-- `test_reference_type_mappings_resolve_old_paths_302`, tests/validators/test_unified_references_validator.py:1124 -/
example : (do
  let v1 ← expected p!"spec.operations.*.bindings.kafka.client_id"
  check (sameClasses v1 [.Schema]) : Option Unit).isSome = true := by decide +kernel

/-- `test_reference_type_mappings_resolve_old_paths_303`, tests/validators/test_unified_references_validator.py:1124 -/
example : (do
  let v1 ← expected p!"spec.operations.*.bindings.kafka.client_id.external_docs"
  check (sameClasses v1 [.ExternalDocumentation]) : Option Unit).isSome = true := by decide +kernel

/-- `test_reference_type_mappings_resolve_old_paths_304`, tests/validators/test_unified_references_validator.py:1124 -/
example : (do
  let v1 ← expected p!"spec.operations.*.bindings.kafka.group_id"
  check (sameClasses v1 [.Schema]) : Option Unit).isSome = true := by decide +kernel

/-- `test_reference_type_mappings_resolve_old_paths_305`, tests/validators/test_unified_references_validator.py:1124 -/
example : (do
  let v1 ← expected p!"spec.operations.*.bindings.kafka.group_id.external_docs"
  check (sameClasses v1 [.ExternalDocumentation]) : Option Unit).isSome = true := by decide +kernel

/-- `test_reference_type_mappings_resolve_old_paths_306`, tests/validators/test_unified_references_validator.py:1124 -/
example : (do
  let v1 ← expected p!"spec.operations.*.bindings.mqtt.message_expiry_interval"
  check (sameClasses v1 [.Schema]) : Option Unit).isSome = true := by decide +kernel

/-- `test_reference_type_mappings_resolve_old_paths_307`, tests/validators/test_unified_references_validator.py:1124 -/
example : (do
  let v1 ← expected p!"spec.operations.*.bindings.mqtt.message_expiry_interval.external_docs"
  check (sameClasses v1 [.ExternalDocumentation]) : Option Unit).isSome = true := by decide +kernel

/-- `test_reference_type_mappings_resolve_old_paths_308`, tests/validators/test_unified_references_validator.py:1124 -/
example : (do
  let v1 ← expected p!"spec.operations.*.bindings.solace.priority"
  check (sameClasses v1 [.Schema]) : Option Unit).isSome = true := by decide +kernel

/-- `test_reference_type_mappings_resolve_old_paths_309`, tests/validators/test_unified_references_validator.py:1124 -/
example : (do
  let v1 ← expected p!"spec.operations.*.bindings.solace.priority.external_docs"
  check (sameClasses v1 [.ExternalDocumentation]) : Option Unit).isSome = true := by decide +kernel

/-- `test_reference_type_mappings_resolve_old_paths_310`, tests/validators/test_unified_references_validator.py:1124 -/
example : (do
  let v1 ← expected p!"spec.operations.*.bindings.solace.time_to_live"
  check (sameClasses v1 [.Schema]) : Option Unit).isSome = true := by decide +kernel

/-- `test_reference_type_mappings_resolve_old_paths_311`, tests/validators/test_unified_references_validator.py:1124 -/
example : (do
  let v1 ← expected p!"spec.operations.*.bindings.solace.time_to_live.external_docs"
  check (sameClasses v1 [.ExternalDocumentation]) : Option Unit).isSome = true := by decide +kernel

/-- `test_reference_type_mappings_resolve_old_paths_312`, tests/validators/test_unified_references_validator.py:1124 -/
example : (do
  let v1 ← expected p!"spec.operations.*.channel"
  check (sameClasses v1 [.Channel]) : Option Unit).isSome = true := by decide +kernel

/-- `test_reference_type_mappings_resolve_old_paths_313`, tests/validators/test_unified_references_validator.py:1124 -/
example : (do
  let v1 ← expected p!"spec.operations.*.external_docs"
  check (sameClasses v1 [.ExternalDocumentation]) : Option Unit).isSome = true := by decide +kernel

/-- `test_reference_type_mappings_resolve_old_paths_314`, tests/validators/test_unified_references_validator.py:1124 -/
example : (do
  let v1 ← expected p!"spec.operations.*.messages.*"
  check (sameClasses v1 [.Message]) : Option Unit).isSome = true := by decide +kernel

/-- `test_reference_type_mappings_resolve_old_paths_315`, tests/validators/test_unified_references_validator.py:1124 -/
example : (do
  let v1 ← expected p!"spec.operations.*.reply"
  check (sameClasses v1 [.OperationReply]) : Option Unit).isSome = true := by decide +kernel

/-- `test_reference_type_mappings_resolve_old_paths_316`, tests/validators/test_unified_references_validator.py:1124 -/
example : (do
  let v1 ← expected p!"spec.operations.*.reply.address"
  check (sameClasses v1 [.OperationReplyAddress]) : Option Unit).isSome = true := by decide +kernel

/-- `test_reference_type_mappings_resolve_old_paths_317`, tests/validators/test_unified_references_validator.py:1124 -/
example : (do
  let v1 ← expected p!"spec.operations.*.reply.channel"
  check (sameClasses v1 [.Channel]) : Option Unit).isSome = true := by decide +kernel

/-- `test_reference_type_mappings_resolve_old_paths_318`, tests/validators/test_unified_references_validator.py:1124 -/
example : (do
  let v1 ← expected p!"spec.operations.*.reply.messages.*"
  check (sameClasses v1 [.Message]) : Option Unit).isSome = true := by decide +kernel

/-- `test_reference_type_mappings_resolve_old_paths_319`, tests/validators/test_unified_references_validator.py:1124 -/
example : (do
  let v1 ← expected p!"spec.operations.*.security.*"
  check (sameClasses v1 [.SecurityScheme]) : Option Unit).isSome = true := by decide +kernel

/-- `test_reference_type_mappings_resolve_old_paths_320`, tests/validators/test_unified_references_validator.py:1124 -/
example : (do
  let v1 ← expected p!"spec.operations.*.tags.*"
  check (sameClasses v1 [.Tag]) : Option Unit).isSome = true := by decide +kernel

/-- `test_reference_type_mappings_resolve_old_paths_321`, tests/validators/test_unified_references_validator.py:1124 -/
example : (do
  let v1 ← expected p!"spec.operations.*.tags.*.external_docs"
  check (sameClasses v1 [.ExternalDocumentation]) : Option Unit).isSome = true := by decide +kernel

/-- `test_reference_type_mappings_resolve_old_paths_322`, tests/validators/test_unified_references_validator.py:1124 -/
example : (do
  let v1 ← expected p!"spec.operations.*.traits.*"
  check (sameClasses v1 [.OperationTrait]) : Option Unit).isSome = true := by decide +kernel

/-- `test_reference_type_mappings_resolve_old_paths_323`, tests/validators/test_unified_references_validator.py:1124 -/
example : (do
  let v1 ← expected p!"spec.operations.*.traits.*.bindings"
  check (sameClasses v1 [.OperationBindingsObject]) : Option Unit).isSome = true := by decide +kernel

/-- `test_reference_type_mappings_resolve_old_paths_324`, tests/validators/test_unified_references_validator.py:1124 -/
example : (do
  let v1 ← expected p!"spec.operations.*.traits.*.bindings.http.query"
  check (sameClasses v1 [.Schema]) : Option Unit).isSome = true := by decide +kernel

/-- `test_reference_type_mappings_resolve_old_paths_325`, tests/validators/test_unified_references_validator.py:1124 -/
example : (do
  let v1 ← expected p!"spec.operations.*.traits.*.bindings.http.query.external_docs"
  check (sameClasses v1 [.ExternalDocumentation]) : Option Unit).isSome = true := by decide +kernel

/-- `test_reference_type_mappings_resolve_old_paths_326`, tests/validators/test_unified_references_validator.py:1124 -/
example : (do
  let v1 ← expected p!"spec.operations.*.traits.*.bindings.kafka.client_id"
  check (sameClasses v1 [.Schema]) : Option Unit).isSome = true := by decide +kernel

/-- `test_reference_type_mappings_resolve_old_paths_327`, tests/validators/test_unified_references_validator.py:1124 -/
example : (do
  let v1 ← expected p!"spec.operations.*.traits.*.bindings.kafka.client_id.external_docs"
  check (sameClasses v1 [.ExternalDocumentation]) : Option Unit).isSome = true := by decide +kernel

/-- `test_reference_type_mappings_resolve_old_paths_328`, tests/validators/test_unified_references_validator.py:1124 -/
example : (do
  let v1 ← expected p!"spec.operations.*.traits.*.bindings.kafka.group_id"
  check (sameClasses v1 [.Schema]) : Option Unit).isSome = true := by decide +kernel

/-- `test_reference_type_mappings_resolve_old_paths_329`, tests/validators/test_unified_references_validator.py:1124 -/
example : (do
  let v1 ← expected p!"spec.operations.*.traits.*.bindings.kafka.group_id.external_docs"
  check (sameClasses v1 [.ExternalDocumentation]) : Option Unit).isSome = true := by decide +kernel

/-- `test_reference_type_mappings_resolve_old_paths_330`, tests/validators/test_unified_references_validator.py:1124 -/
example : (do
  let v1 ← expected p!"spec.operations.*.traits.*.bindings.mqtt.message_expiry_interval"
  check (sameClasses v1 [.Schema]) : Option Unit).isSome = true := by decide +kernel

/-- `test_reference_type_mappings_resolve_old_paths_331`, tests/validators/test_unified_references_validator.py:1124 -/
example : (do
  let v1 ← expected p!"spec.operations.*.traits.*.bindings.mqtt.message_expiry_interval.external_docs"
  check (sameClasses v1 [.ExternalDocumentation]) : Option Unit).isSome = true := by decide +kernel

/-- `test_reference_type_mappings_resolve_old_paths_332`, tests/validators/test_unified_references_validator.py:1124 -/
example : (do
  let v1 ← expected p!"spec.operations.*.traits.*.bindings.solace.priority"
  check (sameClasses v1 [.Schema]) : Option Unit).isSome = true := by decide +kernel

/-- `test_reference_type_mappings_resolve_old_paths_333`, tests/validators/test_unified_references_validator.py:1124 -/
example : (do
  let v1 ← expected p!"spec.operations.*.traits.*.bindings.solace.priority.external_docs"
  check (sameClasses v1 [.ExternalDocumentation]) : Option Unit).isSome = true := by decide +kernel

/-- `test_reference_type_mappings_resolve_old_paths_334`, tests/validators/test_unified_references_validator.py:1124 -/
example : (do
  let v1 ← expected p!"spec.operations.*.traits.*.bindings.solace.time_to_live"
  check (sameClasses v1 [.Schema]) : Option Unit).isSome = true := by decide +kernel

/-- `test_reference_type_mappings_resolve_old_paths_335`, tests/validators/test_unified_references_validator.py:1124 -/
example : (do
  let v1 ← expected p!"spec.operations.*.traits.*.bindings.solace.time_to_live.external_docs"
  check (sameClasses v1 [.ExternalDocumentation]) : Option Unit).isSome = true := by decide +kernel

/-- `test_reference_type_mappings_resolve_old_paths_336`, tests/validators/test_unified_references_validator.py:1124 -/
example : (do
  let v1 ← expected p!"spec.operations.*.traits.*.external_docs"
  check (sameClasses v1 [.ExternalDocumentation]) : Option Unit).isSome = true := by decide +kernel

/-- `test_reference_type_mappings_resolve_old_paths_337`, tests/validators/test_unified_references_validator.py:1124 -/
example : (do
  let v1 ← expected p!"spec.operations.*.traits.*.security.*"
  check (sameClasses v1 [.SecurityScheme]) : Option Unit).isSome = true := by decide +kernel

/-- `test_reference_type_mappings_resolve_old_paths_338`, tests/validators/test_unified_references_validator.py:1124 -/
example : (do
  let v1 ← expected p!"spec.operations.*.traits.*.tags.*"
  check (sameClasses v1 [.Tag]) : Option Unit).isSome = true := by decide +kernel

/-- `test_reference_type_mappings_resolve_old_paths_339`, tests/validators/test_unified_references_validator.py:1124 -/
example : (do
  let v1 ← expected p!"spec.operations.*.traits.*.tags.*.external_docs"
  check (sameClasses v1 [.ExternalDocumentation]) : Option Unit).isSome = true := by decide +kernel

/-- `test_reference_type_mappings_resolve_old_paths_340`, tests/validators/test_unified_references_validator.py:1124 -/
example : (do
  let v1 ← expected p!"spec.servers.*"
  check (sameClasses v1 [.Server]) : Option Unit).isSome = true := by decide +kernel

/-- `test_reference_type_mappings_resolve_old_paths_341`, tests/validators/test_unified_references_validator.py:1124 -/
example : (do
  let v1 ← expected p!"spec.servers.*.bindings"
  check (sameClasses v1 [.ServerBindingsObject]) : Option Unit).isSome = true := by decide +kernel

/-- `test_reference_type_mappings_resolve_old_paths_342`, tests/validators/test_unified_references_validator.py:1124 -/
example : (do
  let v1 ← expected p!"spec.servers.*.bindings.jms.properties.*.external_docs"
  check (sameClasses v1 [.ExternalDocumentation]) : Option Unit).isSome = true := by decide +kernel

/-- `test_reference_type_mappings_resolve_old_paths_343`, tests/validators/test_unified_references_validator.py:1124 -/
example : (do
  let v1 ← expected p!"spec.servers.*.bindings.mqtt.maximum_packet_size"
  check (sameClasses v1 [.Schema]) : Option Unit).isSome = true := by decide +kernel

/-- `test_reference_type_mappings_resolve_old_paths_344`, tests/validators/test_unified_references_validator.py:1124 -/
example : (do
  let v1 ← expected p!"spec.servers.*.bindings.mqtt.maximum_packet_size.external_docs"
  check (sameClasses v1 [.ExternalDocumentation]) : Option Unit).isSome = true := by decide +kernel

/-- `test_reference_type_mappings_resolve_old_paths_345`, tests/validators/test_unified_references_validator.py:1124 -/
example : (do
  let v1 ← expected p!"spec.servers.*.bindings.mqtt.session_expiry_interval"
  check (sameClasses v1 [.Schema]) : Option Unit).isSome = true := by decide +kernel

/-- `test_reference_type_mappings_resolve_old_paths_346`, tests/validators/test_unified_references_validator.py:1124 -/
example : (do
  let v1 ← expected p!"spec.servers.*.bindings.mqtt.session_expiry_interval.external_docs"
  check (sameClasses v1 [.ExternalDocumentation]) : Option Unit).isSome = true := by decide +kernel

/-- `test_reference_type_mappings_resolve_old_paths_347`, tests/validators/test_unified_references_validator.py:1124 -/
example : (do
  let v1 ← expected p!"spec.servers.*.bindings.mqtt5.session_expiry_interval"
  check (sameClasses v1 [.Schema]) : Option Unit).isSome = true := by decide +kernel

/-- `test_reference_type_mappings_resolve_old_paths_348`, tests/validators/test_unified_references_validator.py:1124 -/
example : (do
  let v1 ← expected p!"spec.servers.*.bindings.mqtt5.session_expiry_interval.external_docs"
  check (sameClasses v1 [.ExternalDocumentation]) : Option Unit).isSome = true := by decide +kernel

/-- `test_reference_type_mappings_resolve_old_paths_349`, tests/validators/test_unified_references_validator.py:1124 -/
example : (do
  let v1 ← expected p!"spec.servers.*.external_docs"
  check (sameClasses v1 [.ExternalDocumentation]) : Option Unit).isSome = true := by decide +kernel

/-- `test_reference_type_mappings_resolve_old_paths_350`, tests/validators/test_unified_references_validator.py:1124 -/
example : (do
  let v1 ← expected p!"spec.servers.*.security.*"
  check (sameClasses v1 [.SecurityScheme]) : Option Unit).isSome = true := by decide +kernel

/-- `test_reference_type_mappings_resolve_old_paths_351`, tests/validators/test_unified_references_validator.py:1124 -/
example : (do
  let v1 ← expected p!"spec.servers.*.tags.*"
  check (sameClasses v1 [.Tag]) : Option Unit).isSome = true := by decide +kernel

/-- `test_reference_type_mappings_resolve_old_paths_352`, tests/validators/test_unified_references_validator.py:1124 -/
example : (do
  let v1 ← expected p!"spec.servers.*.tags.*.external_docs"
  check (sameClasses v1 [.ExternalDocumentation]) : Option Unit).isSome = true := by decide +kernel

/-- `test_reference_type_mappings_resolve_old_paths_353`, tests/validators/test_unified_references_validator.py:1124 -/
example : (do
  let v1 ← expected p!"spec.servers.*.variables.*"
  check (sameClasses v1 [.ServerVariable]) : Option Unit).isSome = true := by decide +kernel

/-- `test_valid_bindings_references_0`, tests/validators/test_unified_references_validator.py:1141 -/
example : (do
  let v1 ← make .AsyncAPI3 [(p!"asyncapi", (.str p!"3.0.0")), (p!"info", (.dict [(p!"title", (.str p!"Test API")), (p!"version", (.str p!"1.0.0"))])), (p!"servers", (.dict [(p!"prod", (.dict [(p!"host", (.str p!"api.example.com")), (p!"protocol", (.str p!"https")), (p!"bindings", (.dict [(p!"$ref", (.str p!"#/components/server_bindings/httpBindings"))]))]))])), (p!"components", (.dict [(p!"serverBindings", (.dict [(p!"httpBindings", (.dict [(p!"http", (.dict []))]))]))])), (p!"extra_validators", (.list [(.proc 0)]))]
  check (!(V.isNone v1)) : Option Unit).isSome = true := by decide +kernel

/-- `test_valid_bindings_references_1`, tests/validators/test_unified_references_validator.py:1141 -/
example : (do
  let v1 ← make .AsyncAPI3 [(p!"asyncapi", (.str p!"3.0.0")), (p!"info", (.dict [(p!"title", (.str p!"Test API")), (p!"version", (.str p!"1.0.0"))])), (p!"channels", (.dict [(p!"userChannel", (.dict [(p!"address", (.str p!"user/{userId}")), (p!"bindings", (.dict [(p!"$ref", (.str p!"#/components/channel_bindings/kafkaBindings"))]))]))])), (p!"components", (.dict [(p!"channelBindings", (.dict [(p!"kafkaBindings", (.dict [(p!"kafka", (.dict [(p!"topic", (.str p!"user-events")), (p!"partitions", (.int (3)))]))]))]))])), (p!"extra_validators", (.list [(.proc 0)]))]
  check (!(V.isNone v1)) : Option Unit).isSome = true := by decide +kernel

/-- `test_valid_bindings_references_2`, tests/validators/test_unified_references_validator.py:1141 -/
example : (do
  let v1 ← make .AsyncAPI3 [(p!"asyncapi", (.str p!"3.0.0")), (p!"info", (.dict [(p!"title", (.str p!"Test API")), (p!"version", (.str p!"1.0.0"))])), (p!"operations", (.dict [(p!"sendMessage", (.dict [(p!"action", (.str p!"send")), (p!"channel", (.dict [(p!"$ref", (.str p!"#/channels/userChannel"))])), (p!"bindings", (.dict [(p!"$ref", (.str p!"#/components/operation_bindings/httpBindings"))]))]))])), (p!"channels", (.dict [(p!"userChannel", (.dict [(p!"address", (.str p!"user/{userId}"))]))])), (p!"components", (.dict [(p!"operationBindings", (.dict [(p!"httpBindings", (.dict [(p!"http", (.dict [(p!"method", (.str p!"POST"))]))]))]))])), (p!"extra_validators", (.list [(.proc 0)]))]
  check (!(V.isNone v1)) : Option Unit).isSome = true := by decide +kernel

/-- `test_valid_bindings_references_3`, tests/validators/test_unified_references_validator.py:1141 -/
example : (do
  let v1 ← make .AsyncAPI3 [(p!"asyncapi", (.str p!"3.0.0")), (p!"info", (.dict [(p!"title", (.str p!"Test API")), (p!"version", (.str p!"1.0.0"))])), (p!"components", (.dict [(p!"messages", (.dict [(p!"userMessage", (.dict [(p!"payload", (.dict [(p!"type", (.str p!"object"))])), (p!"bindings", (.dict [(p!"$ref", (.str p!"#/components/message_bindings/kafkaBindings"))]))]))])), (p!"messageBindings", (.dict [(p!"kafkaBindings", (.dict [(p!"kafka", (.dict [(p!"key", (.dict [(p!"type", (.str p!"string"))]))]))]))]))])), (p!"extra_validators", (.list [(.proc 0)]))]
  check (!(V.isNone v1)) : Option Unit).isSome = true := by decide +kernel

/-- `test_invalid_server_bindings_reference`, tests/validators/test_unified_references_validator.py:1149 -/
example : (do
  raises (do
    discard (make .AsyncAPI3 [(p!"asyncapi", (.str p!"3.0.0")), (p!"info", (.dict [(p!"title", (.str p!"Test API")), (p!"version", (.str p!"1.0.0"))])), (p!"servers", (.dict [(p!"prod", (.dict [(p!"host", (.str p!"api.example.com")), (p!"protocol", (.str p!"https")), (p!"bindings", (.dict [(p!"$ref", (.str p!"#/components/server_bindings/nonexistent"))]))]))])), (p!"extra_validators", (.list [(.proc 0)]))]) : Option Unit) : Option Unit).isSome = true := by decide +kernel

/-- `test_valid_trait_references_0`, tests/validators/test_unified_references_validator.py:1177 -/
example : (do
  let v1 ← make .AsyncAPI3 [(p!"asyncapi", (.str p!"3.0.0")), (p!"info", (.dict [(p!"title", (.str p!"Test API")), (p!"version", (.str p!"1.0.0"))])), (p!"channels", (.dict [(p!"userChannel", (.dict [(p!"address", (.str p!"user/{userId}"))]))])), (p!"components", (.dict [(p!"operations", (.dict [(p!"sendMessage", (.dict [(p!"action", (.str p!"send")), (p!"channel", (.dict [(p!"$ref", (.str p!"#/channels/userChannel"))])), (p!"traits", (.list [(.dict [(p!"$ref", (.str p!"#/components/operationTraits/commonTrait"))])]))]))])), (p!"operationTraits", (.dict [(p!"commonTrait", (.dict [(p!"bindings", (.dict [(p!"http", (.dict [(p!"method", (.str p!"POST"))]))]))]))]))])), (p!"extra_validators", (.list [(.proc 0)]))]
  check (!(V.isNone v1)) : Option Unit).isSome = true := by decide +kernel

/-- `test_valid_trait_references_1`, tests/validators/test_unified_references_validator.py:1177 -/
example : (do
  let v1 ← make .AsyncAPI3 [(p!"asyncapi", (.str p!"3.0.0")), (p!"info", (.dict [(p!"title", (.str p!"Test API")), (p!"version", (.str p!"1.0.0"))])), (p!"components", (.dict [(p!"messages", (.dict [(p!"userMessage", (.dict [(p!"payload", (.dict [(p!"type", (.str p!"object"))])), (p!"traits", (.list [(.dict [(p!"$ref", (.str p!"#/components/messageTraits/commonTrait"))])]))]))])), (p!"messageTraits", (.dict [(p!"commonTrait", (.dict [(p!"headers", (.dict [(p!"type", (.str p!"object"))]))]))]))])), (p!"extra_validators", (.list [(.proc 0)]))]
  check (!(V.isNone v1)) : Option Unit).isSome = true := by decide +kernel

/-- `test_valid_component_references_0`, tests/validators/test_unified_references_validator.py:1195 -/
example : (do
  let v1 ← make .AsyncAPI3 [(p!"asyncapi", (.str p!"3.0.0")), (p!"info", (.dict [(p!"title", (.str p!"Test API")), (p!"version", (.str p!"1.0.0"))])), (p!"components", (.dict [(p!"securitySchemes", (.dict [(p!"apiKey", (.dict [(p!"type", (.str p!"apiKey")), (p!"in", (.str p!"user"))]))]))])), (p!"servers", (.dict [(p!"prod", (.dict [(p!"host", (.str p!"api.example.com")), (p!"protocol", (.str p!"https")), (p!"security", (.list [(.dict [(p!"$ref", (.str p!"#/components/securitySchemes/apiKey"))])]))]))])), (p!"extra_validators", (.list [(.proc 0)]))]
  check (!(V.isNone v1)) : Option Unit).isSome = true := by decide +kernel

/-- `test_valid_component_references_1`, tests/validators/test_unified_references_validator.py:1195 -/
example : (do
  let v1 ← make .AsyncAPI3 [(p!"asyncapi", (.str p!"3.0.0")), (p!"info", (.dict [(p!"title", (.str p!"Test API")), (p!"version", (.str p!"1.0.0"))])), (p!"servers", (.dict [(p!"prod", (.dict [(p!"host", (.str p!"{environment}.api.example.com")), (p!"protocol", (.str p!"https")), (p!"variables", (.dict [(p!"environment", (.dict [(p!"default", (.str p!"prod")), (p!"enum", (.list [(.str p!"dev"), (.str p!"staging"), (.str p!"prod")]))]))]))]))])), (p!"extra_validators", (.list [(.proc 0)]))]
  check (!(V.isNone v1)) : Option Unit).isSome = true := by decide +kernel

/-- `test_valid_component_references_2`, tests/validators/test_unified_references_validator.py:1195 -/
example : (do
  let v1 ← make .AsyncAPI3 [(p!"asyncapi", (.str p!"3.0.0")), (p!"info", (.dict [(p!"title", (.str p!"Test API")), (p!"version", (.str p!"1.0.0"))])), (p!"components", (.dict [(p!"correlationIds", (.dict [(p!"requestId", (.dict [(p!"description", (.str p!"Unique request identifier")), (p!"location", (.str p!"$message.header#/requestId"))]))])), (p!"messages", (.dict [(p!"requestMessage", (.dict [(p!"correlationId", (.dict [(p!"$ref", (.str p!"#/components/correlationIds/requestId"))])), (p!"payload", (.dict [(p!"type", (.str p!"object"))]))]))]))])), (p!"extra_validators", (.list [(.proc 0)]))]
  check (!(V.isNone v1)) : Option Unit).isSome = true := by decide +kernel

/-- `test_valid_component_references_3`, tests/validators/test_unified_references_validator.py:1195 -/
example : (do
  let v1 ← make .AsyncAPI3 [(p!"asyncapi", (.str p!"3.0.0")), (p!"info", (.dict [(p!"title", (.str p!"Test API")), (p!"version", (.str p!"1.0.0"))])), (p!"channels", (.dict [(p!"requestChannel", (.dict [(p!"address", (.str p!"request"))])), (p!"replyChannel", (.dict [(p!"address", (.str p!"reply/{requestId}"))]))])), (p!"components", (.dict [(p!"replies", (.dict [(p!"successReply", (.dict [(p!"address", (.dict [(p!"location", (.str p!"$message.payload#/replyTo"))])), (p!"channel", (.dict [(p!"$ref", (.str p!"#/channels/replyChannel"))])), (p!"messages", (.list [(.dict [(p!"$ref", (.str p!"#/components/messages/successMessage"))])]))]))])), (p!"messages", (.dict [(p!"successMessage", (.dict [(p!"payload", (.dict [(p!"type", (.str p!"object"))]))]))])), (p!"operations", (.dict [(p!"sendRequest", (.dict [(p!"action", (.str p!"send")), (p!"channel", (.dict [(p!"$ref", (.str p!"#/channels/requestChannel"))])), (p!"reply", (.dict [(p!"$ref", (.str p!"#/components/replies/successReply"))]))]))]))])), (p!"extra_validators", (.list [(.proc 0)]))]
  check (!(V.isNone v1)) : Option Unit).isSome = true := by decide +kernel

/-- `test_valid_component_references_4`, tests/validators/test_unified_references_validator.py:1195 -/
example : (do
  let v1 ← make .AsyncAPI3 [(p!"asyncapi", (.str p!"3.0.0")), (p!"info", (.dict [(p!"title", (.str p!"Test API")), (p!"version", (.str p!"1.0.0"))])), (p!"channels", (.dict [(p!"requestChannel", (.dict [(p!"address", (.str p!"request"))])), (p!"replyChannel", (.dict [(p!"address", (.str p!"reply/{requestId}"))]))])), (p!"components", (.dict [(p!"replyAddresses", (.dict [(p!"successAddress", (.dict [(p!"location", (.str p!"$message.payload#/replyTo"))]))])), (p!"operations", (.dict [(p!"sendRequest", (.dict [(p!"action", (.str p!"send")), (p!"channel", (.dict [(p!"$ref", (.str p!"#/channels/requestChannel"))])), (p!"reply", (.dict [(p!"address", (.dict [(p!"$ref", (.str p!"#/components/replyAddresses/successAddress"))])), (p!"channel", (.dict [(p!"$ref", (.str p!"#/channels/replyChannel"))]))]))]))]))])), (p!"extra_validators", (.list [(.proc 0)]))]
  check (!(V.isNone v1)) : Option Unit).isSome = true := by decide +kernel

/-- `test_normalize_path_removes_root_and_indices`, tests/validators/test_unified_references_validator.py:1235 -/
example : (do
  check ((Path.normalize .ascii p!"spec.root.channels[0].messages[2].root") == p!"spec.channels.messages") : Option Unit).isSome = true := by decide +kernel

/-- `test_path_matches_double_star`, tests/validators/test_unified_references_validator.py:1242 -/
example : (do
  check (Path.pathMatches p!"**" p!"spec.channels") : Option Unit).isSome = true := by decide +kernel

/-- `test_path_matches_message_glob`, tests/validators/test_unified_references_validator.py:1246 -/
example : (do
  check (Path.pathMatches p!"**.messages.*" p!"spec.channels.messages.msg") : Option Unit).isSome = true := by decide +kernel

/-- `test_path_matches_single_segment_glob`, tests/validators/test_unified_references_validator.py:1250 -/
example : (do
  check (Path.pathMatches p!"spec.*.messages.*" p!"spec.channels.messages.msg") : Option Unit).isSome = true := by decide +kernel

/-- `test_path_matches_wildcard_in_segment`, tests/validators/test_unified_references_validator.py:1257 -/
example : (do
  check (Path.pathMatches p!"**.*_bindings.*" p!"spec.channel_bindings.kafka") : Option Unit).isSome = true := by decide +kernel

/-- `test_path_matches_escaped_dot_segment`, tests/validators/test_unified_references_validator.py:1264 -/
example : (do
  check (Path.pathMatches p!"spec.channels.*" p!"spec.channels.foo\\.bar") : Option Unit).isSome = true := by decide +kernel

/-- `test_path_matches_rejects_missing_segment`, tests/validators/test_unified_references_validator.py:1271 -/
example : (do
  check (!(Path.pathMatches p!"spec.channels.*" p!"spec.channels")) : Option Unit).isSome = true := by decide +kernel

/-- `test_path_matches_rejects_mismatch`, tests/validators/test_unified_references_validator.py:1275 -/
example : (do
  check (!(Path.pathMatches p!"spec.channels.*" p!"spec.channel.msg")) : Option Unit).isSome = true := by decide +kernel

/-- `test_pattern_specificity_prefers_literals`, tests/validators/test_unified_references_validator.py:1279 -/
example : (do
  check (Path.scoreLt (Path.specificity p!"**.channels.*.*") (Path.specificity p!"**.channels.*.bindings")) : Option Unit).isSome = true := by decide +kernel

/-- `test_get_expected_type_raises_for_unknown_path`, tests/validators/test_unified_references_validator.py:1305 -/
example : (do
  raises (do
    discard (expected p!"spec.unknown.path") : Option Unit) : Option Unit).isSome = true := by decide +kernel

/-- `test_get_expected_type_with_escaped_dot`, tests/validators/test_unified_references_validator.py:1310 -/
example : (do
  let v1 ← expected p!"spec.channels.foo\\.bar"
  check (sameClasses v1 [.Channel]) : Option Unit).isSome = true := by decide +kernel

/-- `test_type_compatibility_union`, tests/validators/test_unified_references_validator.py:1317 -/
example : (do
  check (Unified.compatible table (.cls .Schema) [.Schema, .MultiFormatSchema]) : Option Unit).isSome = true := by decide +kernel

/-- `test_type_compatibility_exact`, tests/validators/test_unified_references_validator.py:1324 -/
example : (do
  check (Unified.compatible table (.cls .Schema) [.Schema]) : Option Unit).isSome = true := by decide +kernel

/-- `test_type_compatibility_incompatible_type`, tests/validators/test_unified_references_validator.py:1328 -/
example : (do
  check (!(Unified.compatible table (.cls .Schema) [.Message])) : Option Unit).isSome = true := by decide +kernel

/-- `test_validate_reference_adds_ref`, tests/validators/test_unified_references_validator.py:1357 -/
example : (do
  let v1 ← make .AsyncAPI3 [(p!"asyncapi", (.str p!"3.0.0")), (p!"info", (.dict [(p!"title", (.str p!"Test API")), (p!"version", (.str p!"1.0.0"))])), (p!"channels", (.dict [(p!"test", (.dict [(p!"address", (.str p!"test"))]))]))]
  let v2 ← make .Reference [(p!"ref", (.str p!"#/channels/test"))]
  let v3 ← get v2 p!"ref"
  validateReference v1 (match v3 with | .str s => s | _ => []) p!"spec.channels.test"
  let v4 ← get v2 p!"ref"
  check (true) : Option Unit).isSome = true := by decide +kernel

/-- `test_validate_reference_cached_ref_still_validates`, tests/validators/test_unified_references_validator.py:1384 -/
example : (do
  let v1 ← make .AsyncAPI3 [(p!"asyncapi", (.str p!"3.0.0")), (p!"info", (.dict [(p!"title", (.str p!"Test API")), (p!"version", (.str p!"1.0.0"))])), (p!"channels", (.dict [(p!"test", (.dict [(p!"address", (.str p!"test"))]))]))]
  let v2 ← make .Reference [(p!"ref", (.str p!"#/channels/test"))]
  let v3 ← get v2 p!"ref"
  raises (do
    let v4 ← get v2 p!"ref"
    validateReference v1 (match v4 with | .str s => s | _ => []) p!"spec.messages" : Option Unit) : Option Unit).isSome = true := by decide +kernel

/-- `test_validate_reference_external_ref`, tests/validators/test_unified_references_validator.py:1397 -/
example : (do
  let v1 ← make .AsyncAPI3 [(p!"asyncapi", (.str p!"3.0.0")), (p!"info", (.dict [(p!"title", (.str p!"Test API")), (p!"version", (.str p!"1.0.0"))])), (p!"channels", (.dict [(p!"test", (.dict [(p!"address", (.str p!"test"))]))]))]
  let v2 ← make .Reference [(p!"ref", (.str p!"https://example.com/ref"))]
  let v3 ← get v2 p!"ref"
  validateReference v1 (match v3 with | .str s => s | _ => []) p!"spec.channels.test"
  let v4 ← get v2 p!"ref"
  check (true) : Option Unit).isSome = true := by decide +kernel

/-- `test_validate_reference_invalid_reference_error`, tests/validators/test_unified_references_validator.py:1410 -/
example : (do
  let v1 ← make .AsyncAPI3 [(p!"asyncapi", (.str p!"3.0.0")), (p!"info", (.dict [(p!"title", (.str p!"Test API")), (p!"version", (.str p!"1.0.0"))])), (p!"channels", (.dict [(p!"test", (.dict [(p!"address", (.str p!"test"))]))]))]
  let v2 ← make .Reference [(p!"ref", (.str p!"#/channels/missing"))]
  raises (do
    let v3 ← get v2 p!"ref"
    validateReference v1 (match v3 with | .str s => s | _ => []) p!"spec.channels.missing" : Option Unit) : Option Unit).isSome = true := by decide +kernel

/-- `test_validate_reference_type_mismatch_error`, tests/validators/test_unified_references_validator.py:1422 -/
example : (do
  let v1 ← make .AsyncAPI3 [(p!"asyncapi", (.str p!"3.0.0")), (p!"info", (.dict [(p!"title", (.str p!"Test API")), (p!"version", (.str p!"1.0.0"))])), (p!"channels", (.dict [(p!"test", (.dict [(p!"address", (.str p!"test"))]))]))]
  let v2 ← make .Reference [(p!"ref", (.str p!"#/channels/test"))]
  raises (do
    let v3 ← get v2 p!"ref"
    validateReference v1 (match v3 with | .str s => s | _ => []) p!"spec.messages" : Option Unit) : Option Unit).isSome = true := by decide +kernel

end Verif.Conformance
