import Verif.Conformance.Support

/-! Translated from tests/models/test_base.py by tools/gen_conformance.py. -/

set_option maxRecDepth 100000
set_option linter.unusedVariables false
namespace Verif.Conformance
open Verif Verif.Gen Verif.Pyd

/-- `test_reference_validation_case_reference_basic`, tests/models/test_base.py:170 -/
example : (do
  let v1 ← load .Reference (.dict [(p!"$ref", (.str p!"#/components/schemas/Pet"))])
  check (!(V.isNone v1))
  let v2 ← get v1 p!"ref"
  check ((match v2 with | .str s => Str.startsWith s p!"#/" | _ => false)) : Option Unit).isSome = true := by decide +kernel

/-- `test_reference_validation_case_reference_components`, tests/models/test_base.py:170 -/
example : (do
  let v1 ← load .Reference (.dict [(p!"$ref", (.str p!"#/components/messages/userSignUp"))])
  check (!(V.isNone v1))
  let v2 ← get v1 p!"ref"
  check ((match v2 with | .str s => Str.startsWith s p!"#/" | _ => false)) : Option Unit).isSome = true := by decide +kernel

/-- `test_reference_serialization_case_reference_serialization_basic`, tests/models/test_base.py:184 -/
example : (do
  let v1 ← make .Reference [(p!"ref", (.str p!"#/components/schemas/Pet"))]
  check (eq (dump v1) (.dict [(p!"$ref", (.str p!"#/components/schemas/Pet"))])) : Option Unit).isSome = true := by decide +kernel

/-- `test_reference_serialization_case_reference_serialization_components`, tests/models/test_base.py:184 -/
example : (do
  let v1 ← make .Reference [(p!"ref", (.str p!"#/components/messages/userSignUp"))]
  check (eq (dump v1) (.dict [(p!"$ref", (.str p!"#/components/messages/userSignUp"))])) : Option Unit).isSome = true := by decide +kernel

/-- `test_reference_forbids_extra_fields`, tests/models/test_base.py:191 -/
example : (do
  raises (do
    discard (load .Reference (.dict [(p!"$ref", (.str p!"#/components/schemas/Pet")), (p!"extra_field", (.str p!"should_fail"))])) : Option Unit)
  check ((true) || (true)) : Option Unit).isSome = true := by decide +kernel

/-- `test_to_root_server_name`, tests/models/test_base.py:208 -/
example : (do
  let v1 ← load .Reference (.dict [(p!"$ref", .str (Factory.pre .to_root_server_name ++ p!"production"))])
  check (isA .Reference v1)
  let v2 ← get v1 p!"ref"
  check (eq v2 (.str p!"#/servers/production")) : Option Unit).isSome = true := by decide +kernel

/-- `test_to_root_channel_name`, tests/models/test_base.py:214 -/
example : (do
  let v1 ← load .Reference (.dict [(p!"$ref", .str (Factory.pre .to_root_channel_name ++ p!"userSignup"))])
  check (isA .Reference v1)
  let v2 ← get v1 p!"ref"
  check (eq v2 (.str p!"#/channels/userSignup")) : Option Unit).isSome = true := by decide +kernel

/-- `test_to_root_operation_name`, tests/models/test_base.py:220 -/
example : (do
  let v1 ← load .Reference (.dict [(p!"$ref", .str (Factory.pre .to_root_operation_name ++ p!"sendMessage"))])
  check (isA .Reference v1)
  let v2 ← get v1 p!"ref"
  check (eq v2 (.str p!"#/operations/sendMessage")) : Option Unit).isSome = true := by decide +kernel

/-- `test_to_component_schema_name`, tests/models/test_base.py:226 -/
example : (do
  let v1 ← load .Reference (.dict [(p!"$ref", .str (Factory.pre .to_component_schema_name ++ p!"Pet"))])
  check (isA .Reference v1)
  let v2 ← get v1 p!"ref"
  check (eq v2 (.str p!"#/components/schemas/Pet")) : Option Unit).isSome = true := by decide +kernel

/-- `test_to_component_server_name`, tests/models/test_base.py:232 -/
example : (do
  let v1 ← load .Reference (.dict [(p!"$ref", .str (Factory.pre .to_component_server_name ++ p!"production"))])
  check (isA .Reference v1)
  let v2 ← get v1 p!"ref"
  check (eq v2 (.str p!"#/components/servers/production")) : Option Unit).isSome = true := by decide +kernel

/-- `test_to_component_channel_name`, tests/models/test_base.py:238 -/
example : (do
  let v1 ← load .Reference (.dict [(p!"$ref", .str (Factory.pre .to_component_channel_name ++ p!"userSignup"))])
  check (isA .Reference v1)
  let v2 ← get v1 p!"ref"
  check (eq v2 (.str p!"#/components/channels/userSignup")) : Option Unit).isSome = true := by decide +kernel

/-- `test_to_component_operation_name`, tests/models/test_base.py:244 -/
example : (do
  let v1 ← load .Reference (.dict [(p!"$ref", .str (Factory.pre .to_component_operation_name ++ p!"sendMessage"))])
  check (isA .Reference v1)
  let v2 ← get v1 p!"ref"
  check (eq v2 (.str p!"#/components/operations/sendMessage")) : Option Unit).isSome = true := by decide +kernel

/-- `test_to_component_message_name`, tests/models/test_base.py:250 -/
example : (do
  let v1 ← load .Reference (.dict [(p!"$ref", .str (Factory.pre .to_component_message_name ++ p!"userSignUp"))])
  check (isA .Reference v1)
  let v2 ← get v1 p!"ref"
  check (eq v2 (.str p!"#/components/messages/userSignUp")) : Option Unit).isSome = true := by decide +kernel

/-- `test_to_component_security_scheme_name`, tests/models/test_base.py:256 -/
example : (do
  let v1 ← load .Reference (.dict [(p!"$ref", .str (Factory.pre .to_component_security_scheme_name ++ p!"oauth2"))])
  check (isA .Reference v1)
  let v2 ← get v1 p!"ref"
  check (eq v2 (.str p!"#/components/securitySchemes/oauth2")) : Option Unit).isSome = true := by decide +kernel

/-- `test_to_component_server_variable_name`, tests/models/test_base.py:262 -/
example : (do
  let v1 ← load .Reference (.dict [(p!"$ref", .str (Factory.pre .to_component_server_variable_name ++ p!"port"))])
  check (isA .Reference v1)
  let v2 ← get v1 p!"ref"
  check (eq v2 (.str p!"#/components/serverVariables/port")) : Option Unit).isSome = true := by decide +kernel

/-- `test_to_component_parameter_name`, tests/models/test_base.py:268 -/
example : (do
  let v1 ← load .Reference (.dict [(p!"$ref", .str (Factory.pre .to_component_parameter_name ++ p!"userId"))])
  check (isA .Reference v1)
  let v2 ← get v1 p!"ref"
  check (eq v2 (.str p!"#/components/parameters/userId")) : Option Unit).isSome = true := by decide +kernel

/-- `test_to_component_correlation_id_name`, tests/models/test_base.py:274 -/
example : (do
  let v1 ← load .Reference (.dict [(p!"$ref", .str (Factory.pre .to_component_correlation_id_name ++ p!"defaultCorrelationId"))])
  check (isA .Reference v1)
  let v2 ← get v1 p!"ref"
  check (eq v2 (.str p!"#/components/correlationIds/defaultCorrelationId")) : Option Unit).isSome = true := by decide +kernel

/-- `test_to_component_reply_name`, tests/models/test_base.py:280 -/
example : (do
  let v1 ← load .Reference (.dict [(p!"$ref", .str (Factory.pre .to_component_reply_name ++ p!"successReply"))])
  check (isA .Reference v1)
  let v2 ← get v1 p!"ref"
  check (eq v2 (.str p!"#/components/replies/successReply")) : Option Unit).isSome = true := by decide +kernel

/-- `test_to_component_reply_address_name`, tests/models/test_base.py:286 -/
example : (do
  let v1 ← load .Reference (.dict [(p!"$ref", .str (Factory.pre .to_component_reply_address_name ++ p!"responseAddress"))])
  check (isA .Reference v1)
  let v2 ← get v1 p!"ref"
  check (eq v2 (.str p!"#/components/replyAddresses/responseAddress")) : Option Unit).isSome = true := by decide +kernel

/-- `test_to_component_external_doc_name`, tests/models/test_base.py:292 -/
example : (do
  let v1 ← load .Reference (.dict [(p!"$ref", .str (Factory.pre .to_component_external_doc_name ++ p!"apiDocs"))])
  check (isA .Reference v1)
  let v2 ← get v1 p!"ref"
  check (eq v2 (.str p!"#/components/externalDocs/apiDocs")) : Option Unit).isSome = true := by decide +kernel

/-- `test_to_component_tag_name`, tests/models/test_base.py:298 -/
example : (do
  let v1 ← load .Reference (.dict [(p!"$ref", .str (Factory.pre .to_component_tag_name ++ p!"deprecated"))])
  check (isA .Reference v1)
  let v2 ← get v1 p!"ref"
  check (eq v2 (.str p!"#/components/tags/deprecated")) : Option Unit).isSome = true := by decide +kernel

/-- `test_to_component_operation_trait_name`, tests/models/test_base.py:304 -/
example : (do
  let v1 ← load .Reference (.dict [(p!"$ref", .str (Factory.pre .to_component_operation_trait_name ++ p!"authenticatedOperation"))])
  check (isA .Reference v1)
  let v2 ← get v1 p!"ref"
  check (eq v2 (.str p!"#/components/operationTraits/authenticatedOperation")) : Option Unit).isSome = true := by decide +kernel

/-- `test_to_component_message_trait_name`, tests/models/test_base.py:312 -/
example : (do
  let v1 ← load .Reference (.dict [(p!"$ref", .str (Factory.pre .to_component_message_trait_name ++ p!"envelopedMessage"))])
  check (isA .Reference v1)
  let v2 ← get v1 p!"ref"
  check (eq v2 (.str p!"#/components/messageTraits/envelopedMessage")) : Option Unit).isSome = true := by decide +kernel

/-- `test_to_component_server_binding_name`, tests/models/test_base.py:318 -/
example : (do
  let v1 ← load .Reference (.dict [(p!"$ref", .str (Factory.pre .to_component_server_binding_name ++ p!"mqttBinding"))])
  check (isA .Reference v1)
  let v2 ← get v1 p!"ref"
  check (eq v2 (.str p!"#/components/serverBindings/mqttBinding")) : Option Unit).isSome = true := by decide +kernel

/-- `test_to_component_channel_binding_name`, tests/models/test_base.py:324 -/
example : (do
  let v1 ← load .Reference (.dict [(p!"$ref", .str (Factory.pre .to_component_channel_binding_name ++ p!"kafkaBinding"))])
  check (isA .Reference v1)
  let v2 ← get v1 p!"ref"
  check (eq v2 (.str p!"#/components/channelBindings/kafkaBinding")) : Option Unit).isSome = true := by decide +kernel

/-- `test_to_component_operation_binding_name`, tests/models/test_base.py:330 -/
example : (do
  let v1 ← load .Reference (.dict [(p!"$ref", .str (Factory.pre .to_component_operation_binding_name ++ p!"httpBinding"))])
  check (isA .Reference v1)
  let v2 ← get v1 p!"ref"
  check (eq v2 (.str p!"#/components/operationBindings/httpBinding")) : Option Unit).isSome = true := by decide +kernel

/-- `test_to_component_message_binding_name`, tests/models/test_base.py:336 -/
example : (do
  let v1 ← load .Reference (.dict [(p!"$ref", .str (Factory.pre .to_component_message_binding_name ++ p!"amqpBinding"))])
  check (isA .Reference v1)
  let v2 ← get v1 p!"ref"
  check (eq v2 (.str p!"#/components/messageBindings/amqpBinding")) : Option Unit).isSome = true := by decide +kernel

/-- `test_external_documentation_validation_case_external_docs_basic`, tests/models/test_base.py:365 -/
example : (do
  let v1 ← load .ExternalDocumentation (.dict [(p!"url", (.str p!"https://example.com"))])
  check (!(V.isNone v1))
  let v2 ← get v1 p!"url"
  check (eq (strOf v2) (.str p!"https://example.com/")) : Option Unit).isSome = true := by decide +kernel

/-- `test_external_documentation_validation_case_external_docs_full`, tests/models/test_base.py:365 -/
example : (do
  let v1 ← load .ExternalDocumentation (.dict [(p!"description", (.str p!"Find more info here")), (p!"url", (.str p!"https://example.com"))])
  check (!(V.isNone v1))
  let v2 ← get v1 p!"url"
  check (eq (strOf v2) (.str p!"https://example.com/")) : Option Unit).isSome = true := by decide +kernel

/-- `test_external_documentation_serialization_case_external_docs_serialization_basic`, tests/models/test_base.py:379 -/
example : (do
  let v1 ← make .ExternalDocumentation [(p!"url", (.str p!"https://example.com"))]
  check (eq (dump v1) (.dict [(p!"url", (.url .any ((urlForm p!"https://example.com/").getD [])))])) : Option Unit).isSome = true := by decide +kernel

/-- `test_external_documentation_serialization_case_external_docs_serialization_full`, tests/models/test_base.py:379 -/
example : (do
  let v1 ← make .ExternalDocumentation [(p!"url", (.str p!"https://example.com")), (p!"description", (.str p!"Find more info here"))]
  check (eq (dump v1) (.dict [(p!"url", (.url .any ((urlForm p!"https://example.com/").getD []))), (p!"description", (.str p!"Find more info here"))])) : Option Unit).isSome = true := by decide +kernel

/-- `test_external_documentation_valid_extensions`, tests/models/test_base.py:396 -/
example : (do
  let v1 ← load .ExternalDocumentation (.dict [(p!"url", (.str p!"https://example.com")), (p!"description", (.str p!"Test documentation")), (p!"x-custom-extension", (.str p!"custom value")), (p!"x-vendor-specific", (.int (123))), (p!"x-detailed.info", (.bool true))])
  check (!(V.isNone (extra v1)))
  let v2 ← item (extra v1) p!"x-custom-extension"
  check (eq v2 (.str p!"custom value"))
  let v3 ← item (extra v1) p!"x-vendor-specific"
  check (eq v3 (.int (123)))
  let v4 ← item (extra v1) p!"x-detailed.info"
  check (eq v4 (.bool true))
  check (member p!"x-custom-extension" (dump v1))
  check (member p!"x-vendor-specific" (dump v1))
  check (member p!"x-detailed.info" (dump v1)) : Option Unit).isSome = true := by decide +kernel

/-- `test_external_documentation_invalid_extensions`, tests/models/test_base.py:420 -/
example : (do
  raises (do
    discard (load .ExternalDocumentation (.dict [(p!"url", (.str p!"https://example.com")), (p!"invalid-extension", (.str p!"should fail")), (p!"x-invalid_extension", (.str p!"underscore not allowed"))])) : Option Unit)
  check (true) : Option Unit).isSome = true := by decide +kernel

/-- `test_tag_validation_case_tag_basic`, tests/models/test_base.py:443 -/
example : (do
  let v1 ← load .Tag (.dict [(p!"name", (.str p!"user"))])
  check (!(V.isNone v1))
  let v2 ← get v1 p!"name"
  check (eq v2 (.str p!"user") || eq v2 (.str p!"e-commerce")) : Option Unit).isSome = true := by decide +kernel

/-- `test_tag_validation_case_tag_full`, tests/models/test_base.py:443 -/
example : (do
  let v1 ← load .Tag (.dict [(p!"name", (.str p!"user")), (p!"description", (.str p!"User-related messages"))])
  check (!(V.isNone v1))
  let v2 ← get v1 p!"name"
  check (eq v2 (.str p!"user") || eq v2 (.str p!"e-commerce")) : Option Unit).isSome = true := by decide +kernel

/-- `test_tag_validation_case_tag_with_external_docs`, tests/models/test_base.py:443 -/
example : (do
  let v1 ← load .Tag (.dict [(p!"name", (.str p!"e-commerce")), (p!"description", (.str p!"E-commerce related messages")), (p!"externalDocs", (.dict [(p!"description", (.str p!"Find more info here")), (p!"url", (.str p!"https://example.com"))]))])
  check (!(V.isNone v1))
  let v2 ← get v1 p!"name"
  check (eq v2 (.str p!"user") || eq v2 (.str p!"e-commerce")) : Option Unit).isSome = true := by decide +kernel

/-- `test_tag_serialization_case_tag_serialization_basic`, tests/models/test_base.py:459 -/
example : (do
  let v1 ← make .Tag [(p!"name", (.str p!"user"))]
  check (eq (dump v1) (.dict [(p!"name", (.str p!"user"))])) : Option Unit).isSome = true := by decide +kernel

/-- `test_tag_serialization_case_tag_serialization_full`, tests/models/test_base.py:459 -/
example : (do
  let v1 ← make .Tag [(p!"name", (.str p!"user")), (p!"description", (.str p!"User-related messages"))]
  check (eq (dump v1) (.dict [(p!"name", (.str p!"user")), (p!"description", (.str p!"User-related messages"))])) : Option Unit).isSome = true := by decide +kernel

/-- `test_tag_serialization_case_tag_serialization_with_external_docs`, tests/models/test_base.py:459 -/
example : (do
  let v1 ← make .ExternalDocumentation [(p!"url", (.str p!"https://example.com")), (p!"description", (.str p!"Find more info here"))]
  let v2 ← make .Tag [(p!"name", (.str p!"e-commerce")), (p!"description", (.str p!"E-commerce related messages")), (p!"external_docs", v1)]
  check (eq (dump v2) (.dict [(p!"name", (.str p!"e-commerce")), (p!"description", (.str p!"E-commerce related messages")), (p!"externalDocs", (.dict [(p!"url", (.url .any ((urlForm p!"https://example.com/").getD []))), (p!"description", (.str p!"Find more info here"))]))])) : Option Unit).isSome = true := by decide +kernel

/-- `test_tag_serialization_case_tag_serialization_with_reference_external_docs`, tests/models/test_base.py:459 -/
example : (do
  let v1 ← make .Reference [(p!"ref", (.str p!"#/components/externalDocs/infoDocs"))]
  let v2 ← make .Tag [(p!"name", (.str p!"user")), (p!"external_docs", v1)]
  check (eq (dump v2) (.dict [(p!"name", (.str p!"user")), (p!"externalDocs", (.dict [(p!"$ref", (.str p!"#/components/externalDocs/infoDocs"))]))])) : Option Unit).isSome = true := by decide +kernel

/-- `test_tag_with_external_docs_validation`, tests/models/test_base.py:464 -/
example : (do
  let v1 ← load .Tag (.dict [(p!"name", (.str p!"e-commerce")), (p!"description", (.str p!"E-commerce related messages")), (p!"externalDocs", (.dict [(p!"description", (.str p!"Find more info here")), (p!"url", (.str p!"https://example.com"))]))])
  let v2 ← get v1 p!"name"
  check (eq v2 (.str p!"e-commerce"))
  let v3 ← get v1 p!"description"
  check (eq v3 (.str p!"E-commerce related messages"))
  let v4 ← get v1 p!"external_docs"
  check (!(V.isNone v4))
  let v5 ← get v1 p!"external_docs"
  check (isA .ExternalDocumentation v5)
  let v6 ← get v1 p!"external_docs"
  let v7 ← get v6 p!"url"
  check (eq (strOf v7) (.str p!"https://example.com/"))
  let v8 ← get v1 p!"external_docs"
  let v9 ← get v8 p!"description"
  check (eq v9 (.str p!"Find more info here")) : Option Unit).isSome = true := by decide +kernel

/-- `test_tag_with_reference_external_docs_validation`, tests/models/test_base.py:483 -/
example : (do
  let v1 ← load .Tag (.dict [(p!"name", (.str p!"user")), (p!"externalDocs", (.dict [(p!"$ref", (.str p!"#/components/externalDocs/infoDocs"))]))])
  let v2 ← get v1 p!"name"
  check (eq v2 (.str p!"user"))
  let v3 ← get v1 p!"external_docs"
  check (!(V.isNone v3))
  let v4 ← get v1 p!"external_docs"
  check (isA .Reference v4)
  let v5 ← get v1 p!"external_docs"
  let v6 ← get v5 p!"ref"
  check (eq v6 (.str p!"#/components/externalDocs/infoDocs")) : Option Unit).isSome = true := by decide +kernel

/-- `test_tag_valid_extensions`, tests/models/test_base.py:504 -/
example : (do
  let v1 ← load .Tag (.dict [(p!"name", (.str p!"user")), (p!"description", (.str p!"User-related messages")), (p!"x-workflow-id", (.str p!"wf-123")), (p!"x-metadata", (.dict [(p!"key", (.str p!"value"))])), (p!"x-category", (.str p!"events"))])
  check (!(V.isNone (extra v1)))
  let v2 ← item (extra v1) p!"x-workflow-id"
  check (eq v2 (.str p!"wf-123"))
  let v3 ← item (extra v1) p!"x-metadata"
  check (eq v3 (.dict [(p!"key", (.str p!"value"))]))
  let v4 ← item (extra v1) p!"x-category"
  check (eq v4 (.str p!"events")) : Option Unit).isSome = true := by decide +kernel

/-- `test_tag_invalid_extensions`, tests/models/test_base.py:522 -/
example : (do
  raises (do
    discard (load .Tag (.dict [(p!"name", (.str p!"user")), (p!"not-x-prefix", (.str p!"invalid")), (p!"x-invalid@symbol", (.str p!"invalid char"))])) : Option Unit)
  check (true) : Option Unit).isSome = true := by decide +kernel

end Verif.Conformance
