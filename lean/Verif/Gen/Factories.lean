import Verif.Py.Str
/-!
Generated by tools/gen_factories.py from models/base.py. Do not edit.
-/
namespace Verif.Gen

/-- The `Reference.to_*` class methods, models/base.py:45-145. -/
inductive Factory where
  | to_root_server_name
  | to_root_channel_name
  | to_root_operation_name
  | to_component_schema_name
  | to_component_server_name
  | to_component_channel_name
  | to_component_operation_name
  | to_component_message_name
  | to_component_security_scheme_name
  | to_component_server_variable_name
  | to_component_parameter_name
  | to_component_correlation_id_name
  | to_component_reply_name
  | to_component_reply_address_name
  | to_component_external_doc_name
  | to_component_tag_name
  | to_component_operation_trait_name
  | to_component_message_trait_name
  | to_component_server_binding_name
  | to_component_channel_binding_name
  | to_component_operation_binding_name
  | to_component_message_binding_name
  deriving DecidableEq, Repr

/-- All factories. -/
def Factory.all : List Factory := [.to_root_server_name, .to_root_channel_name, .to_root_operation_name, .to_component_schema_name, .to_component_server_name, .to_component_channel_name, .to_component_operation_name, .to_component_message_name, .to_component_security_scheme_name, .to_component_server_variable_name, .to_component_parameter_name, .to_component_correlation_id_name, .to_component_reply_name, .to_component_reply_address_name, .to_component_external_doc_name, .to_component_tag_name, .to_component_operation_trait_name, .to_component_message_trait_name, .to_component_server_binding_name, .to_component_channel_binding_name, .to_component_operation_binding_name, .to_component_message_binding_name]

/-- The literal part of each factory's f-string; the name is appended to it. -/
def Factory.pre : Factory → Str
  | .to_root_server_name => p!"#/servers/"   -- base.py:46-47
  | .to_root_channel_name => p!"#/channels/"   -- base.py:50-51
  | .to_root_operation_name => p!"#/operations/"   -- base.py:54-55
  | .to_component_schema_name => p!"#/components/schemas/"   -- base.py:58-59
  | .to_component_server_name => p!"#/components/servers/"   -- base.py:62-63
  | .to_component_channel_name => p!"#/components/channels/"   -- base.py:66-67
  | .to_component_operation_name => p!"#/components/operations/"   -- base.py:70-71
  | .to_component_message_name => p!"#/components/messages/"   -- base.py:74-75
  | .to_component_security_scheme_name => p!"#/components/securitySchemes/"   -- base.py:78-81
  | .to_component_server_variable_name => p!"#/components/serverVariables/"   -- base.py:84-87
  | .to_component_parameter_name => p!"#/components/parameters/"   -- base.py:90-91
  | .to_component_correlation_id_name => p!"#/components/correlationIds/"   -- base.py:94-95
  | .to_component_reply_name => p!"#/components/replies/"   -- base.py:98-99
  | .to_component_reply_address_name => p!"#/components/replyAddresses/"   -- base.py:102-103
  | .to_component_external_doc_name => p!"#/components/externalDocs/"   -- base.py:106-107
  | .to_component_tag_name => p!"#/components/tags/"   -- base.py:110-111
  | .to_component_operation_trait_name => p!"#/components/operationTraits/"   -- base.py:114-117
  | .to_component_message_trait_name => p!"#/components/messageTraits/"   -- base.py:120-121
  | .to_component_server_binding_name => p!"#/components/serverBindings/"   -- base.py:124-125
  | .to_component_channel_binding_name => p!"#/components/channelBindings/"   -- base.py:128-131
  | .to_component_operation_binding_name => p!"#/components/operationBindings/"   -- base.py:134-138
  | .to_component_message_binding_name => p!"#/components/messageBindings/"   -- base.py:141-144

/-- `Reference.to_*(name).ref`. -/
def Factory.ref (f : Factory) (name : Str) : Str := f.pre ++ name

end Verif.Gen
