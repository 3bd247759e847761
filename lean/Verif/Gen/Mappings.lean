import Verif.Gen.Classes
/-!
Generated by tools/gen_mappings.py. Do not edit.
-/
namespace Verif.Gen

/-- `REFERENCE_TYPE_MAPPINGS`, unified_references_validator.py:48-126, in order.
A union type is the list of its members. -/
def mappings : List (Str × List Cls) := [
  (p!"**.channel", [.Channel]),
  (p!"**.channels.*", [.Channel]),
  (p!"**.reply.channel", [.Channel]),
  (p!"**.channel_bindings.*", [.ChannelBindingsObject]),
  (p!"**.channels.*.bindings", [.ChannelBindingsObject]),
  (p!"**.correlation_id", [.CorrelationID]),
  (p!"**.correlation_ids.*", [.CorrelationID]),
  (p!"**.external_docs", [.ExternalDocumentation]),
  (p!"**.external_docs.*", [.ExternalDocumentation]),
  (p!"**.messages", [.Message]),
  (p!"**.messages.*", [.Message]),
  (p!"**.reply.messages", [.Message]),
  (p!"**.message_bindings.*", [.MessageBindingsObject]),
  (p!"**.message_traits.*.bindings", [.MessageBindingsObject]),
  (p!"**.messages.*.bindings", [.MessageBindingsObject]),
  (p!"**.messages.*.traits.*.bindings", [.MessageBindingsObject]),
  (p!"**.messages.*.traits.bindings", [.MessageBindingsObject]),
  (p!"**.message_traits.*", [.MessageTrait]),
  (p!"**.messages.*.traits", [.MessageTrait]),
  (p!"**.messages.*.traits.*", [.MessageTrait]),
  (p!"**.message_traits.*.headers", [.MultiFormatSchema, .Schema]),
  (p!"**.messages.*.headers", [.MultiFormatSchema, .Schema]),
  (p!"**.messages.*.payload", [.MultiFormatSchema, .Schema]),
  (p!"**.messages.*.traits.*.headers", [.MultiFormatSchema, .Schema]),
  (p!"**.messages.*.traits.headers", [.MultiFormatSchema, .Schema]),
  (p!"**.schemas.*", [.MultiFormatSchema, .Schema]),
  (p!"**.operations.*", [.Operation]),
  (p!"**.operation_bindings.*", [.OperationBindingsObject]),
  (p!"**.operation_traits.*.bindings", [.OperationBindingsObject]),
  (p!"**.operations.*.bindings", [.OperationBindingsObject]),
  (p!"**.operations.*.traits.*.bindings", [.OperationBindingsObject]),
  (p!"**.operations.*.traits.bindings", [.OperationBindingsObject]),
  (p!"**.replies.*", [.OperationReply]),
  (p!"**.reply", [.OperationReply]),
  (p!"**.replies.*.address", [.OperationReplyAddress]),
  (p!"**.reply.address", [.OperationReplyAddress]),
  (p!"**.reply_addresses.*", [.OperationReplyAddress]),
  (p!"**.operation_traits.*", [.OperationTrait]),
  (p!"**.operations.*.traits", [.OperationTrait]),
  (p!"**.operations.*.traits.*", [.OperationTrait]),
  (p!"**.parameters.*", [.Parameter]),
  (p!"**.*_bindings.*.*.client_id", [.Schema]),
  (p!"**.*_bindings.*.*.correlation_data", [.Schema]),
  (p!"**.*_bindings.*.*.group_id", [.Schema]),
  (p!"**.*_bindings.*.*.headers", [.Schema]),
  (p!"**.*_bindings.*.*.key", [.Schema]),
  (p!"**.*_bindings.*.*.maximum_packet_size", [.Schema]),
  (p!"**.*_bindings.*.*.message_expiry_interval", [.Schema]),
  (p!"**.*_bindings.*.*.priority", [.Schema]),
  (p!"**.*_bindings.*.*.query", [.Schema]),
  (p!"**.*_bindings.*.*.response_topic", [.Schema]),
  (p!"**.*_bindings.*.*.session_expiry_interval", [.Schema]),
  (p!"**.*_bindings.*.*.time_to_live", [.Schema]),
  (p!"**.bindings.*.client_id", [.Schema]),
  (p!"**.bindings.*.correlation_data", [.Schema]),
  (p!"**.bindings.*.group_id", [.Schema]),
  (p!"**.bindings.*.headers", [.Schema]),
  (p!"**.bindings.*.key", [.Schema]),
  (p!"**.bindings.*.maximum_packet_size", [.Schema]),
  (p!"**.bindings.*.message_expiry_interval", [.Schema]),
  (p!"**.bindings.*.priority", [.Schema]),
  (p!"**.bindings.*.query", [.Schema]),
  (p!"**.bindings.*.response_topic", [.Schema]),
  (p!"**.bindings.*.session_expiry_interval", [.Schema]),
  (p!"**.bindings.*.time_to_live", [.Schema]),
  (p!"**.operations.*.traits.*.security.*", [.SecurityScheme]),
  (p!"**.security", [.SecurityScheme]),
  (p!"**.security.*", [.SecurityScheme]),
  (p!"**.security_schemes.*", [.SecurityScheme]),
  (p!"**.servers", [.Server]),
  (p!"**.servers.*", [.Server]),
  (p!"**.server_bindings.*", [.ServerBindingsObject]),
  (p!"**.servers.*.bindings", [.ServerBindingsObject]),
  (p!"**.server_variables.*", [.ServerVariable]),
  (p!"**.servers.*.variables.*", [.ServerVariable]),
  (p!"**.tags", [.Tag]),
  (p!"**.tags.*", [.Tag])]

end Verif.Gen
