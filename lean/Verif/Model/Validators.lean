import Verif.Model.Document
/-!
# The validators of the package

The twenty classes exported by `asyncapi3.validators` (validators/__init__.py:1-22), as processors of a document.
-/
namespace Verif.Document
open Verif Verif.Gen

/-- The classes of validators/__init__.py:1-22. -/
inductive Validator
  /-- `UnifiedReferencesValidator`, validators/unified_references_validator.py:129-178. -/
  | unified
  /-- `TagsRefValidator`, validators/tags_ref_validator.py:18-62. -/
  | tags
  /-- `ExternalDocsRefValidator`, validators/external_docs_ref_validator.py:18-71. -/
  | externalDocs
  /-- `ChannelBindingsRefValidator`, validators/channel_bindings_ref_validator.py:15-25. -/
  | channelBindings
  /-- `ChannelsRefValidator`, validators/channels_ref_validator.py:15-25. -/
  | channels
  /-- `CorrelationIdsRefValidator`, validators/correlation_ids_ref_validator.py:15-25. -/
  | correlationIds
  /-- `MessageBindingsRefValidator`, validators/message_bindings_ref_validator.py:15-25. -/
  | messageBindings
  /-- `MessageTraitsRefValidator`, validators/message_traits_ref_validator.py:15-25. -/
  | messageTraits
  /-- `MessagesRefValidator`, validators/messages_ref_validator.py:15-25. -/
  | messages
  /-- `OperationBindingsRefValidator`, validators/operation_bindings_ref_validator.py:15-25. -/
  | operationBindings
  /-- `OperationTraitsRefValidator`, validators/operation_traits_ref_validator.py:15-25. -/
  | operationTraits
  /-- `OperationsRefValidator`, validators/operations_ref_validator.py:15-25. -/
  | operations
  /-- `ParametersRefValidator`, validators/parameters_ref_validator.py:15-25. -/
  | parameters
  /-- `RepliesRefValidator`, validators/replies_ref_validator.py:15-25. -/
  | replies
  /-- `ReplyAddressesRefValidator`, validators/reply_addresses_ref_validator.py:15-25. -/
  | replyAddresses
  /-- `SchemasRefValidator`, validators/schemas_ref_validator.py:15-25. -/
  | schemas
  /-- `SecuritySchemesRefValidator`, validators/security_schemes_ref_validator.py:15-25. -/
  | securitySchemes
  /-- `ServerBindingsRefValidator`, validators/server_bindings_ref_validator.py:15-25. -/
  | serverBindings
  /-- `ServerVariablesRefValidator`, validators/server_variables_ref_validator.py:15-25. -/
  | serverVariables
  /-- `ServersRefValidator`, validators/servers_ref_validator.py:15-25. -/
  | servers
deriving DecidableEq, Repr

/-- What calling an instance of the class on a document does (`none`: it raises). Seventeen of them are
`def __call__(self, spec): return spec` (lines 23-25 of each of the `validators/*_ref_validator.py` cited at `Validator`). -/
def Validator.run (U : Uni) : Validator → V → Option V
  | .unified, doc => Document.unified U doc
  | .tags, doc => Document.tags doc
  | .externalDocs, doc => Document.externalDocs doc
  | .channelBindings, doc => some doc
  | .channels, doc => some doc
  | .correlationIds, doc => some doc
  | .messageBindings, doc => some doc
  | .messageTraits, doc => some doc
  | .messages, doc => some doc
  | .operationBindings, doc => some doc
  | .operationTraits, doc => some doc
  | .operations, doc => some doc
  | .parameters, doc => some doc
  | .replies, doc => some doc
  | .replyAddresses, doc => some doc
  | .schemas, doc => some doc
  | .securitySchemes, doc => some doc
  | .serverBindings, doc => some doc
  | .serverVariables, doc => some doc
  | .servers, doc => some doc

end Verif.Document
