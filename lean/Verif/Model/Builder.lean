import Verif.Model.Pyd
/-!
# Model of `AsyncAPI3.as_builder`
-/
namespace Verif.Builder
open Verif Verif.Gen Verif.Pyd

/-- The named arguments and their defaults, models/asyncapi.py:157-169. -/
structure Args where
  title : V := .str p!"Sample APP"
  version : V := .str p!"0.0.1"
  description : V := .none
  termsOfService : V := .none
  contact : V := .none
  license : V := .none
  tags : V := .none
  externalDocs : V := .none

/-- `Info(title=title, …)`, models/asyncapi.py:194-203. -/
def makeInfo (E : Env) (a : Args) : Option V := validate E .Info (.dict [(p!"title", a.title), (p!"version", a.version),
  (p!"description", a.description), (p!"terms_of_service", a.termsOfService), (p!"contact", a.contact),
  (p!"license", a.license), (p!"tags", a.tags), (p!"external_docs", a.externalDocs)])

/-- `Components(schemas=Schemas({}), …)`, models/asyncapi.py:205-225. -/
def makeComponents (E : Env) : Option V := do
  let schemas ← validate E .Schemas (.dict [])
  let servers ← validate E .Servers (.dict [])
  let channels ← validate E .Channels (.dict [])
  let operations ← validate E .Operations (.dict [])
  let messages ← validate E .Messages (.dict [])
  let securitySchemes ← validate E .SecuritySchemes (.dict [])
  let serverVariables ← validate E .ServerVariables (.dict [])
  let parameters ← validate E .Parameters (.dict [])
  let correlationIds ← validate E .CorrelationIDs (.dict [])
  let replies ← validate E .Replies (.dict [])
  let replyAddresses ← validate E .ReplyAddresses (.dict [])
  let externalDocs ← validate E .ExternalDocs (.dict [])
  let tags ← validate E .ComponentsTags (.dict [])
  let operationTraits ← validate E .OperationTraits (.dict [])
  let messageTraits ← validate E .MessageTraits (.dict [])
  let serverBindings ← validate E .ServerBindings (.dict [])
  let channelBindings ← validate E .ChannelBindings (.dict [])
  let operationBindings ← validate E .OperationBindings (.dict [])
  let messageBindings ← validate E .MessageBindings (.dict [])
  validate E .Components (.dict [(p!"schemas", schemas), (p!"servers", servers), (p!"channels", channels),
    (p!"operations", operations), (p!"messages", messages), (p!"security_schemes", securitySchemes),
    (p!"server_variables", serverVariables), (p!"parameters", parameters), (p!"correlation_ids", correlationIds),
    (p!"replies", replies), (p!"reply_addresses", replyAddresses), (p!"external_docs", externalDocs), (p!"tags", tags),
    (p!"operation_traits", operationTraits), (p!"message_traits", messageTraits), (p!"server_bindings", serverBindings),
    (p!"channel_bindings", channelBindings), (p!"operation_bindings", operationBindings),
    (p!"message_bindings", messageBindings)])

/-- `AsyncAPI3.as_builder(...)`, models/asyncapi.py:157-253. `unified` is the number of the processor class
`UnifiedReferencesValidator`; `kwargs` are the further keyword arguments. Simplification: called on `AsyncAPI3`
itself, not on a subclass. -/
def asBuilder (E : Env) (unified : Nat) (a : Args) (kwargs : List (Str × V)) : Option V := do
  let info ← makeInfo E a
  let components ← makeComponents E
  let servers ← validate E .Servers (.dict [])
  let channels ← validate E .Channels (.dict [])
  let operations ← validate E .Operations (.dict [])
  validate E .AsyncAPI3 (.dict (update [(p!"info", info), (p!"servers", servers), (p!"channels", channels),
    (p!"operations", operations), (p!"components", components), (p!"extra_converters", .list []),
    (p!"extra_validators", .list [.proc unified])] kwargs))

end Verif.Builder
