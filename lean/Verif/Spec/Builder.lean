import Verif.Spec.Tree
/-!
# What `AsyncAPI3.as_builder` should give

Nothing here refers to `Verif/Model`.
-/
namespace Verif.Spec
open Verif Verif.Gen

/-- An empty collection. -/
def emptyOf (c : Cls) : V := .inst c [(p!"root", .dict [])] [] [p!"root"]

/-- The collections of `Components`, in the order of its declaration. -/
def componentCollections : List (Str × Cls) := [(p!"schemas", .Schemas), (p!"servers", .Servers), (p!"channels", .Channels),
  (p!"operations", .Operations), (p!"messages", .Messages), (p!"security_schemes", .SecuritySchemes),
  (p!"server_variables", .ServerVariables), (p!"parameters", .Parameters), (p!"correlation_ids", .CorrelationIDs),
  (p!"replies", .Replies), (p!"reply_addresses", .ReplyAddresses), (p!"external_docs", .ExternalDocs),
  (p!"tags", .ComponentsTags), (p!"operation_traits", .OperationTraits), (p!"message_traits", .MessageTraits),
  (p!"server_bindings", .ServerBindings), (p!"channel_bindings", .ChannelBindings),
  (p!"operation_bindings", .OperationBindings), (p!"message_bindings", .MessageBindings)]

/-- Components with every collection present and empty. -/
def emptyComponents : V :=
  .inst .Components (componentCollections.map fun c => (c.1, emptyOf c.2)) [] (componentCollections.map (·.1))

/-- A document with the given info and nothing else: version 3.0.0, every collection empty, no converters, and
`validator` as its only validator. -/
def emptyDocument (validator : Nat) (info : V) : V := .inst .AsyncAPI3 [
  (p!"asyncapi", .str p!"3.0.0"),
  (p!"id", .none),
  (p!"info", info),
  (p!"servers", emptyOf .Servers),
  (p!"default_content_type", .none),
  (p!"channels", emptyOf .Channels),
  (p!"operations", emptyOf .Operations),
  (p!"components", emptyComponents),
  (p!"extra_converters", .list []),
  (p!"extra_validators", .list [.proc validator])] []
  [p!"info", p!"servers", p!"channels", p!"operations", p!"components", p!"extra_converters", p!"extra_validators"]

/-- A Reference of the info object, with the class expected of its target and its string. -/
inductive InfoRef (info : V) : Cls → Str → Prop
  | docs {s} : TRef (info.attr p!"external_docs") s → InfoRef info .ExternalDocumentation s
  | tag {l v s} : info.attr p!"tags" = .list l → v ∈ l → TRef v s → InfoRef info .Tag s
  | tagDocs {l fs ex set s} : info.attr p!"tags" = .list l → .inst .Tag fs ex set ∈ l →
      TRef ((V.inst .Tag fs ex set).attr p!"external_docs") s → InfoRef info .ExternalDocumentation s

/-- The string is a path to the `externalDocs` of the info object. -/
def NamesDocs (s : Str) : Prop := Spells s [p!"info", p!"externalDocs"] ∨ Spells s [p!"info", p!"external_docs"]

/-- What is right for a Reference in an otherwise empty document: it is external, or it leads to the `externalDocs`
of the info object, and these are external, or are what is wanted. (Nothing else can be reached: tags stand in a list.) -/
def InfoRefOk (info : V) (c : Cls) (s : Str) : Prop :=
  External s ∨ NamesDocs s ∧ ((∃ r, TRef (info.attr p!"external_docs") r ∧ External r) ∨
    c = .ExternalDocumentation ∧ ∃ fs ex set, info.attr p!"external_docs" = .inst .ExternalDocumentation fs ex set)

end Verif.Spec
