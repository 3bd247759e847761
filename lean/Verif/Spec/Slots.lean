import Verif.Spec.Unified
import Verif.Gen.Mappings
import Mathlib.Data.List.Forall2
/-!
# Where References may appear, according to the class declarations

Locations are derived from the declared field types of the model classes
(`Verif/Gen/Classes.lean`), not from the validator.
-/
namespace Verif.Spec
open Verif Verif.Gen

/-- The alternatives of a type. -/
def members : Ty Cls → List (Ty Cls)
  | .union ts => ts
  | t => [t]

/-- The model classes among the alternatives, other than `Reference`. -/
def classesOf (t : Ty Cls) : List Cls :=
  (members t).filterMap fun | .model c => if c = .Reference then none else some c | _ => none

/-- `Declared steps owner t`: in some document a value declared with type `t` stands at
location `steps`; `owner` is the class and name of the field last entered. -/
inductive Declared : List LocStep → Cls × Str → Ty Cls → Prop
  | spec : Declared [] (.AsyncAPI3, []) (.model .AsyncAPI3)
  | item {l o t u i} : Declared l o t → (Ty.list u) ∈ members t → Declared (l ++ [.index i]) o u
  | entry {l o t u k} : Declared l o t → (Ty.dict u) ∈ members t → Declared (l ++ [.key k]) o u
  | field {l o t c f} : Declared l o t → Ty.model c ∈ members t → f ∈ (classDef c).fields →
      f.exclude = false → Declared (l ++ [.field f.name]) (c, f.name) f.ty

/-- A Reference may stand at `steps`, and `cs` are the classes it may point to: the
other alternatives of the declared type; for the fields declared as Reference only,
the target the AsyncAPI specification gives (channel.py:118 `servers`,
operation.py:70,80,190,240 `channel` and `messages`). -/
def Slot (steps : List LocStep) (owner : Cls × Str) (cs : List Cls) : Prop :=
  ∃ t, Declared steps owner t ∧ Ty.model .Reference ∈ members t ∧
    cs = if classesOf t ≠ [] then classesOf t
      else if owner = (.Channel, p!"servers") then [.Server]
      else if owner = (.Operation, p!"channel") ∨ owner = (.OperationReply, p!"channel") then [.Channel]
      else if owner = (.Operation, p!"messages") ∨ owner = (.OperationReply, p!"messages") then [.Message]
      else []

/-- The names with a meaning in the pattern table, and `root`. -/
def Reserved (k : Str) : Prop := k = p!"root" ∨ ∃ e ∈ mappings, k ∈ Str.split '.' e.1

/-- A key without `.`, `\` and `[` that is not reserved. (The key pattern
`^[A-Za-z0-9_\-]+$` excludes those characters.) -/
def Ordinary (k : Str) : Prop := (∀ c ∈ k, c ≠ '.' ∧ c ≠ '\\' ∧ c ≠ '[') ∧ ¬ Reserved k

/-- All keys on the way are ordinary. -/
def OrdinaryKeys (steps : List LocStep) : Prop := ∀ k, .key k ∈ steps → Ordinary k

/-- The places with a wrong expected type: the listed fields of a trait that is written
inline in a `traits` list. -/
def InlineTraitField (steps : List LocStep) (owner : Cls × Str) : Prop :=
  .field p!"traits" ∈ steps ∧
    owner ∈ [(.OperationTrait, p!"tags"), (.OperationTrait, p!"security"), (.OperationTrait, p!"external_docs"),
      (.MessageTrait, p!"tags"), (.MessageTrait, p!"correlation_id"), (.MessageTrait, p!"external_docs")]

/-- The second location is the first with some mapping keys renamed. -/
def Renamed (l l' : List LocStep) : Prop :=
  List.Forall₂ (fun a b => a = b ∨ ∃ k k', a = .key k ∧ b = .key k') l l'

/-- The collections of a document and of its components: place, class of entries. -/
def collections : List (List Str × List Cls) := [
  ([p!"servers"], [.Server]), ([p!"channels"], [.Channel]), ([p!"operations"], [.Operation]),
  ([p!"components", p!"schemas"], [.MultiFormatSchema, .Schema]),
  ([p!"components", p!"servers"], [.Server]), ([p!"components", p!"channels"], [.Channel]),
  ([p!"components", p!"operations"], [.Operation]), ([p!"components", p!"messages"], [.Message]),
  ([p!"components", p!"security_schemes"], [.SecurityScheme]),
  ([p!"components", p!"server_variables"], [.ServerVariable]),
  ([p!"components", p!"parameters"], [.Parameter]),
  ([p!"components", p!"correlation_ids"], [.CorrelationID]),
  ([p!"components", p!"replies"], [.OperationReply]),
  ([p!"components", p!"reply_addresses"], [.OperationReplyAddress]),
  ([p!"components", p!"external_docs"], [.ExternalDocumentation]),
  ([p!"components", p!"tags"], [.Tag]),
  ([p!"components", p!"operation_traits"], [.OperationTrait]),
  ([p!"components", p!"message_traits"], [.MessageTrait]),
  ([p!"components", p!"server_bindings"], [.ServerBindingsObject]),
  ([p!"components", p!"channel_bindings"], [.ChannelBindingsObject]),
  ([p!"components", p!"operation_bindings"], [.OperationBindingsObject]),
  ([p!"components", p!"message_bindings"], [.MessageBindingsObject])]

/-- The location of the entry `k` of a collection. -/
def entryAt (coll : List Str) (k : Str) : List LocStep :=
  coll.map .field ++ [.field p!"root", .key k]

/-- The entry names under which a Reference gets a wrong expected type: the names of
singular slots of another type, and `root` (harmless where the collection's own name is
such a slot). -/
def BadName (coll : List Str) (cs : List Cls) (k : Str) : Prop :=
  (∃ c, (k, c) ∈ [(p!"channel", Cls.Channel), (p!"correlation_id", .CorrelationID),
      (p!"external_docs", .ExternalDocumentation), (p!"messages", .Message), (p!"reply", .OperationReply),
      (p!"security", .SecurityScheme), (p!"servers", .Server), (p!"tags", .Tag)] ∧ cs ≠ [c]) ∨
  (k = p!"root" ∧ coll.getLast? ≠ some p!"servers" ∧ coll.getLast? ≠ some p!"messages" ∧
    coll.getLast? ≠ some p!"tags" ∧ coll.getLast? ≠ some p!"external_docs")

end Verif.Spec
