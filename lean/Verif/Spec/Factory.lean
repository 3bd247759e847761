import Verif.Spec.Resolve
import Verif.Gen.Classes
import Verif.Gen.Factories
/-!
# Specification of the `Reference.to_*` factories

Where the entry named by each factory lives, in Python attribute names.
-/
namespace Verif.Spec
open Verif Verif.Gen
variable {n : Nat}

/-- `.inl attr`: `spec.attr[name]`; `.inr attr`: `spec.components.attr[name]`. -/
def home : Factory → Str ⊕ Str
  | .to_root_server_name => .inl p!"servers"
  | .to_root_channel_name => .inl p!"channels"
  | .to_root_operation_name => .inl p!"operations"
  | .to_component_schema_name => .inr p!"schemas"
  | .to_component_server_name => .inr p!"servers"
  | .to_component_channel_name => .inr p!"channels"
  | .to_component_operation_name => .inr p!"operations"
  | .to_component_message_name => .inr p!"messages"
  | .to_component_security_scheme_name => .inr p!"security_schemes"
  | .to_component_server_variable_name => .inr p!"server_variables"
  | .to_component_parameter_name => .inr p!"parameters"
  | .to_component_correlation_id_name => .inr p!"correlation_ids"
  | .to_component_reply_name => .inr p!"replies"
  | .to_component_reply_address_name => .inr p!"reply_addresses"
  | .to_component_external_doc_name => .inr p!"external_docs"
  | .to_component_tag_name => .inr p!"tags"
  | .to_component_operation_trait_name => .inr p!"operation_traits"
  | .to_component_message_trait_name => .inr p!"message_traits"
  | .to_component_server_binding_name => .inr p!"server_bindings"
  | .to_component_channel_binding_name => .inr p!"channel_bindings"
  | .to_component_operation_binding_name => .inr p!"operation_bindings"
  | .to_component_message_binding_name => .inr p!"message_bindings"

/-- The value of the attribute. -/
inductive Holds (D : Doc Cls n) : Str ⊕ Str → Val n → Prop
  | root {fs ex attr v} : D.node D.spec = .model .AsyncAPI3 fs ex → (attr, v) ∈ fs →
      Holds D (.inl attr) v
  | comp {fs ex c fs' ex' attr v} : D.node D.spec = .model .AsyncAPI3 fs ex →
      (p!"components", .ptr c) ∈ fs → D.node c = .model .Components fs' ex' → (attr, v) ∈ fs' →
      Holds D (.inr attr) v

/-- The collection of factory `f` has the entry `k`, with value `v`. -/
def Entry (D : Doc Cls n) (f : Factory) (k : Str) (v : Val n) : Prop :=
  ∃ b kvs, Holds D (home f) (.ptr b) ∧ RootDict D b kvs ∧ (k, v) ∈ kvs

/-- The shape of an AsyncAPI3 instance, as pydantic's types guarantee it: the
document object is an `AsyncAPI3`, `components` is null or a `Components`, the
collections are null or patterned objects, and neither `AsyncAPI3` nor
`Components` has an extra called `root` (extras must start with `x-`). -/
structure Shape (D : Doc Cls n) : Prop where
  spec : ∃ fs ex, D.node D.spec = .model .AsyncAPI3 fs ex
  comps : ∀ fs ex v, D.node D.spec = .model .AsyncAPI3 fs ex → (p!"components", v) ∈ fs →
    v = .none ∨ ∃ c fs' ex', v = .ptr c ∧ D.node c = .model .Components fs' ex'
  colls : ∀ f v, Holds D (home f) v → v = .none ∨ ∃ b kvs, v = .ptr b ∧ RootDict D b kvs
  noRoot : ∀ a c fs ex, D.node a = .model c fs ex → c = .AsyncAPI3 ∨ c = .Components →
    ∀ kvs, ¬ RootDict D a kvs

end Verif.Spec
