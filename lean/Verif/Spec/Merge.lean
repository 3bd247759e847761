import Verif.Spec.Grows
/-!
# Documents put together from two

Nothing here refers to `Verif/Model`.
-/
namespace Verif.Spec
open Verif Verif.Gen

/-- `m` is put together from `a` and `b`: lists have the items of both, dicts the entries of both, and objects the fields
that one of them has set; what both have under the same key or in the same field is put together in the same way. So both
must have objects of the same class there; texts, numbers and truth values may differ, and be any in `m`, but for the strings
of References, which must be the same. (Extra fields are of no concern, but for one named `root`, through which reference
paths lead: it must be the same in all.) -/
inductive Merged : V → V → V → Prop
  | none : Merged .none .none .none
  | plain {a b m} : IsPlain a → IsPlain b → IsPlain m → Merged a b m
  | list {l l' m} : (∀ v, v ∈ m ↔ v ∈ l ∨ v ∈ l') → Merged (.list l) (.list l') (.list m)
  | dict {d d' m : List (Str × V)} :
      (∀ k, k ∈ m.map (·.1) ↔ k ∈ d.map (·.1) ∨ k ∈ d'.map (·.1)) →
      (∀ k x, (k, x) ∈ m → k ∉ d'.map (·.1) → (k, x) ∈ d) → (∀ k x, (k, x) ∈ m → k ∉ d.map (·.1) → (k, x) ∈ d') →
      (∀ k x y z, (k, x) ∈ m → (k, y) ∈ d → (k, z) ∈ d' → Merged y z x) → Merged (.dict d) (.dict d') (.dict m)
  | inst {c} {fs fs' fm ex ex' em : List (Str × V)} {set set' sm : List Str} :
      (∀ k, k ∈ fm.map (·.1) ↔ k ∈ fs.map (·.1)) → (∀ k, k ∈ fm.map (·.1) ↔ k ∈ fs'.map (·.1)) →
      (∀ k x z, (k, x) ∈ fm → (k, .none) ∈ fs → (k, z) ∈ fs' → x = z) →
      (∀ k x y, (k, x) ∈ fm → (k, y) ∈ fs → (k, .none) ∈ fs' → x = y) →
      (∀ k x y z, (k, x) ∈ fm → (k, y) ∈ fs → (k, z) ∈ fs' → y ≠ .none → z ≠ .none → Merged y z x) →
      (c = .Reference → ∀ s, ((p!"ref", .str s) ∈ fm ↔ (p!"ref", .str s) ∈ fs) ∧ ((p!"ref", .str s) ∈ fm ↔ (p!"ref", .str s) ∈ fs')) →
      (∀ x, ((p!"root", x) ∈ em ↔ (p!"root", x) ∈ ex) ∧ ((p!"root", x) ∈ em ↔ (p!"root", x) ∈ ex')) →
      Merged (.inst c fs ex set) (.inst c fs' ex' set') (.inst c fm em sm)

end Verif.Spec
