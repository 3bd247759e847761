import Verif.Spec.Written
/-!
# The order of keys

`Reordered v w`: the same, but for the order in which the entries of objects (and the extra fields of instances) are
given, at any depth. Nothing here refers to `Verif/Model`.
-/
namespace Verif.Spec
open Verif Verif.Gen

/-- The same value, apart from the order of keys. No object has a key twice. Fields of instances have the order in which
they are declared; the names of the fields that were given form a set. In Python, such values are equal (`==`). -/
inductive Reordered : V → V → Prop
  | none : Reordered .none .none
  | bool {b} : Reordered (.bool b) (.bool b)
  | int {i} : Reordered (.int i) (.int i)
  | float {x} : Reordered (.float x) (.float x)
  | str {s} : Reordered (.str s) (.str s)
  | url {k s} : Reordered (.url k s) (.url k s)
  | proc {n} : Reordered (.proc n) (.proc n)
  | list {l l' : List V} : l.length = l'.length →
      (∀ (i : Nat) v w, l[i]? = some v → l'[i]? = some w → Reordered v w) → Reordered (.list l) (.list l')
  | dict {d d' : List (Str × V)} : (d.map (·.1)).Nodup → (d'.map (·.1)).Nodup → (∀ k, k ∈ d.map (·.1) ↔ k ∈ d'.map (·.1)) →
      (∀ k v w, (k, v) ∈ d → (k, w) ∈ d' → Reordered v w) → Reordered (.dict d) (.dict d')
  | inst {c fs fs' ex ex' set set'} : fs.map (·.1) = fs'.map (·.1) → (fs.map (·.1)).Nodup →
      (∀ k v w, (k, v) ∈ fs → (k, w) ∈ fs' → Reordered v w) →
      (ex.map (·.1)).Nodup → (ex'.map (·.1)).Nodup → (∀ k, k ∈ ex.map (·.1) ↔ k ∈ ex'.map (·.1)) →
      (∀ k v w, (k, v) ∈ ex → (k, w) ∈ ex' → Reordered v w) → (∀ n, n ∈ set ↔ n ∈ set') →
      Reordered (.inst c fs ex set) (.inst c fs' ex' set')

end Verif.Spec
