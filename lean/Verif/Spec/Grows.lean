import Verif.Spec.Tree
import Verif.Spec.Place
/-!
# Documents that grow

`Grows v w`: `w` has everything that `v` has, at the same place, and perhaps more. Nothing here refers to `Verif/Model`.
-/
namespace Verif.Spec
open Verif Verif.Gen

/-- A text, a number, a truth value, …: neither null, nor a list, a dict or an instance. -/
inductive IsPlain : V → Prop
  | bool {b} : IsPlain (.bool b)
  | int {i} : IsPlain (.int i)
  | float {x} : IsPlain (.float x)
  | str {s} : IsPlain (.str s)
  | url {k s} : IsPlain (.url k s)
  | proc {n} : IsPlain (.proc n)

/-- `w` is `v` with more in it: further entries of dicts, further items anywhere in lists, null fields that are set. The
order of entries and items is of no concern. Texts, numbers and truth values may be others, but for the strings of
References. The extra fields are of no concern, but for one named `root`, through which reference paths lead. (The functions
`f`, `g`, `h`, `r`, `r'` say what corresponds to what.) -/
inductive Grows : V → V → Prop
  | none : Grows .none .none
  | plain {v w} : IsPlain v → IsPlain w → Grows v w
  | list {l l' : List V} {f : Nat → Nat} {g : Nat → V} : (∀ (i : Nat) v, l[i]? = some v → l'[f i]? = some (g i)) →
      (∀ (i : Nat) v, l[i]? = some v → Grows v (g i)) → Grows (.list l) (.list l')
  | dict {d d'} {g : Str → V → V} : (∀ k v, (k, v) ∈ d → (k, g k v) ∈ d') → (∀ k v, (k, v) ∈ d → Grows v (g k v)) →
      Grows (.dict d) (.dict d')
  /-- The fields are the same, and so is the string of a Reference. A field that is null may be set; `root` never is null. -/
  | inst {c fs fs' ex ex' set set'} {g h : Str → V → V} {r r' : V → V} :
      (c = .Reference → ∀ s, (p!"ref", .str s) ∈ fs ↔ (p!"ref", .str s) ∈ fs') →
      (∀ k v, (k, v) ∈ fs → (k, g k v) ∈ fs') → (∀ k v, (k, v) ∈ fs → v ≠ .none ∨ k = p!"root" → Grows v (g k v)) →
      (∀ k w, (k, w) ∈ fs' → (k, h k w) ∈ fs) → (∀ k w, (k, w) ∈ fs' → h k w ≠ .none ∨ k = p!"root" → Grows (h k w) w) →
      (∀ v, (p!"root", v) ∈ ex → (p!"root", r v) ∈ ex') → (∀ v, (p!"root", v) ∈ ex → Grows v (r v)) →
      (∀ w, (p!"root", w) ∈ ex' → (p!"root", r' w) ∈ ex) → (∀ w, (p!"root", w) ∈ ex' → Grows (r' w) w) →
      Grows (.inst c fs ex set) (.inst c fs' ex' set')

/-- In `doc'` there is a Reference, at a place where (but for positions in lists) `doc` has none with the same string. -/
def NewRef (doc doc' : V) (steps : List LocStep) (s : Str) : Prop :=
  (∃ w, TAt doc' steps w ∧ TRef w s) ∧ ¬ ∃ steps' w, SamePlace steps' steps ∧ TAt doc steps' w ∧ TRef w s

/-- `doc'` is `doc`, with `u'` in the place of `u` at the location `steps`. -/
inductive Replaced (u u' : V) : V → List LocStep → V → Prop
  | here : Replaced u u' u [] u'
  | item {l l' : List V} {x x' steps} : Replaced u u' x steps x' →
      Replaced u u' (.list (l ++ x :: l')) (.index l.length :: steps) (.list (l ++ x' :: l'))
  | entry {d d' k x x' steps} : Replaced u u' x steps x' →
      Replaced u u' (.dict (d ++ (k, x) :: d')) (.key k :: steps) (.dict (d ++ (k, x') :: d'))
  | field {c fs fs' ex set k x x' steps} : Replaced u u' x steps x' →
      Replaced u u' (.inst c (fs ++ (k, x) :: fs') ex set) (.field k :: steps) (.inst c (fs ++ (k, x') :: fs') ex set)

end Verif.Spec
