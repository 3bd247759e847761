import Verif.Spec.Tree
/-!
# Equality

What `==` says of Python values and of instances. Nothing here refers to `Verif/Model`.
-/
namespace Verif.Spec
open Verif Verif.Gen

/-- The number that a truth value or an integer is. -/
def number : V → Option Int
  | .bool b => some (if b then 1 else 0)
  | .int i => some i
  | _ => none

/-- Equal values: numbers, texts and URLs if they are the same, lists item by item, objects key by key, whatever the order
of keys; instances if they have the same class, equal fields and equal extra fields. `True` and `1` are equal in Python.
Floats are opaque here: equal if written alike. -/
inductive Equal : V → V → Prop
  | none : Equal .none .none
  | number {v w n} : number v = some n → number w = some n → Equal v w
  | float {x} : Equal (.float x) (.float x)
  | str {s} : Equal (.str s) (.str s)
  | url {k s} : Equal (.url k s) (.url k s)
  | proc {n} : Equal (.proc n) (.proc n)
  | list {l l' : List V} : l.length = l'.length →
      (∀ (i : Nat) v w, l[i]? = some v → l'[i]? = some w → Equal v w) → Equal (.list l) (.list l')
  | dict {d d' : List (Str × V)} : (∀ k, k ∈ d.map (·.1) ↔ k ∈ d'.map (·.1)) →
      (∀ k v w, (k, v) ∈ d → (k, w) ∈ d' → Equal v w) → Equal (.dict d) (.dict d')
  | inst {c fs fs' ex ex' set set'} : (∀ k, k ∈ fs.map (·.1) ↔ k ∈ fs'.map (·.1)) →
      (∀ k v w, (k, v) ∈ fs → (k, w) ∈ fs' → Equal v w) →
      (∀ k, k ∈ ex.map (·.1) ↔ k ∈ ex'.map (·.1)) →
      (∀ k v w, (k, v) ∈ ex → (k, w) ∈ ex' → Equal v w) → Equal (.inst c fs ex set) (.inst c fs' ex' set')

/-- A value as Python can have it: no dict has a key twice. -/
inductive Keyed : V → Prop
  | none : Keyed .none
  | bool {b} : Keyed (.bool b)
  | int {i} : Keyed (.int i)
  | float {x} : Keyed (.float x)
  | str {s} : Keyed (.str s)
  | url {k s} : Keyed (.url k s)
  | proc {n} : Keyed (.proc n)
  | list {l} : (∀ v ∈ l, Keyed v) → Keyed (.list l)
  | dict {d} : (d.map (·.1)).Nodup → (∀ e ∈ d, Keyed e.2) → Keyed (.dict d)
  | inst {c fs ex set} : (fs.map (·.1)).Nodup → (∀ e ∈ fs, Keyed e.2) → (ex.map (·.1)).Nodup → (∀ e ∈ ex, Keyed e.2) →
      Keyed (.inst c fs ex set)

end Verif.Spec
