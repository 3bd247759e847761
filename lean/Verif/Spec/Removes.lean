import Verif.Spec.Grows
/-!
# What was removed from a document

Nothing here refers to `Verif/Model`.
-/
namespace Verif.Spec
open Verif Verif.Gen

/-- Nothing that the reference `s` leads to in `doc`, directly or by following further References, is missing in `doc'`. -/
def StillThere (doc doc' : V) (s : Str) : Prop :=
  ∀ r, THops doc s r → ¬ External r → ∃ v, TDenotes doc' r v

/-- The keys that the reference `s` could mean are still keys of `components.F`. -/
def KeyThere (doc' : V) (F pre s : Str) : Prop :=
  NotHash s ∨ ∀ rest key, s = pre ++ rest → Deleted pre rest key → TComponentKey doc' F key

/-- The path leads to the location, where `x` stands. (Nothing in lists can be referred to. Fields have two names; the
field `root` of patterned objects is not named.) -/
inductive Leads (x : V) : V → List Str → List LocStep → Prop
  | nil : Leads x x [] []
  | entry {d k w path steps} : (k, w) ∈ d → Leads x w path steps → Leads x (.dict d) (k :: path) (.key k :: steps)
  | root {c fs ex set d path steps} : (p!"root", .dict d) ∈ fs → Leads x (.dict d) path steps →
      Leads x (.inst c fs ex set) path (.field p!"root" :: steps)
  | field {c fs ex set f k w path steps} : (∀ d, ¬ TRoot (.inst c fs ex set) d) → f ∈ (classDef c).fields →
      (f.name = k ∨ f.alias = some k) → (f.name, w) ∈ fs → w ≠ .none → Leads x w path steps → Leads x (.inst c fs ex set) (k :: path) (.field f.name :: steps)

/-- The reference `s` leads, directly or by following further References, to something at or below the location. -/
def Into (doc : V) (s : Str) (loc : List LocStep) : Prop :=
  ∃ r path rest x, THops doc s r ∧ Spells r (path ++ rest) ∧ Leads x doc path loc

/-- The reference `s` could mean a key of `components.F` that stands at or below the location. -/
def KeyInto (F pre s : Str) (loc : List LocStep) : Prop :=
  ∃ rest key, s = pre ++ rest ∧ Deleted pre rest key ∧
    loc <+: [.field p!"components", .field F, .field p!"root", .key key]

end Verif.Spec
