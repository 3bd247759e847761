import Verif.Spec.Dump
import Verif.Spec.Fields
/-!
# Writing with options

What `exclude_unset`, `exclude_defaults` and `exclude_none` leave out. For C76.
-/
namespace Verif.Spec
open Verif Verif.Gen

/-- A value equals the default of a field (in Python, `True == 1` and `False == 0`). -/
def EqualsDefault : Dflt → V → Prop
  | .required, _ => False
  | .null, v => v = .none
  | .str s, v => v = .str s
  | .bool b, v => v = .bool b ∨ v = .int (if b then 1 else 0)
  | .int i, v => v = .int i ∨ ∃ b, v = .bool b ∧ i = if b then 1 else 0

/-- A declared field with value `v` of an instance for which the fields `given` were given is written, under the three
options: it is written without them, and none of them leaves it out. -/
structure ShownWith (unset dflts nones : Bool) (c : Cls) (given : List Str) (f : FieldDef Cls) (v : V) : Prop where
  shown : Shown c f v
  given : unset = true → f.name ∈ given
  notDefault : dflts = true → ¬ EqualsDefault f.dflt v
  notNull : nones = true → v ≠ .none

/-- The first value is the second one with some entries left out of objects, at any depth: `pairs` are the items, or the
entries that are left, with both values. -/
inductive Fewer : V → V → Prop
  | refl {v} : Fewer v v
  | list {pairs : List (V × V)} : (∀ p ∈ pairs, Fewer p.1 p.2) → Fewer (.list (pairs.map (·.1))) (.list (pairs.map (·.2)))
  | dict {pairs : List (Str × V × V)} {e : List (Str × V)} : (∀ p ∈ pairs, Fewer p.2.1 p.2.2) →
      (pairs.map fun p => (p.1, p.2.2)).Sublist e → Fewer (.dict (pairs.map fun p => (p.1, p.2.1))) (.dict e)

/-- Of an entry in two objects: the same key, or the Python name and the JSON name of a declared field of a class. -/
def SameField (k k' : Str) : Prop := k = k' ∨ ∃ c : Cls, ∃ f ∈ (classDef c).fields, k = f.name ∧ k' = jsonName f

/-- The first value is the second one with Python names in the place of some JSON names, at any depth. -/
inductive Unaliased : V → V → Prop
  | refl {v} : Unaliased v v
  | list {pairs : List (V × V)} : (∀ p ∈ pairs, Unaliased p.1 p.2) → Unaliased (.list (pairs.map (·.1))) (.list (pairs.map (·.2)))
  | dict {pairs : List ((Str × V) × (Str × V))} : (∀ p ∈ pairs, SameField p.1.1 p.2.1) →
      (∀ p ∈ pairs, Unaliased p.1.2 p.2.2) →
      Unaliased (.dict (pairs.map (·.1))) (.dict (pairs.map (·.2)))

/-- The record of given fields of an instance is right: every extra field is in it, and so is every declared field that does not
have its default. -/
def RecordRight : V → Prop
  | .inst c fs ex set => (∀ e ∈ ex, e.1 ∈ set) ∧
      ∀ f ∈ (classDef c).fields, f.name ∉ set → HasDefault f.dflt ((V.inst c fs ex set).attr f.name)
  | _ => True

end Verif.Spec
