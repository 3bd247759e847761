import Verif.Py.Heap
import Mathlib.Logic.Relation
/-!
# Declarative specification of reference resolution

Nothing here refers to `Verif/Model`.
-/
namespace Verif.Spec
open Verif

variable {C : Type} {n : Nat}

/-- The reference `ref` spells the path `segs`: a `#`, then slash-separated
pieces whose non-empty ones are `segs`; there is at least one. -/
def Spells (ref : Str) (segs : List Str) : Prop :=
  ∃ pieces : List Str, ref = '#' :: Str.join '/' pieces ∧
    (∀ p ∈ pieces, '/' ∉ p) ∧ segs = pieces.filter (fun p => decide (p ≠ [])) ∧ segs ≠ []

/-- An external reference is an http or https URL. -/
def External (ref : Str) : Prop :=
  (∃ s, ref = p!"http://" ++ s) ∨ (∃ s, ref = p!"https://" ++ s)

/-- The object has an attribute `root` holding a dict with these items
(patterned objects; also any object with an extra of that name). -/
def RootDict (D : Doc C n) (a : Fin n) (kvs : List (Str × Val n)) : Prop :=
  ∃ c fs ex b, D.node a = .model c fs ex ∧ D.node b = .dict kvs ∧
    ((p!"root", .ptr b) ∈ fs ∨ ((∀ w, (p!"root", w) ∉ fs) ∧ (p!"root", .ptr b) ∈ ex))

/-- One step of navigation from the object at `a` by the segment `part`. -/
inductive Step (T : ClassTable C) (D : Doc C n) (a : Fin n) (part : Str) : Val n → Prop
  /-- an entry of the root mapping -/
  | root {kvs v} : RootDict D a kvs → (part, v) ∈ kvs → Step T D a part v
  /-- an entry of a plain dict -/
  | dict {kvs v} : D.node a = .dict kvs → (part, v) ∈ kvs → Step T D a part v
  /-- a non-null declared field, by attribute name or alias -/
  | field {c fs ex f v} : D.node a = .model c fs ex → (∀ kvs, ¬ RootDict D a kvs) →
      f ∈ T.fields c → (f.name = part ∨ f.alias = some part) →
      (f.name, v) ∈ fs → v ≠ .none → Step T D a part v

/-- Navigation by a list of segments. -/
inductive Walk (T : ClassTable C) (D : Doc C n) : Val n → List Str → Val n → Prop
  | nil {v} : Walk T D v [] v
  | cons {a part parts v w} : Step T D a part v → Walk T D v parts w →
      Walk T D (.ptr a) (part :: parts) w

/-- `v` is a Reference with the string `s`. -/
def IsReference (T : ClassTable C) (D : Doc C n) (v : Val n) (s : Str) : Prop :=
  ∃ a c fs ex, v = .ptr a ∧ D.node a = .model c fs ex ∧ T.sub c T.reference = true ∧
    (p!"ref", .str s) ∈ fs

/-- The path of the internal reference `ref` leads to the object `v`. -/
def Denotes (T : ClassTable C) (D : Doc C n) (ref : Str) (v : Val n) : Prop :=
  ¬ External ref ∧ ∃ segs, Spells ref segs ∧ Walk T D (.ptr D.spec) segs v

/-- `ref` leads to a Reference whose string is `ref'`. -/
def Hop (T : ClassTable C) (D : Doc C n) (ref ref' : Str) : Prop :=
  ∃ v, Denotes T D ref v ∧ IsReference T D v ref'

/-- `ref` leads to the object `v`, which is not a Reference. -/
def Lands (T : ClassTable C) (D : Doc C n) (ref : Str) (v : Val n) : Prop :=
  Denotes T D ref v ∧ ∀ s, ¬ IsReference T D v s

/-- Following References from `ref` any number of times leads to `ref'`. -/
abbrev Hops (T : ClassTable C) (D : Doc C n) : Str → Str → Prop :=
  Relation.ReflTransGen (Hop T D)

/-- The chain of References starting at `ref` runs into a cycle. -/
def Cyclic (T : ClassTable C) (D : Doc C n) (ref : Str) : Prop :=
  ∃ r, Hops T D ref r ∧ Relation.TransGen (Hop T D) r r

/-- Well-formed documents: what Python and pydantic guarantee of live objects.
Dict keys and attribute names are unique, instances have all declared fields,
attributes in `__dict__` and extras are disjoint, `Reference` has the field
`ref` and its value is a string. -/
structure WF (T : ClassTable C) (D : Doc C n) : Prop where
  dictKeys : ∀ a kvs, D.node a = .dict kvs → (kvs.map Prod.fst).Nodup
  fieldKeys : ∀ a c fs ex, D.node a = .model c fs ex → (fs.map Prod.fst).Nodup
  extraKeys : ∀ a c fs ex, D.node a = .model c fs ex → (ex.map Prod.fst).Nodup
  declared : ∀ a c fs ex, D.node a = .model c fs ex → ∀ f ∈ T.fields c, ∃ v, (f.name, v) ∈ fs
  refField : ∀ a c fs ex, D.node a = .model c fs ex → T.sub c T.reference = true →
    ∃ s, (p!"ref", .str s) ∈ fs

/-- No two fields of a class answer to the same spelling. -/
def Unambiguous (T : ClassTable C) : Prop :=
  ∀ c, ∀ f ∈ T.fields c, ∀ g ∈ T.fields c, ∀ s,
    (f.name = s ∨ f.alias = some s) → (g.name = s ∨ g.alias = some s) → f = g

end Verif.Spec
