import Verif.Spec.Valid
import Verif.Spec.Refs
/-!
# References in a document seen as a tree

The specifications of reference resolution and checking (`Spec/Resolve.lean`, `Spec/Unified.lean`) speak about
object graphs. Here is the same for documents as trees, in which validation results are
described. Nothing here refers to `Verif/Model`.
-/
namespace Verif.Spec
open Verif Verif.Gen

/-- A value in which every instance, at any depth (also in extra fields and in values of arbitrary type), is a
valid instance of its class, and the keys of every dict and the names of extra fields are distinct. JSON is such
a value, instances made by validation and not spoiled since are, and so are combinations of both. -/
inductive Sound (U : Uni) (limit : Option Nat) : V → Prop
  | none : Sound U limit .none
  | bool {b} : Sound U limit (.bool b)
  | int {i} : Sound U limit (.int i)
  | float {x} : Sound U limit (.float x)
  | str {s} : Sound U limit (.str s)
  | url {k s} : Sound U limit (.url k s)
  | proc {n} : Sound U limit (.proc n)
  | list {l} : (∀ v ∈ l, Sound U limit v) → Sound U limit (.list l)
  | dict {d} : (d.map (·.1)).Nodup → (∀ e ∈ d, Sound U limit e.2) → Sound U limit (.dict d)
  | inst {c fs ex set} : Valid U limit (.inst c fs ex set) (.model c) → (∀ e ∈ fs, Sound U limit e.2) →
      (ex.map (·.1)).Nodup → (∀ e ∈ ex, Sound U limit e.2) → Sound U limit (.inst c fs ex set)

/-- A value without instances. -/
inductive Data : V → Prop
  | none : Data .none
  | bool {b} : Data (.bool b)
  | int {i} : Data (.int i)
  | float {x} : Data (.float x)
  | str {s} : Data (.str s)
  | url {k s} : Data (.url k s)
  | proc {n} : Data (.proc n)
  | list {l} : (∀ v ∈ l, Data v) → Data (.list l)
  | dict {d} : (∀ e ∈ d, Data e.2) → Data (.dict d)

/-- Extra fields of instances, at any depth, hold no instances. -/
inductive DataExtras : V → Prop
  | none : DataExtras .none
  | bool {b} : DataExtras (.bool b)
  | int {i} : DataExtras (.int i)
  | float {x} : DataExtras (.float x)
  | str {s} : DataExtras (.str s)
  | url {k s} : DataExtras (.url k s)
  | proc {n} : DataExtras (.proc n)
  | list {l} : (∀ v ∈ l, DataExtras v) → DataExtras (.list l)
  | dict {d} : (∀ e ∈ d, DataExtras e.2) → DataExtras (.dict d)
  | inst {c fs ex set} : (∀ e ∈ fs, DataExtras e.2) → (∀ e ∈ ex, Data e.2) → DataExtras (.inst c fs ex set)

/-- Instances stand only where the declared types say so: not in extra fields and not in values of arbitrary
type. -/
inductive Clean : V → Ty Cls → Prop
  | data {v t} : Data v → Clean v t
  | list {l t} : (∀ v ∈ l, Clean v t) → Clean (.list l) (.list t)
  | dict {d t} : (∀ e ∈ d, Clean e.2 t) → Clean (.dict d) (.dict t)
  | union {v t ts} : t ∈ ts → Clean v t → Clean v (.union ts)
  | model {c fs ex set} : (∀ f ∈ (classDef c).fields, ∀ v, (f.name, v) ∈ fs → Clean v f.ty) → (∀ e ∈ ex, Data e.2) →
      Clean (.inst c fs ex set) (.model c)

/-- `w` is `v` or stands somewhere in it. -/
inductive Within (w : V) : V → Prop
  | refl : Within w w
  | item {l v} : v ∈ l → Within w v → Within w (.list l)
  | entry {d e} : e ∈ d → Within w e.2 → Within w (.dict d)
  | field {c fs ex set e} : e ∈ fs → Within w e.2 → Within w (.inst c fs ex set)
  | extra {c fs ex set e} : e ∈ ex → Within w e.2 → Within w (.inst c fs ex set)

/-- The value one step below: a list item, a dict entry, or a non-null declared field that is not
excluded. -/
inductive TChild : V → LocStep → V → Prop
  | item {l : List V} {i w} : l[i]? = some w → TChild (.list l) (.index i) w
  | entry {d k w} : (k, w) ∈ d → TChild (.dict d) (.key k) w
  | field {c fs ex set f w} : f ∈ (classDef c).fields → f.exclude = false → (f.name, w) ∈ fs → w ≠ .none →
      TChild (.inst c fs ex set) (.field f.name) w

/-- `w` stands at the location `steps` of `v`. -/
inductive TAt : V → List LocStep → V → Prop
  | nil {v} : TAt v [] v
  | cons {v s u ss w} : TChild v s u → TAt u ss w → TAt v (s :: ss) w

/-- `v` is a Reference with the string `s`. -/
def TRef (v : V) (s : Str) : Prop := ∃ fs ex set, v = .inst .Reference fs ex set ∧ (p!"ref", .str s) ∈ fs

/-- The attribute `root` of the instance is the dict `d`. -/
def TRoot (v : V) (d : List (Str × V)) : Prop := ∃ c fs ex set, v = .inst c fs ex set ∧
  ((p!"root", .dict d) ∈ fs ∨ ((∀ w, (p!"root", w) ∉ fs) ∧ (p!"root", .dict d) ∈ ex))

/-- One step of a reference path: an entry of a patterned object or of a dict, or a non-null declared field by its
Python or JSON name. -/
inductive TStep : V → Str → V → Prop
  | root {v d k w} : TRoot v d → (k, w) ∈ d → TStep v k w
  | dict {d k w} : (k, w) ∈ d → TStep (.dict d) k w
  | field {c fs ex set f k w} : (∀ d, ¬ TRoot (.inst c fs ex set) d) → f ∈ (classDef c).fields →
      (f.name = k ∨ f.alias = some k) → (f.name, w) ∈ fs → w ≠ .none → TStep (.inst c fs ex set) k w

/-- A path of such steps. -/
inductive TWalk : V → List Str → V → Prop
  | nil {v} : TWalk v [] v
  | cons {v k u ks w} : TStep v k u → TWalk u ks w → TWalk v (k :: ks) w

/-- In the document `doc`, the path of the internal reference `ref` leads to `v`. -/
def TDenotes (doc : V) (ref : Str) (v : V) : Prop := ¬ External ref ∧ ∃ segs, Spells ref segs ∧ TWalk doc segs v

/-- `ref` leads to a Reference with the string `ref'`. -/
def THop (doc : V) (ref ref' : Str) : Prop := ∃ v, TDenotes doc ref v ∧ TRef v ref'

/-- Following References from `ref` any number of times leads to `ref'`. -/
abbrev THops (doc : V) : Str → Str → Prop := Relation.ReflTransGen (THop doc)

/-- The reference `s` is right where an instance of one of the classes is expected: following it leads to an
external URL, or to an instance of one of the classes. -/
def TRefOk (doc : V) (expected : Option (List Cls)) (s : Str) : Prop :=
  (∃ r, THops doc s r ∧ External r) ∨
  (∃ r c fs ex set cs, THops doc s r ∧ TDenotes doc r (.inst c fs ex set) ∧ c ≠ .Reference ∧ expected = some cs ∧ c ∈ cs)

/-- A Reference with string `s` stands at location `steps` of the document, and the location has one of the given
shapes. -/
def TStandsAt (doc : V) (places : List (List PStep)) (steps : List LocStep) (s : Str) : Prop :=
  steps.map LocStep.shape ∈ places ∧ ∃ w, TAt doc steps w ∧ TRef w s

/-- `key` is an entry of the collection `components.F`. -/
def TComponentKey (doc : V) (F key : Str) : Prop :=
  ∃ w, TAt doc [.field p!"components", .field F, .field p!"root", .key key] w

/-- External (not starting with `#`), or the prefix followed by an existing key. -/
def TAllowed (doc : V) (F pre s : Str) : Prop :=
  NotHash s ∨ ∃ key, s = pre ++ key ∧ TComponentKey doc F key

/-- What the validators check of a reference string. -/
def TChecked (doc : V) (F pre s : Str) : Prop :=
  NotHash s ∨ ∃ rest key, s = pre ++ rest ∧ Deleted pre rest key ∧ TComponentKey doc F key

end Verif.Spec
