import Verif.Spec.Names
import Verif.Props.Document
import Verif.Props.Alias
/-!
# C44, C45: JSON names; the fixed fields of AsyncAPI 3.0.0
-/
namespace Verif.Props
open Verif Verif.Gen Verif.Spec Verif.Pyd

/-! ### C44 -/

/-- `JsonName`, decided. -/
def isJsonName (c : Cls) (name json : Str) : Bool :=
  specialNames.any (fun e => e.1 == c && (e.2.1 == name && e.2.2 == json)) ||
    (specialNames.all (fun e => !(e.1 == c && e.2.1 == name)) && json == camelCase name)

theorem isJsonName_iff (c : Cls) (name json : Str) : isJsonName c name json = true ↔ JsonName c name json := by
  unfold isJsonName JsonName
  rw [Bool.or_eq_true, Bool.and_eq_true, List.any_eq_true, List.all_eq_true, beq_iff_eq]
  refine or_congr ?_ (and_congr ?_ Iff.rfl)
  · constructor
    · rintro ⟨⟨a, b, k⟩, h, e⟩
      simp only [Bool.and_eq_true, beq_iff_eq] at e
      obtain ⟨rfl, rfl, rfl⟩ := e
      exact h
    · intro h
      exact ⟨_, h, by simp⟩
  · constructor
    · intro h j hj
      have := h _ hj
      simp at this
    · rintro h ⟨a, b, k⟩ he
      simp only [Bool.not_eq_true', Bool.and_eq_false_iff, beq_eq_false_iff_ne]
      by_cases e1 : a = c
      · by_cases e2 : b = name
        · subst e1 e2; exact absurd he (h k)
        · exact .inr e2
      · exact .inl e1

theorem jsonNamesTable : Cls.all.all (fun c => (classDef c).kind == .patterned ||
    (classDef c).fields.all fun f => isJsonName c f.name (jsonName f)) = true := by decide +kernel

/-- **C44.** The JSON name of each attribute of each class is its Python name in lower camel case, or as listed. -/
theorem C44_names (c : Cls) (hk : (classDef c).kind ≠ .patterned) (f : FieldDef Cls) (hf : f ∈ (classDef c).fields) :
    JsonName c f.name (jsonName f) := by
  have := List.all_eq_true.1 jsonNamesTable c (Cls.mem_all c)
  rw [Bool.or_eq_true, beq_iff_eq] at this
  exact (isJsonName_iff _ _ _).1 (List.all_eq_true.1 (this.resolve_left hk) f hf)

theorem specialOnce : specialNames.all (fun e => specialNames.all fun g =>
    !(e.1 == g.1 && e.2.1 == g.2.1) || e.2.2 == g.2.2) = true := by decide +kernel

/-- An attribute has one JSON name. -/
theorem jsonName_unique {c : Cls} {name j j' : Str} (h : JsonName c name j) (h' : JsonName c name j') : j = j' := by
  rcases h with h | ⟨h, rfl⟩ <;> rcases h' with h' | ⟨h', rfl⟩
  · have := List.all_eq_true.1 (List.all_eq_true.1 specialOnce _ h) _ h'
    simpa using this
  · exact absurd h (h' _)
  · exact absurd h' (h _)
  · rfl

/-- **C44.** No key of the input can mean two attributes of a class: not as JSON names, nor as Python names, nor
one way and the other. -/
theorem C44_unambiguous (c : Cls) (hk : (classDef c).kind ≠ .patterned) (f g : FieldDef Cls)
    (hf : f ∈ (classDef c).fields) (hg : g ∈ (classDef c).fields) (key : Str)
    (h1 : key = f.name ∨ JsonName c f.name key) (h2 : key = g.name ∨ JsonName c g.name key) : f.name = g.name := by
  have e1 : key = f.name ∨ key = jsonName f := h1.imp id fun h => jsonName_unique h (C44_names c hk f hf)
  have e2 : key = g.name ∨ key = jsonName g := h2.imp id fun h => jsonName_unique h (C44_names c hk g hg)
  rcases e1 with rfl | rfl <;> rcases e2 with e2 | e2
  · exact e2
  · rw [apart hf hg (.inl e2)]
  · rw [apart hf hg (.inr (.inl e2))]
  · rw [apart hf hg (.inr (.inr e2))]

/-- **C44.** In the serialized form of a valid instance every key is the JSON name of the attribute whose value stands
under it, or the name of an extra field. -/
theorem C44_written (U : Uni) (limit : Option Nat) (c : Cls) (hk : (classDef c).kind ≠ .patterned) (v : V)
    (hv : Valid U limit v (.model c)) :
    ∃ out, dump v = .dict out ∧
      (∀ key w, (key, w) ∈ out → (∃ f ∈ (classDef c).fields, JsonName c f.name key ∧ w = dump (v.attr f.name)) ∨
        ∃ x, (key, x) ∈ v.extras ∧ w = dump x) ∧
      ∀ f ∈ (classDef c).fields, (c = .AsyncAPI3 → f.name ∉ processorLists) → v.attr f.name ≠ .none →
        ∀ key, JsonName c f.name key → (key, dump (v.attr f.name)) ∈ out := by
  refine ⟨_, C36_exact U limit c hk v hv, fun key w h => ?_, fun f hf hp hn key hj => ?_⟩
  · rcases List.mem_append.1 h with h | h
    · obtain ⟨f, hf, e⟩ := List.mem_map.1 h
      cases e
      exact .inl ⟨f, (List.mem_filter.1 hf).1, C44_names c hk f (List.mem_filter.1 hf).1, rfl⟩
    · obtain ⟨⟨k, x⟩, hx, e⟩ := List.mem_map.1 h
      cases e
      exact .inr ⟨x, hx, rfl⟩
  · rw [jsonName_unique hj (C44_names c hk f hf)]
    refine List.mem_append.2 (.inl (List.mem_map.2 ⟨f, List.mem_filter.2 ⟨hf, ?_⟩, rfl⟩))
    simp only [decide_eq_true_eq]
    refine ⟨fun h => hp h.1 ?_, .inl hn⟩
    rcases h.2 with e | e <;> simp [processorLists, e]

theorem runProcessors_checks {E : Env} (hc : OnlyChecks E.call) {j v : V} (hr : (runProcessors E j).2 = some v) : v = j := by
  unfold runProcessors at hr
  cases hr1 : callAll E (processorsOf (j.attr p!"extra_converters")) j with
  | mk l o =>
    rw [hr1] at hr
    cases o with
    | none => cases hr
    | some mid =>
      obtain ⟨e1, -⟩ := callAll_checks hc (doc' := mid) (show (callAll E _ j).2 = some mid by rw [hr1])
      subst e1
      exact (callAll_checks hc (doc' := v) hr).1

/-- What is accepted as an instance is made field by field; of the document this is so before its processors run. -/
theorem validate_fieldwise {E : Env} {c : Cls} (hk : (classDef c).kind ≠ .patterned) {d : List (Str × V)} {v : V}
    (h : validate E c (.dict d) = some v) :
    ∃ i, Fieldwise (Accepts E) c d i ∧ ExtensionRule E.U c i ∧ (c ≠ .AsyncAPI3 → v = i) ∧
      (OnlyChecks E.call → v = i) := by
  by_cases hc : c = .AsyncAPI3
  · subst hc
    unfold validate at h
    rw [parse_model_dict E hk, construct_eq] at h
    split at h
    · rename_i hok
      have hafter : ∀ i, after E .AsyncAPI3 i = if baseCheck E .AsyncAPI3 i then (runProcessors E i).2 else none := by
        intro i; unfold after modelCheck; simp
      rw [hafter] at h
      split at h
      · rename_i hb
        obtain ⟨h1, _⟩ := (allOk_given _).1 ⟨hok, rfl⟩
        refine ⟨_, h1, (baseCheck_iff E _ hk _).1 hb, fun h => absurd rfl h, fun hcall => ?_⟩
        rw [Option.map_map, Option.map_eq_some_iff] at h
        obtain ⟨j, hj, rfl⟩ := h
        simp only [Option.getD_none] at hj
        exact runProcessors_checks hcall hj
      · cases h
    · cases h
  · have := (C41_accepts_iff E c hk hc d v).1 h
    exact ⟨v, this.1, this.2.1, fun _ => rfl, fun _ => rfl⟩

/-- The value given for an attribute: under its JSON name, or else under its Python name. -/
def givenFor (c : Cls) (f : FieldDef Cls) (d : List (Str × V)) (x : V) : Prop :=
  ∃ key, JsonName c f.name key ∧ (lookup key d = some x ∨ (lookup key d = none ∧ lookup f.name d = some x))

theorem givenFor_iff {c : Cls} (hk : (classDef c).kind ≠ .patterned) {f : FieldDef Cls} (hf : f ∈ (classDef c).fields)
    {d : List (Str × V)} {x : V} : givenFor c f d x ↔ ∃ k, GivenAs f d k x := by
  have hj := C44_names c hk f hf
  unfold givenFor GivenAs
  constructor
  · rintro ⟨key, h, hx⟩
    have := jsonName_unique h hj
    subst this
    unfold jsonName at hx
    cases ha : f.alias with
    | none =>
      rw [ha] at hx
      simp only [Option.getD_none] at hx
      refine ⟨f.name, ?_, .inr ⟨rfl, fun a h => by cases h⟩⟩
      rcases hx with h | ⟨h, h'⟩
      · exact h
      · exact h'
    | some a =>
      rw [ha] at hx
      simp only [Option.getD_some] at hx
      rcases hx with h | ⟨h, h'⟩
      · exact ⟨a, h, .inl rfl⟩
      · exact ⟨f.name, h', .inr ⟨rfl, fun b e => by cases e; exact h⟩⟩
  · rintro ⟨k, hx, h | ⟨rfl, h⟩⟩
    · exact ⟨k, by simpa [jsonName, h] using hj, .inl hx⟩
    · refine ⟨_, hj, ?_⟩
      unfold jsonName
      cases ha : f.alias with
      | none => exact .inl hx
      | some a => exact .inr ⟨h a ha, hx⟩

/-- **C44.** An attribute of an accepted instance has the value given under its JSON name, as its type takes it, or
else that given under its Python name, or else its default; a document with processors that change it excepted. -/
theorem C44_read (E : Env) (c : Cls) (hk : (classDef c).kind ≠ .patterned) (hc : c = .AsyncAPI3 → OnlyChecks E.call)
    (d : List (Str × V)) (v : V) (h : validate E c (.dict d) = some v) (f : FieldDef Cls) (hf : f ∈ (classDef c).fields) :
    (∃ x, givenFor c f d x ∧ Accepts E x f.ty (v.attr f.name)) ∨
      ((∀ x, ¬ givenFor c f d x) ∧ HasDefault f.dflt (v.attr f.name)) := by
  obtain ⟨i, hi, -, h1, h2⟩ := validate_fieldwise hk h
  have : v = i := by
    by_cases e : c = .AsyncAPI3
    · exact h2 (hc e)
    · exact h1 e
  subst this
  rcases (fieldwise_field hi hf).1 with ⟨k, x, hg, ha⟩ | ⟨hn, hd⟩
  · exact .inl ⟨x, (givenFor_iff hk hf).2 ⟨k, hg⟩, ha⟩
  · exact .inr ⟨fun x hx => by obtain ⟨k, hg⟩ := (givenFor_iff hk hf).1 hx; exact hn k x hg, hd⟩

/-! ### C45 -/

/-- A declared field is required. -/
def isRequired (f : FieldDef Cls) : Bool := match f.dflt with | .required => true | _ => false

/-- The classes of the objects of the specification against its table. -/
def coreTable : Bool := coreObjects.all fun e =>
  (classDef e.1).kind != .patterned &&
  ((classDef e.1).kind == if openObjects.contains e.1 then .openExtra else if closedObjects.contains e.1 then .nonExtendable
    else .extendable) &&
  (e.2.all fun k => (classDef e.1).fields.any fun f => jsonName f == k.1 &&
    (isRequired f == k.2 || ((e.1 == .AsyncAPI3 && k.1 == p!"asyncapi") || (e.1 == .MultiFormatSchema && k.1 == p!"schemaFormat"))) &&
    (!k.2 || !nullable f.ty || (e.1 == .MultiFormatSchema && k.1 == p!"schema")) &&
    (e.1 != .AsyncAPI3 || !processorLists.contains f.name)) &&
  ((classDef e.1).fields.all fun f => (e.1 == .AsyncAPI3 && processorLists.contains f.name) ||
    e.2.any fun k => jsonName f == k.1)

theorem coreTable_ok : coreTable = true := by decide +kernel

/-- What the table says of one object. -/
theorem core {c : Cls} {L : List (Str × Bool)} (h : (c, L) ∈ coreObjects) :
    (classDef c).kind ≠ .patterned ∧
    ((classDef c).kind = if openObjects.contains c then .openExtra else if closedObjects.contains c then .nonExtendable
      else .extendable) ∧
    (∀ k r, (k, r) ∈ L → ∃ f ∈ (classDef c).fields, jsonName f = k ∧ (isRequired f = r ∨ defaulted c k) ∧
      (r = true → nullable f.ty = false ∨ (c = .MultiFormatSchema ∧ k = p!"schema")) ∧
      (c = .AsyncAPI3 → f.name ∉ processorLists)) ∧
    ∀ f ∈ (classDef c).fields, (c = .AsyncAPI3 ∧ f.name ∈ processorLists) ∨ ∃ r, (jsonName f, r) ∈ L := by
  have := List.all_eq_true.1 coreTable_ok _ h
  simp only [Bool.and_eq_true, bne_iff_ne, beq_iff_eq] at this
  obtain ⟨⟨⟨h1, h2⟩, h3⟩, h4⟩ := this
  refine ⟨h1, h2, fun k r hk => ?_, fun f hf => ?_⟩
  · obtain ⟨f, hf, h⟩ := List.any_eq_true.1 (List.all_eq_true.1 h3 _ hk)
    simp only [Bool.and_eq_true, Bool.or_eq_true, beq_iff_eq, bne_iff_ne, Bool.not_eq_true', List.contains_eq_mem,
      decide_eq_false_iff_not] at h
    obtain ⟨⟨⟨e, hr⟩, hn⟩, hp⟩ := h
    refine ⟨f, hf, e, hr, fun hr => ?_, fun hc => hp.resolve_left (fun h => h hc)⟩
    rw [hr] at hn
    rcases hn with (h | h) | h
    · cases h
    · exact .inl h
    · exact .inr h
  · have := List.all_eq_true.1 h4 _ hf
    simp only [Bool.or_eq_true, Bool.and_eq_true, beq_iff_eq, List.contains_eq_mem, decide_eq_true_eq] at this
    refine this.imp id fun h => ?_
    obtain ⟨⟨k, r⟩, hk, e⟩ := List.any_eq_true.1 h
    rw [beq_iff_eq] at e
    exact ⟨r, by rw [e]; exact hk⟩

/-- **C45.** The attributes of the class of an object of the specification are exactly its fixed fields, under the
names of the specification, and required exactly when it says so (two excepted, which have defaults). -/
theorem C45_declared (c : Cls) (L : List (Str × Bool)) (h : (c, L) ∈ coreObjects) :
    (∀ k r, (k, r) ∈ L → ∃ f ∈ (classDef c).fields, JsonName c f.name k ∧
      (¬ defaulted c k → (f.dflt = .required ↔ r = true))) ∧
    ∀ f ∈ (classDef c).fields, (c = .AsyncAPI3 ∧ f.name ∈ processorLists) ∨
      ∃ k r, (k, r) ∈ L ∧ JsonName c f.name k := by
  obtain ⟨h1, -, h3, h4⟩ := core h
  refine ⟨fun k r hk => ?_, fun f hf => ?_⟩
  · obtain ⟨f, hf, rfl, hr, -, -⟩ := h3 k r hk
    refine ⟨f, hf, C44_names c h1 f hf, fun hd => ?_⟩
    rw [← hr.resolve_right hd]
    unfold isRequired
    cases f.dflt <;> simp
  · refine (h4 f hf).imp id fun ⟨r, hr⟩ => ⟨_, r, hr, C44_names c h1 f hf⟩

theorem key_of_lookup {k : Str} {d : List (Str × V)} {x : V} (h : lookup k d = some x) : ∃ e ∈ d, e.1 = k :=
  ⟨_, lookup_some_mem h, rfl⟩

/-- **C45.** What lacks a required field of the specification is refused (the two with defaults excepted). -/
theorem C45_required (E : Env) (c : Cls) (L : List (Str × Bool)) (hL : (c, L) ∈ coreObjects) (k : Str)
    (hk : (k, true) ∈ L) (hd : ¬ defaulted c k) (d : List (Str × V))
    (hno : ∀ e ∈ d, e.1 ≠ k ∧ ¬ JsonName c e.1 k) : validate E c (.dict d) = none := by
  obtain ⟨h1, -, h3, -⟩ := core hL
  cases h : validate E c (.dict d) with
  | none => rfl
  | some v =>
    exfalso
    obtain ⟨i, hi, -⟩ := validate_fieldwise h1 h
    obtain ⟨f, hf, rfl, hr, -, -⟩ := h3 k true hk
    replace hr := hr.resolve_right hd
    have hj := C44_names c h1 f hf
    rcases (fieldwise_field hi hf).1 with ⟨key, x, hg, -⟩ | ⟨-, hdf⟩
    · obtain ⟨e, he, rfl⟩ := key_of_lookup hg.1
      rcases hg.2 with ha | ⟨hn, -⟩
      · exact (hno e he).1 (by simp [jsonName, ha])
      · exact (hno e he).2 (by rw [hn]; exact hj)
    · unfold isRequired at hr
      cases hdf' : f.dflt <;> rw [hdf'] at hr hdf <;> first | exact hdf | cases hr

/-- **C45.** Of what is accepted, every key is a name of a fixed field, or an extension name `x-…`; and not even that
in a Reference. A schema may have any other keys. -/
theorem C45_unknown (E : Env) (c : Cls) (L : List (Str × Bool)) (hL : (c, L) ∈ coreObjects) (hopen : c ∉ openObjects)
    (d : List (Str × V)) (v : V) (h : validate E c (.dict d) = some v) (e : Str × V) (he : e ∈ d) :
    (∃ k r, (k, r) ∈ L ∧ (e.1 = k ∨ JsonName c e.1 k)) ∨ (c = .AsyncAPI3 ∧ e.1 ∈ processorLists) ∨
      (c ∉ closedObjects ∧ OrNewline (ExtensionForm E.U) e.1) := by
  obtain ⟨h1, h2, h3, h4⟩ := core hL
  obtain ⟨i, ⟨fs, hfs, hok, hi, hne⟩, hext, -⟩ := validate_fieldwise h1 h
  by_cases hg : ∀ f ∈ (classDef c).fields, ∀ x, ¬ GivenAs f d e.1 x
  · have hm : e ∈ i.extras := by
      rw [hi]
      exact List.mem_filter.2 ⟨he, by simpa using hg⟩
    refine .inr (.inr ?_)
    rw [if_neg (by simpa using hopen)] at h2
    by_cases hc : c ∈ closedObjects
    · rw [if_pos (by simpa using hc)] at h2
      rw [hi] at hm
      have := hne h2
      simp only [V.extras] at hm
      rw [this] at hm
      cases hm
    · rw [if_neg (by simpa using hc)] at h2
      exact ⟨hc, hext h2 e hm⟩
  · have hg : ∃ f ∈ (classDef c).fields, ∃ x, GivenAs f d e.1 x := by
      apply Classical.byContradiction
      intro hn
      exact hg fun f hf x hx => hn ⟨f, hf, x, hx⟩
    obtain ⟨f, hf, x, hg⟩ := hg
    have hj := C44_names c h1 f hf
    have hname : e.1 = jsonName f ∨ e.1 = f.name := by
      rcases hg.2 with ha | ⟨hn, -⟩
      · exact .inl (by simp [jsonName, ha])
      · exact .inr hn
    rcases h4 f hf with ⟨hc, hp⟩ | ⟨r, hr⟩
    · refine .inr (.inl ⟨hc, ?_⟩)
      rcases hname with hn | hn
      · subst hc
        have : ∀ f ∈ (classDef .AsyncAPI3).fields, f.name ∈ processorLists → jsonName f = f.name := by decide +kernel
        rw [hn, this f hf hp]; exact hp
      · rw [hn]; exact hp
    · refine .inl ⟨_, r, hr, ?_⟩
      rcases hname with hn | hn
      · exact .inl hn
      · exact .inr (by rw [hn]; exact hj)

/-- A valid value of a type without null is not written as null. -/
theorem dump_not_none {U : Uni} {limit : Option Nat} {v : V} {t : Ty Cls} (h : Valid U limit v t)
    (hn : nullable t = false) : dump v ≠ .none := by
  have inner : ∀ {v : V} {t : Ty Cls}, Valid U limit v t → (match t with | .any | .none | .union _ => true | _ => false) = false →
      dump v ≠ .none := by
    intro v t h ht
    cases h with
    | @model c fs ex set h1 h2 h3 =>
      by_cases hk : (classDef c).kind = .patterned
      · obtain ⟨d, -, hd⟩ := C36_patterned U limit c hk _ (.model h1 h2 h3)
        rw [hd]; simp
      · rw [C36_exact U limit c hk _ (.model h1 h2 h3)]; simp
    | any => cases ht
    | none => cases ht
    | union => cases ht
    | _ => intro e; cases e
  cases h with
  | @union v t ts ht hv =>
    simp only [nullable] at hn
    have := List.any_eq_false.1 hn t ht
    refine inner hv ?_
    cases t <;> first | rfl | exact absurd rfl this
  | any => cases hn
  | none => cases hn
  | litStr h => exact inner (.litStr h) rfl
  | litInt h => exact inner (.litInt h) rfl
  | list h => exact inner (.list h) rfl
  | dict h => exact inner (.dict h) rfl
  | model h1 h2 h3 => exact inner (.model h1 h2 h3) rfl
  | _ => intro e; cases e

/-- **C45.** In the serialized form of a valid instance every required field of the specification is there, not null
(but the `schema` of a multi-format schema may be null); and every key is a fixed field or an extension name. -/
theorem C45_written (U : Uni) (limit : Option Nat) (c : Cls) (L : List (Str × Bool)) (hL : (c, L) ∈ coreObjects) (v : V)
    (hv : Valid U limit v (.model c)) :
    ∃ out, dump v = .dict out ∧
      (∀ k, (k, true) ∈ L → ∃ w, (k, w) ∈ out ∧ (w = .none → c = .MultiFormatSchema ∧ k = p!"schema")) ∧
      ∀ e ∈ out, (∃ r, (e.1, r) ∈ L) ∨ c ∈ openObjects ∨ (c ∉ closedObjects ∧ OrNewline (ExtensionForm U) e.1) := by
  obtain ⟨h1, h2, h3, h4⟩ := core hL
  refine ⟨_, C36_exact U limit c h1 v hv, fun k hk => ?_, fun e he => ?_⟩
  · obtain ⟨f, hf, rfl, -, hn, hp⟩ := h3 k true hk
    have hty : Valid U limit (v.attr f.name) f.ty := by
      cases hv with | model _ h _ => exact h f hf
    refine ⟨dump (v.attr f.name), List.mem_append.2 (.inl (List.mem_map.2 ⟨f, List.mem_filter.2 ⟨hf, ?_⟩, rfl⟩)), fun hw => ?_⟩
    · simp only [decide_eq_true_eq]
      refine ⟨fun h => hp h.1 ?_, ?_⟩
      · rcases h.2 with e | e <;> simp [processorLists, e]
      · rcases hn rfl with hn | ⟨hc, hs⟩
        · exact .inl (not_none_of_valid hty hn)
        · refine .inr (.inr ⟨hc, ?_⟩)
          subst hc
          have : ∀ f ∈ (classDef .MultiFormatSchema).fields, jsonName f = p!"schema" → f.name = p!"schema" := by decide +kernel
          exact this f hf hs
    · rcases hn rfl with hn | h
      · exact absurd hw (dump_not_none hty hn)
      · exact h
  · rcases List.mem_append.1 he with he | he
    · obtain ⟨f, hf, rfl⟩ := List.mem_map.1 he
      obtain ⟨hf, hs⟩ := List.mem_filter.1 hf
      simp only [decide_eq_true_eq] at hs
      rcases h4 f hf with ⟨hc, hp⟩ | h
      · refine absurd ⟨hc, ?_⟩ hs.1
        simpa [processorLists] using hp
      · exact .inl h
    · obtain ⟨x, hx, rfl⟩ := List.mem_map.1 he
      refine .inr ?_
      have hcon : Consistent U limit c v := by cases hv with | model _ _ h => exact h
      by_cases ho : c ∈ openObjects
      · exact .inl ho
      rw [if_neg (by simpa using ho)] at h2
      by_cases hc : c ∈ closedObjects
      · rw [if_pos (by simpa using hc)] at h2
        rw [hcon.closed (.inl h2)] at hx
        cases hx
      · rw [if_neg (by simpa using hc)] at h2
        exact .inr ⟨hc, hcon.extensions h2 x hx⟩

/-! ### Cases -/

/-- The names of `default_content_type`, `in_`, `ref` and `retention_ms`. -/
example : JsonName .AsyncAPI3 p!"default_content_type" p!"defaultContentType" ∧ JsonName .SecurityScheme p!"in_" p!"in" ∧
    JsonName .Reference p!"ref" p!"$ref" ∧ JsonName .KafkaTopicConfiguration p!"retention_ms" p!"retention.ms" ∧
    ¬ JsonName .SecurityScheme p!"in_" p!"in_" := by
  refine ⟨?_, ?_, ?_, ?_, ?_⟩ <;> rw [← isJsonName_iff] <;> decide +kernel

/-- An Info given by names of both kinds is accepted. -/
example : (validate plainEnv .Info (.dict [(p!"title", .str p!"t"), (p!"version", .str p!"1"),
      (p!"termsOfService", .none), (p!"external_docs", .none), (p!"x-a", .int 1)])).isSome = true := by rfl
/-- C45_required applies to an Info without version. -/
example : validate plainEnv .Info (.dict [(p!"title", .str p!"t"), (p!"x-a", .int 1)]) = none := by
  have h1 : (Cls.Info, (coreObjects[1]'(by decide)).2) ∈ coreObjects :=
    List.mem_of_getElem (i := 1) (h := by decide) (by rfl)
  refine C45_required plainEnv .Info _ h1 p!"version" (by decide +kernel) (by simp [defaulted]) _ ?_
  intro e he
  simp only [List.mem_cons, List.not_mem_nil, or_false] at he
  rcases he with rfl | rfl <;> (refine ⟨by decide, ?_⟩; rw [← isJsonName_iff]; decide +kernel)
/-- C45_unknown applies to an Info with a field `versions`. -/
example : validate plainEnv .Info (.dict [(p!"title", .str p!"t"), (p!"version", .str p!"1"), (p!"versions", .int 1)]) = none := by
  rfl
/-- The two exceptions: a document without a version, a multi-format schema without a format. -/
example : (validate plainEnv .MultiFormatSchema (.dict [(p!"schema", .int 1)])).isSome = true ∧
    (validate plainEnv .AsyncAPI3 (.dict [(p!"info", .dict [(p!"title", .str p!"t"), (p!"version", .str p!"1")])])).isSome = true :=
  ⟨rfl, rfl⟩

end Verif.Props
