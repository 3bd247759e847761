import Verif.Props.Dump
/-!
# C40: fields by alias or by Python name
-/
namespace Verif.Spec
open Verif Verif.Gen

/-- The JSON name of the field with Python name `k`, if there is one; else `k`. -/
def jsonKey (c : Cls) (k : Str) : Str :=
  match (classDef c).fields.find? (·.name == k) with
  | some f => jsonName f
  | none => k

/-- The input with every Python name of a field replaced by the JSON name of the field. -/
def byAlias (c : Cls) (d : List (Str × V)) : List (Str × V) := d.map fun e => (jsonKey c e.1, e.2)

/-- No field is given both under its alias and under its Python name. -/
def GivenOnce (c : Cls) (d : List (Str × V)) : Prop :=
  ∀ f ∈ (classDef c).fields, ∀ a, f.alias = some a → a ≠ f.name → lookup a d ≠ none → lookup f.name d = none

end Verif.Spec

namespace Verif.Props
open Verif Verif.Gen Verif.Spec Verif.Pyd

/-- Names and aliases of different fields differ. -/
def namesApart (f g : FieldDef Cls) : Bool :=
  f.name == g.name || (f.name != jsonName g && jsonName f != g.name && jsonName f != jsonName g)

theorem namesTable : Cls.all.all (fun c => (classDef c).fields.all fun f => (classDef c).fields.all fun g =>
    namesApart f g) = true := by decide +kernel

theorem same_field {c : Cls} {f g : FieldDef Cls} (hf : f ∈ (classDef c).fields) (hg : g ∈ (classDef c).fields)
    (h : f.name = g.name) : f = g := by
  have h1 := find_name (names_nodup c) hf
  have h2 := find_name (names_nodup c) hg
  rw [h, h2] at h1
  cases h1; rfl

theorem apart {c : Cls} {f g : FieldDef Cls} (hf : f ∈ (classDef c).fields) (hg : g ∈ (classDef c).fields)
    (h : f.name = jsonName g ∨ jsonName f = g.name ∨ jsonName f = jsonName g) : f = g := by
  have := List.all_eq_true.1 (List.all_eq_true.1 (List.all_eq_true.1 namesTable c (Cls.mem_all c)) f hf) g hg
  unfold namesApart at this
  rw [Bool.or_eq_true, beq_iff_eq] at this
  rcases this with this | this
  · exact same_field hf hg this
  · simp only [Bool.and_eq_true, bne_iff_ne] at this
    rcases h with h | h | h
    · exact absurd h this.1.1
    · exact absurd h this.1.2
    · exact absurd h this.2

theorem jsonKey_name {c : Cls} {f : FieldDef Cls} (hf : f ∈ (classDef c).fields) : jsonKey c f.name = jsonName f := by
  unfold jsonKey; rw [find_name (names_nodup c) hf]

theorem jsonKey_cases (c : Cls) (k : Str) :
    (∃ f ∈ (classDef c).fields, k = f.name ∧ jsonKey c k = jsonName f) ∨
    ((∀ f ∈ (classDef c).fields, k ≠ f.name) ∧ jsonKey c k = k) := by
  by_cases h : ∃ f ∈ (classDef c).fields, k = f.name
  · obtain ⟨f, hf, rfl⟩ := h
    exact .inl ⟨f, hf, rfl, jsonKey_name hf⟩
  · refine .inr ⟨fun f hf e => h ⟨f, hf, e⟩, ?_⟩
    unfold jsonKey
    have : (classDef c).fields.find? (·.name == k) = none := by
      rw [List.find?_eq_none]
      intro f hf e
      exact h ⟨f, hf, (beq_iff_eq.1 e).symm⟩
    rw [this]

/-- Which keys become the JSON name of `f`. -/
theorem jsonKey_eq {c : Cls} {f : FieldDef Cls} (hf : f ∈ (classDef c).fields) (k : Str) :
    jsonKey c k = jsonName f ↔ k = f.name ∨ k = jsonName f := by
  rcases jsonKey_cases c k with ⟨g, hg, rfl, h⟩ | ⟨hn, h⟩
  · rw [h]
    constructor
    · intro e; exact .inl (by rw [apart hg hf (.inr (.inr e))])
    · rintro (e | e)
      · rw [same_field hg hf e]
      · rw [apart hg hf (.inl e)]
  · rw [h]
    constructor
    · exact .inr
    · rintro (e | e)
      · exact absurd e (hn f hf)
      · exact e

theorem lookup_byAlias {c : Cls} {f : FieldDef Cls} (hf : f ∈ (classDef c).fields) (d : List (Str × V))
    (hd : ∀ a, f.alias = some a → a ≠ f.name → lookup a d ≠ none → lookup f.name d = none) :
    lookup (jsonName f) (byAlias c d) = (findKey f d).map (·.2) := by
  have hkey : ∀ d : List (Str × V), lookup (jsonName f) (byAlias c d) =
      (d.find? fun e => e.1 == f.name || e.1 == jsonName f).map (·.2) := by
    intro d
    induction d with
    | nil => rfl
    | cons e d ih =>
      obtain ⟨k, v⟩ := e
      simp only [byAlias, List.map_cons, lookup, List.find?_cons]
      by_cases h : jsonKey c k = jsonName f
      · have h2 := (jsonKey_eq hf k).1 h
        have : (k == f.name || k == jsonName f) = true := by simpa using h2
        rw [if_pos h, this]; rfl
      · have : (k == f.name || k == jsonName f) = false := by
          have h2 := fun e => h ((jsonKey_eq hf k).2 e)
          simpa [not_or] using h2
        rw [if_neg h, this]; exact ih
  rw [hkey]
  have hone : ∀ (k : Str) (d : List (Str × V)), (d.find? fun e => e.1 == k).map (·.2) = lookup k d := by
    intro k d
    induction d with
    | nil => rfl
    | cons e d ih =>
      obtain ⟨k', v⟩ := e
      simp only [List.find?_cons, lookup]
      by_cases h : k = k'
      · subst h; simp
      · have : (k' == k) = false := by simpa using fun e => h e.symm
        rw [this, if_neg fun e => h e.symm]; exact ih
  have hskip : ∀ (k k' : Str) (d : List (Str × V)), lookup k d = none →
      (d.find? fun e => e.1 == k || e.1 == k') = d.find? fun e => e.1 == k' := by
    intro k k' d hn
    induction d with
    | nil => rfl
    | cons e d ih =>
      obtain ⟨j, v⟩ := e
      simp only [lookup] at hn
      split at hn
      · cases hn
      · rename_i hj
        have : (j == k) = false := by simpa using hj
        simp only [List.find?_cons, this, Bool.false_or]
        rw [ih hn]
  unfold findKey
  unfold jsonName at *
  cases ha : f.alias with
  | none =>
    simp only [Option.getD_none, Bool.or_self, hone, Option.map_map]
    cases lookup f.name d <;> rfl
  | some a =>
    simp only [Option.getD_some]
    by_cases han : a = f.name
    · subst han
      simp only [Bool.or_self, hone]
      cases lookup f.name d <;> rfl
    · cases hl : lookup a d with
      | some x =>
        have := hd a ha han (by rw [hl]; simp)
        rw [hskip _ _ _ this, hone, hl]; rfl
      | none =>
        have e : (fun e : Str × V => e.1 == f.name || e.1 == a) = fun e => e.1 == a || e.1 == f.name := by
          funext e; rw [Bool.or_comm]
        rw [e, hskip _ _ _ hl, hone]
        cases lookup f.name d <;> rfl

/-- Nothing becomes the Python name of a field with a different alias. -/
theorem lookup_byAlias_name {c : Cls} {f : FieldDef Cls} (hf : f ∈ (classDef c).fields) (d : List (Str × V))
    (hn : f.name ≠ jsonName f) : lookup f.name (byAlias c d) = none := by
  induction d with
  | nil => rfl
  | cons e d ih =>
    obtain ⟨k, v⟩ := e
    simp only [byAlias, List.map_cons, lookup]
    have : f.name ≠ jsonKey c k := by
      intro h
      rcases jsonKey_cases c k with ⟨g, hg, rfl, h'⟩ | ⟨hk, h'⟩
      · rw [h'] at h
        have := apart hf hg (.inl h)
        subst this; exact hn h
      · rw [h'] at h; exact hk f hf h.symm
    rw [if_neg this.symm]; exact ih

theorem findKey_byAlias {c : Cls} {f : FieldDef Cls} (hf : f ∈ (classDef c).fields) (d : List (Str × V))
    (hd : ∀ a, f.alias = some a → a ≠ f.name → lookup a d ≠ none → lookup f.name d = none) :
    findKey f (byAlias c d) = (findKey f d).map fun e => (jsonName f, e.2) := by
  have h := lookup_byAlias hf d hd
  unfold findKey at h ⊢
  cases ha : f.alias with
  | none =>
    have hj : jsonName f = f.name := by unfold jsonName; rw [ha]; rfl
    rw [ha, hj] at h
    simp only at h ⊢
    rw [h, hj]
    cases lookup f.name d <;> rfl
  | some a =>
    have hj : jsonName f = a := by unfold jsonName; rw [ha]; rfl
    rw [ha, hj] at h
    simp only at h ⊢
    rw [h, hj]
    cases hl : lookup a d with
    | some x => rfl
    | none =>
      cases hl2 : lookup f.name d with
      | some x => rfl
      | none =>
        simp only [Option.map_none]
        by_cases hn : f.name = a
        · rw [hn, h, hl]; simp [hl2]
        · rw [lookup_byAlias_name hf d (by rw [hj]; exact hn)]; rfl

theorem lookup_ne_none {d : List (Str × V)} {e : Str × V} (h : e ∈ d) : lookup e.1 d ≠ none := by
  intro hn
  exact lookup_none.1 hn e.2 h

/-- An entry is unused if and only if it is not a declared field; its key then stays. -/
theorem extrasOf_byAlias {c : Cls} {d : List (Str × V)} (hd : GivenOnce c d) :
    extrasOf c (byAlias c d) = extrasOf c d := by
  have hused : usedKeys c (byAlias c d) = (usedKeys c d).map (jsonKey c) := by
    unfold usedKeys
    have : ∀ L : List (FieldDef Cls), (∀ f ∈ L, f ∈ (classDef c).fields) →
        L.filterMap (fun f => (findKey f (byAlias c d)).map (·.1)) =
          (L.filterMap fun f => (findKey f d).map (·.1)).map (jsonKey c) := by
      intro L
      induction L with
      | nil => intro _; rfl
      | cons f L ih =>
        intro hL
        have hf := hL f List.mem_cons_self
        rw [List.filterMap_cons, List.filterMap_cons, findKey_byAlias hf d (hd f hf)]
        have ih := ih fun f hf => hL f (List.mem_cons_of_mem _ hf)
        cases hk : findKey f d with
        | none => simp only [Option.map_none]; exact ih
        | some e =>
          obtain ⟨k, x⟩ := e
          simp only [Option.map_some, List.map_cons, ih]
          congr 1
          refine ((jsonKey_eq hf k).2 ?_).symm
          rcases (findKey_iff.1 hk).2 with h | h
          · exact .inr (by unfold jsonName; rw [h]; rfl)
          · exact .inl h.1
    exact this _ fun _ h => h
  -- a key of `d` that belongs to a field is used
  have hfield : ∀ e ∈ d, ∀ f ∈ (classDef c).fields, e.1 = f.name ∨ e.1 = jsonName f → e.1 ∈ usedKeys c d := by
    intro e he f hf hk
    unfold usedKeys
    rw [List.mem_filterMap]
    have hlk := lookup_ne_none he
    refine ⟨f, hf, ?_⟩
    unfold findKey
    cases ha : f.alias with
    | none =>
      have hj : jsonName f = f.name := by unfold jsonName; rw [ha]; rfl
      rw [hj, or_self] at hk
      rw [hk] at hlk ⊢
      cases hl : lookup f.name d with
      | none => exact absurd hl hlk
      | some x => rfl
    | some a =>
      have hj : jsonName f = a := by unfold jsonName; rw [ha]; rfl
      rw [hj] at hk
      by_cases hka : e.1 = a
      · rw [hka] at hlk ⊢
        cases hl : lookup a d with
        | none => exact absurd hl hlk
        | some x => simp only [hl, Option.map_some]
      · have hk := hk.resolve_right hka
        have han : a ≠ f.name := fun h => hka (by rw [hk, h])
        have : lookup a d = none := by
          cases hl : lookup a d with
          | none => rfl
          | some x => exact absurd (hd f hf a ha han (by rw [hl]; simp)) (by rw [← hk]; exact hlk)
        simp only [this]
        rw [hk] at hlk ⊢
        cases hl : lookup f.name d with
        | none => exact absurd hl hlk
        | some x => rfl
  have hmem : ∀ k ∈ usedKeys c d, ∃ f ∈ (classDef c).fields, k = f.name ∨ k = jsonName f := by
    intro k hk
    unfold usedKeys at hk
    rw [List.mem_filterMap] at hk
    obtain ⟨f, hf, h⟩ := hk
    rw [Option.map_eq_some_iff] at h
    obtain ⟨⟨k', x⟩, h, rfl⟩ := h
    refine ⟨f, hf, ?_⟩
    rcases (findKey_iff.1 h).2 with h | h
    · exact .inr (by unfold jsonName; rw [h]; rfl)
    · exact .inl h.1
  have hiff : ∀ e ∈ d, (jsonKey c e.1 ∈ (usedKeys c d).map (jsonKey c) ↔ e.1 ∈ usedKeys c d) ∧
      (e.1 ∉ usedKeys c d → jsonKey c e.1 = e.1) := by
    intro e he
    refine ⟨⟨fun h => ?_, fun h => List.mem_map.2 ⟨_, h, rfl⟩⟩, fun hn => ?_⟩
    · rw [List.mem_map] at h
      obtain ⟨k, hk, hk2⟩ := h
      obtain ⟨f, hf, hkf⟩ := hmem k hk
      rw [(jsonKey_eq hf k).2 hkf] at hk2
      exact hfield e he f hf ((jsonKey_eq hf e.1).1 hk2.symm)
    · rcases jsonKey_cases c e.1 with ⟨f, hf, h, _⟩ | ⟨_, h⟩
      · exact absurd (hfield e he f hf (.inl h)) hn
      · exact h
  unfold extrasOf
  rw [hused]
  generalize (usedKeys c d) = used at hiff
  unfold byAlias
  have : ∀ l : List (Str × V), (∀ e ∈ l, e ∈ d) →
      (l.map fun e => (jsonKey c e.1, e.2)).filter (fun e => !((used.map (jsonKey c)).contains e.1)) =
        l.filter fun e => !(used.contains e.1) := by
    intro l
    induction l with
    | nil => intro _; rfl
    | cons e l ih =>
      intro hl
      have ih := ih fun e he => hl e (List.mem_cons_of_mem _ he)
      obtain ⟨h1, h2⟩ := hiff e (hl e List.mem_cons_self)
      rw [List.map_cons, List.filter_cons, List.filter_cons, ih]
      by_cases hm : e.1 ∈ used
      · have hm' := h1.2 hm
        simp only [List.contains_iff_mem.2 hm, List.contains_iff_mem.2 hm', Bool.not_true, Bool.false_eq_true, if_false]
      · have hm' : ¬ _ := fun h => hm (h1.1 h)
        have e1 : used.contains e.1 = false := by simpa using hm
        have e2 : (used.map (jsonKey c)).contains (jsonKey c e.1) = false := by
          rw [Bool.eq_false_iff, ne_eq, List.contains_iff_mem]; exact hm'
        simp only [e1, e2, Bool.not_false, if_true]
        rw [h2 hm]
  exact this d fun _ h => h

theorem one_byAlias {E : Env} {c : Cls} {d : List (Str × V)} (hd : GivenOnce c d) {f : FieldDef Cls}
    (hf : f ∈ (classDef c).fields) : one E c (byAlias c d) f = one E c d f := by
  unfold one
  rw [findKey_byAlias hf d (hd f hf)]
  cases findKey f d <;> rfl

/-- **C40**: replacing Python names by JSON names changes nothing, for any class and input in which no
field is given twice. -/
theorem C40_alias_or_name (E : Env) (c : Cls) (hk : (classDef c).kind ≠ .patterned) (d : List (Str × V))
    (hd : GivenOnce c d) : validate E c (.dict (byAlias c d)) = validate E c (.dict d) := by
  unfold validate
  rw [parse_model_dict E hk, parse_model_dict E hk, construct_eq, construct_eq]
  have h1 : allOk E c (byAlias c d) = allOk E c d := by
    unfold allOk
    rw [extrasOf_byAlias hd]
    congr 1
    rw [Bool.eq_iff_iff, List.all_eq_true, List.all_eq_true]
    constructor
    · intro h f hf; rw [← one_byAlias hd hf]; exact h f hf
    · intro h f hf; rw [one_byAlias hd hf]; exact h f hf
  have h2 : fieldsOf E c (byAlias c d) = fieldsOf E c d := by
    unfold fieldsOf
    apply List.map_congr_left
    intro f hf
    unfold valueOf
    rw [one_byAlias hd hf]
  have h3 : Pyd.setOf c (byAlias c d) = Pyd.setOf c d := by
    unfold Pyd.setOf
    rw [extrasOf_byAlias hd]
    congr 2
    apply List.filter_congr
    intro f hf
    rw [findKey_byAlias hf d (hd f hf)]
    cases findKey f d <;> rfl
  have h4 : fieldsScore E c (byAlias c d) (classDef c).fields = fieldsScore E c d (classDef c).fields := by
    have : ∀ L : List (FieldDef Cls), (∀ f ∈ L, f ∈ (classDef c).fields) →
        fieldsScore E c (byAlias c d) L = fieldsScore E c d L := by
      intro L
      induction L with
      | nil => intro _; rfl
      | cons f L ih =>
        intro hL
        have hf := hL f List.mem_cons_self
        simp only [fieldsScore]
        rw [findKey_byAlias hf d (hd f hf), ih fun f hf => hL f (List.mem_cons_of_mem _ hf)]
        cases findKey f d <;> rfl
    exact this _ fun _ h => h
  rw [h1, h2, h3, h4, extrasOf_byAlias hd]

/-- **C40**: two inputs that differ only in the spelling of field names give the same instance. -/
theorem C40_same (E : Env) (c : Cls) (hk : (classDef c).kind ≠ .patterned) (d d' : List (Str × V))
    (hd : GivenOnce c d) (hd' : GivenOnce c d') (h : byAlias c d = byAlias c d') :
    validate E c (.dict d) = validate E c (.dict d') := by
  rw [← C40_alias_or_name E c hk d hd, h, C40_alias_or_name E c hk d' hd']

/-- Without the condition it is false: given both ways, the alias wins, and the Python name becomes an
(illegal) extra field, while one of the two alone is accepted. -/
theorem C40_twice_refuted : validate plainEnv .Info (.dict [(p!"title", .str p!"t"), (p!"version", .str p!"1"),
      (p!"termsOfService", .str p!"https://x"), (p!"terms_of_service", .str p!"https://x")]) = none ∧
    (validate plainEnv .Info (.dict [(p!"title", .str p!"t"), (p!"version", .str p!"1"),
      (p!"terms_of_service", .str p!"https://x")])).isSome = true := by
  constructor
  · rfl
  · decide +kernel

/-! ### A concrete case -/

example : GivenOnce .Info [(p!"title", .str p!"t"), (p!"version", .str p!"1"), (p!"terms_of_service", .str p!"https://x")] := by
  intro f hf a ha hne hl
  change f ∈ defInfo.fields at hf
  simp only [defInfo, List.mem_cons, List.not_mem_nil, or_false] at hf
  rcases hf with rfl | rfl | rfl | rfl | rfl | rfl | rfl | rfl <;> cases ha <;> first | exact absurd rfl hl | rfl
example : byAlias .Info [(p!"title", .str p!"t"), (p!"terms_of_service", .str p!"https://x")] =
    [(p!"title", .str p!"t"), (p!"termsOfService", .str p!"https://x")] := rfl

end Verif.Props
