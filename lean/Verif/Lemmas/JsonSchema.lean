import Verif.Model.JsonSchema
import Verif.Spec.JsonSchema
import Verif.Lemmas.RoundTrip
import Verif.Lemmas.Conform
/-! Generated JSON Schemas. -/
namespace Verif.JsonSchema
open Verif Verif.Gen Verif.Spec Verif.Props Verif.Pyd

variable {root v : V}

/-! ### Schemas of one form -/

/-- What `Satisfies` asks for. -/
structure Meets (root v : V) (kw : List (Str × V)) : Prop where
  ref : ∀ r, lookup p!"$ref" kw = some (.str r) → ∃ s, DefinedAs root r s ∧ Satisfies root v s
  anyOf : ∀ l, lookup p!"anyOf" kw = some (.list l) → ∃ s ∈ l, Satisfies root v s
  type : ∀ t, lookup p!"type" kw = some (.str t) → JsonType t v
  enum : ∀ l, lookup p!"enum" kw = some (.list l) → v ∈ l
  const : ∀ x, lookup p!"const" kw = some x → v = x
  minLength : ∀ n, lookup p!"minLength" kw = some (.int n) → ∀ s, v = .str s → n ≤ s.length
  maxLength : ∀ n, lookup p!"maxLength" kw = some (.int n) → ∀ s, v = .str s → (s.length : Int) ≤ n
  items : ∀ t, lookup p!"items" kw = some t → ∀ l, v = .list l → ∀ x ∈ l, Satisfies root x t
  required : ∀ l, lookup p!"required" kw = some (.list l) → ∀ d, v = .dict d → ∀ k, .str k ∈ l → ∃ x, lookup k d = some x
  properties : ∀ ps, lookup p!"properties" kw = some (.dict ps) → ∀ d, v = .dict d → ∀ k t x, lookup k ps = some t → lookup k d = some x →
    Satisfies root x t
  additional : ∀ t, lookup p!"additionalProperties" kw = some t → ∀ d, v = .dict d → ∀ e ∈ d,
    (∀ ps, lookup p!"properties" kw = some (.dict ps) → lookup e.1 ps = none) → Satisfies root e.2 t

theorem defined_unique {r : Str} {s s' : V} (h : DefinedAs root r s) (h' : DefinedAs root r s') : s = s' := by
  obtain ⟨kw, defs, name, rfl, h1, h2, h3⟩ := h
  obtain ⟨kw', defs', name', e, h1', h2', h3'⟩ := h'
  cases e
  rw [h1] at h1'
  cases h1'
  have : name = name' := List.append_cancel_left (h2.symm.trans h2')
  subst this
  exact Option.some.inj (h3.symm.trans h3')

theorem satisfies_iff {kw : List (Str × V)} : Satisfies root v (.dict kw) ↔ Meets root v kw := by
  constructor
  · intro h
    cases h with
    | keywords h1 h2 h3 h4 h5 h6 h7 h8 h9 h10 h11 h12 h13 =>
      exact ⟨fun r hr => ⟨_, h1 r hr, h2 r hr⟩, fun l hl => ⟨_, h3 l hl, h4 l hl⟩, h5, h6, h7, h8, h9, h10, h11, h12, h13⟩
  · rintro ⟨h1, h2, h5, h6, h7, h8, h9, h10, h11, h12, h13⟩
    have hr : ∃ target, ∀ r, lookup p!"$ref" kw = some (.str r) → DefinedAs root r target ∧ Satisfies root v target := by
      by_cases hx : ∃ r, lookup p!"$ref" kw = some (.str r)
      · obtain ⟨r, hr⟩ := hx
        obtain ⟨s, hs⟩ := h1 r hr
        refine ⟨s, fun r' hr' => ?_⟩
        rw [hr] at hr'
        cases hr'
        exact hs
      · exact ⟨.none, fun r hr => absurd ⟨r, hr⟩ hx⟩
    have ha : ∃ chosen, ∀ l, lookup p!"anyOf" kw = some (.list l) → chosen ∈ l ∧ Satisfies root v chosen := by
      by_cases hx : ∃ l, lookup p!"anyOf" kw = some (.list l)
      · obtain ⟨l, hl⟩ := hx
        obtain ⟨s, hs⟩ := h2 l hl
        refine ⟨s, fun l' hl' => ?_⟩
        rw [hl] at hl'
        cases hl'
        exact hs
      · exact ⟨.none, fun r hr => absurd ⟨r, hr⟩ hx⟩
    obtain ⟨target, hr⟩ := hr
    obtain ⟨chosen, ha⟩ := ha
    exact .keywords (fun r h => (hr r h).1) (fun r h => (hr r h).2) (fun l h => (ha l h).1) (fun l h => (ha l h).2) h5 h6 h7 h8 h9 h10 h11 h12 h13

/-- Only the keywords matter that are looked at. -/
theorem satisfies_congr {kw kw' : List (Str × V)} (h : ∀ k, k ≠ p!"$defs" → lookup k kw = lookup k kw') :
    Satisfies root v (.dict kw) ↔ Satisfies root v (.dict kw') := by
  rw [satisfies_iff, satisfies_iff]
  have key : ∀ {kw kw' : List (Str × V)}, (∀ k, k ≠ p!"$defs" → lookup k kw = lookup k kw') → Meets root v kw → Meets root v kw' := by
    intro kw kw' h hm
    constructor
    · rw [← h _ (by decide)]; exact hm.ref
    · rw [← h _ (by decide)]; exact hm.anyOf
    · rw [← h _ (by decide)]; exact hm.type
    · rw [← h _ (by decide)]; exact hm.enum
    · rw [← h _ (by decide)]; exact hm.const
    · rw [← h _ (by decide)]; exact hm.minLength
    · rw [← h _ (by decide)]; exact hm.maxLength
    · rw [← h _ (by decide)]; exact hm.items
    · rw [← h _ (by decide)]; exact hm.required
    · rw [← h _ (by decide)]; exact hm.properties
    · rw [← h _ (by decide), ← h _ (by decide)]; exact hm.additional
  exact ⟨key h, key fun k hk => (h k hk).symm⟩

/-- Evaluate the lookup of keywords. -/
macro "keyword_simp" : tactic => `(tactic| simp [satisfies_iff, lookup, typed, refTo])

/-- `Meets`, as a conjunction. -/
theorem meets_iff {kw : List (Str × V)} : Meets root v kw ↔
    (∀ r, lookup p!"$ref" kw = some (.str r) → ∃ s, DefinedAs root r s ∧ Satisfies root v s) ∧
    (∀ l, lookup p!"anyOf" kw = some (.list l) → ∃ s ∈ l, Satisfies root v s) ∧
    (∀ t, lookup p!"type" kw = some (.str t) → JsonType t v) ∧
    (∀ l, lookup p!"enum" kw = some (.list l) → v ∈ l) ∧
    (∀ x, lookup p!"const" kw = some x → v = x) ∧
    (∀ n, lookup p!"minLength" kw = some (.int n) → ∀ s, v = .str s → n ≤ s.length) ∧
    (∀ n, lookup p!"maxLength" kw = some (.int n) → ∀ s, v = .str s → (s.length : Int) ≤ n) ∧
    (∀ t, lookup p!"items" kw = some t → ∀ l, v = .list l → ∀ x ∈ l, Satisfies root x t) ∧
    (∀ l, lookup p!"required" kw = some (.list l) → ∀ d, v = .dict d → ∀ k, .str k ∈ l → ∃ x, lookup k d = some x) ∧
    (∀ ps, lookup p!"properties" kw = some (.dict ps) → ∀ d, v = .dict d → ∀ k t x, lookup k ps = some t → lookup k d = some x →
      Satisfies root x t) ∧
    (∀ t, lookup p!"additionalProperties" kw = some t → ∀ d, v = .dict d → ∀ e ∈ d,
      (∀ ps, lookup p!"properties" kw = some (.dict ps) → lookup e.1 ps = none) → Satisfies root e.2 t) :=
  ⟨fun ⟨a, b, c, d, e, f, g, h, i, j, k⟩ => ⟨a, b, c, d, e, f, g, h, i, j, k⟩,
    fun ⟨a, b, c, d, e, f, g, h, i, j, k⟩ => ⟨a, b, c, d, e, f, g, h, i, j, k⟩⟩

theorem sat_nothing : Satisfies root v (.dict []) := by
  rw [satisfies_iff, meets_iff]
  simp [lookup]

theorem sat_type {t : Str} : Satisfies root v (.dict (typed t)) ↔ JsonType t v := by
  rw [satisfies_iff, meets_iff]
  simp [lookup, typed]

theorem sat_url : Satisfies root v (tySchema .anyUrl) ↔ ∃ s, v = .str s ∧ s ≠ [] := by
  rw [tySchema, satisfies_iff, meets_iff]
  simp [lookup, typed]
  constructor
  · rintro ⟨h, h'⟩
    cases h
    have := h' _ rfl
    refine ⟨_, rfl, ?_⟩
    rintro rfl
    simp at this
  · rintro ⟨s, rfl, h⟩
    refine ⟨.string, ?_⟩
    rintro _ ⟨⟩
    have := List.length_pos_iff.2 h
    omega

theorem sat_http : Satisfies root v (tySchema .httpUrl) ↔ ∃ s, v = .str s ∧ s ≠ [] ∧ s.length ≤ 2083 := by
  rw [tySchema, satisfies_iff, meets_iff]
  simp [lookup, typed]
  constructor
  · rintro ⟨h, h', h2⟩
    cases h
    have := h' _ rfl
    have h2 := h2 _ rfl
    refine ⟨_, rfl, ?_, by omega⟩
    rintro rfl
    simp at this
  · rintro ⟨s, rfl, h, h2⟩
    refine ⟨.string, ?_, ?_⟩
    · rintro _ ⟨⟩
      have := List.length_pos_iff.2 h
      omega
    · rintro _ ⟨⟩
      omega

theorem sat_email : Satisfies root v (tySchema .email) ↔ ∃ s, v = .str s := by
  rw [tySchema, satisfies_iff, meets_iff]
  simp [lookup, typed]
  constructor
  · intro h; cases h; exact ⟨_, rfl⟩
  · rintro ⟨s, rfl⟩; exact .string

theorem sat_limited {m : Nat} : Satisfies root v (limited m .str) ↔ ∃ s, v = .str s ∧ s.length ≤ m := by
  rw [limited, satisfies_iff, meets_iff]
  simp [lookup, typed]
  constructor
  · rintro ⟨h, h'⟩
    cases h
    exact ⟨_, rfl, h' _ rfl⟩
  · rintro ⟨s, rfl, h⟩
    refine ⟨.string, ?_⟩
    rintro _ ⟨⟩
    exact h

theorem sat_ref {c : Cls} {s : V} (h : DefinedAs root (p!"#/$defs/" ++ className c) s) :
    Satisfies root v (.dict (refTo c)) ↔ Satisfies root v s := by
  rw [satisfies_iff, meets_iff]
  simp only [lookup, refTo]
  constructor
  · rintro ⟨h1, -⟩
    obtain ⟨s', hs, h2⟩ := h1 _ rfl
    rw [defined_unique h hs]
    exact h2
  · intro h2
    refine ⟨?_, ?_⟩
    · rintro r hr
      simp only [if_true, Option.some.injEq, V.str.injEq] at hr
      subst hr
      exact ⟨s, h, h2⟩
    · simp

theorem sat_anyOf {l : List V} : Satisfies root v (.dict [(p!"anyOf", .list l)]) ↔ ∃ s ∈ l, Satisfies root v s := by
  rw [satisfies_iff, meets_iff]
  simp [lookup]

theorem sat_array {t : V} : Satisfies root v (.dict ([(p!"items", t)] ++ typed p!"array")) ↔
    ∃ l, v = .list l ∧ ∀ x ∈ l, Satisfies root x t := by
  rw [satisfies_iff, meets_iff]
  simp [lookup, typed]
  constructor
  · rintro ⟨h, h'⟩
    cases h
    exact ⟨_, rfl, h' _ rfl⟩
  · rintro ⟨l, rfl, h⟩
    refine ⟨.array, ?_⟩
    rintro _ ⟨⟩
    exact h

theorem sat_map {t : V} : Satisfies root v (.dict ([(p!"additionalProperties", t)] ++ typed p!"object")) ↔
    ∃ d, v = .dict d ∧ ∀ e ∈ d, Satisfies root e.2 t := by
  rw [satisfies_iff, meets_iff]
  simp [lookup, typed]
  constructor
  · rintro ⟨h, h'⟩
    cases h
    exact ⟨_, rfl, h' _ rfl⟩
  · rintro ⟨l, rfl, h⟩
    refine ⟨.object, ?_⟩
    rintro _ ⟨⟩
    exact h

theorem sat_const {x : V} {ty : List (Str × V)} (h : ty = [] ∨ ∃ t, ty = typed t ∧ JsonType t x) :
    Satisfies root v (.dict ([(p!"const", x)] ++ ty)) ↔ v = x := by
  rw [satisfies_iff, meets_iff]
  rcases h with rfl | ⟨t, rfl, h⟩
  · simp [lookup]
  · simp [lookup, typed]
    rintro rfl
    exact h

theorem sat_enum {l : List V} {ty : List (Str × V)} (h : ty = [] ∨ ∃ t, ty = typed t ∧ ∀ x ∈ l, JsonType t x) :
    Satisfies root v (.dict ([(p!"enum", .list l)] ++ ty)) ↔ v ∈ l := by
  rw [satisfies_iff, meets_iff]
  rcases h with rfl | ⟨t, rfl, h⟩
  · simp [lookup]
  · simp [lookup, typed]
    exact h v

theorem sat_lit {vs : List Lit} : Satisfies root v (.dict (litSchema vs)) ↔ ∃ x ∈ vs, v = litValue x := by
  obtain ⟨ty, e, h⟩ : ∃ ty, (if vs.all litIsStr then typed p!"string"
      else if vs.all (fun v => !litIsStr v) then typed p!"integer" else []) = ty ∧
      (ty = [] ∨ ∃ t, ty = typed t ∧ ∀ x ∈ vs.map litValue, JsonType t x) := by
    refine ⟨_, rfl, ?_⟩
    split
    · rename_i h
      refine .inr ⟨_, rfl, ?_⟩
      intro y hy
      obtain ⟨x, hx, rfl⟩ := List.mem_map.1 hy
      have := List.all_eq_true.1 h x hx
      cases x
      · exact .string
      · cases this
    · split
      · rename_i h
        refine .inr ⟨_, rfl, ?_⟩
        intro y hy
        obtain ⟨x, hx, rfl⟩ := List.mem_map.1 hy
        have := List.all_eq_true.1 h x hx
        cases x
        · cases this
        · exact .integer
      · exact .inl rfl
  unfold litSchema
  rw [e]
  split
  · rw [sat_const]
    · simp
    · simpa using h
  · rw [sat_enum h]
    simp only [List.mem_map]
    exact ⟨fun ⟨x, hx, e⟩ => ⟨x, hx, e.symm⟩, fun ⟨x, hx, e⟩ => ⟨x, hx, e.symm⟩⟩

/-! ### Objects -/

theorem not_false : ¬ Satisfies root v (.bool false) := nofun

/-- Keywords of the schema of an object. -/
def objectSchema (others : Bool) (ps : List (Str × V)) (req : List (Str × V)) : List (Str × V) :=
  [(p!"additionalProperties", .bool others), (p!"properties", .dict ps)] ++ req ++ typed p!"object"

theorem sat_object {open_ : Bool} {ps req : List (Str × V)} {l : List V}
    (hreq : (req = [] ∧ l = []) ∨ req = [(p!"required", .list l)]) :
    Satisfies root v (.dict (objectSchema open_ ps req)) ↔ ∃ d, v = .dict d ∧
      (∀ k, .str k ∈ l → ∃ x, lookup k d = some x) ∧
      (∀ k t x, lookup k ps = some t → lookup k d = some x → Satisfies root x t) ∧
      (open_ = false → ∀ e ∈ d, ∃ t, lookup e.1 ps = some t) := by
  have ha : ∀ d : List (Str × V), (∀ e ∈ d, lookup e.1 ps = none → Satisfies root e.2 (.bool open_)) ↔
      (open_ = false → ∀ e ∈ d, ∃ t, lookup e.1 ps = some t) := by
    intro d
    cases open_
    · constructor
      · intro h _ e he
        cases hl : lookup e.1 ps with
        | none => exact absurd (h e he hl) not_false
        | some t => exact ⟨t, rfl⟩
      · intro h e he hn
        obtain ⟨t, ht⟩ := h rfl e he
        rw [hn] at ht
        cases ht
    · simp [Satisfies.always]
  rw [satisfies_iff, meets_iff, objectSchema]
  rcases hreq with ⟨rfl, rfl⟩ | rfl
  · simp [lookup, typed, -Prod.forall]
    constructor
    · rintro ⟨h1, h2, h3⟩
      cases h1
      exact ⟨_, rfl, h2 _ rfl, (ha _).1 (h3 _ rfl)⟩
    · rintro ⟨d, rfl, h2, h3⟩
      refine ⟨.object, ?_, ?_⟩
      · rintro _ ⟨⟩; exact h2
      · rintro _ ⟨⟩; exact (ha _).2 h3
  · simp [lookup, typed, -Prod.forall]
    constructor
    · rintro ⟨h1, h2, h3, h4⟩
      cases h1
      exact ⟨_, rfl, h2 _ rfl, h3 _ rfl, (ha _).1 (h4 _ rfl)⟩
    · rintro ⟨d, rfl, h1, h2, h3⟩
      refine ⟨.object, ?_, ?_, ?_⟩
      · rintro _ ⟨⟩; exact h1
      · rintro _ ⟨⟩; exact h2
      · rintro _ ⟨⟩; exact (ha _).2 h3

/-! ### The class table -/

/-- Is it a type with a maximal length: strings, or optional strings? -/
def limitable : Ty Cls → Bool
  | .str => true
  | .union [.str, .none] => true
  | _ => false

/-- The table is as the proofs need it. -/
def fieldFine (f : FieldDef Cls) : Bool :=
  skips f.ty == f.exclude && !(f.exclude && f.dflt == .required) && !(f.excludeNull && f.dflt == .required) &&
  (f.maxLen.isNone || limitable f.ty)

theorem table_fine : Cls.all.all (fun c => (classDef c).fields.all fieldFine) = true := by decide +kernel

theorem field_fine {c : Cls} {f : FieldDef Cls} (hf : f ∈ (classDef c).fields) :
    skips f.ty = f.exclude ∧ (f.dflt = .required → f.exclude = false ∧ f.excludeNull = false) ∧
    (∀ m, f.maxLen = some m → f.ty = .str ∨ f.ty = .union [.str, .none]) := by
  have h := List.all_eq_true.1 (List.all_eq_true.1 table_fine c (Cls.mem_all c)) f hf
  simp only [fieldFine, Bool.and_eq_true, Bool.or_eq_true, Bool.not_eq_true', beq_iff_eq, Bool.and_eq_false_iff] at h
  obtain ⟨⟨⟨h1, h2⟩, h3⟩, h4⟩ := h
  refine ⟨h1, ?_, ?_⟩
  · intro hd
    rw [hd] at h2 h3
    exact ⟨h2.resolve_right (by decide), h3.resolve_right (by decide)⟩
  · intro m hm
    rw [hm] at h4
    have h4 := h4.resolve_left (by simp)
    revert h4
    generalize f.ty = t
    unfold limitable
    split
    · simp
    · simp
    · intro h; cases h

theorem omitted_eq {mode : Mode} {c : Cls} {f : FieldDef Cls} (hf : f ∈ (classDef c).fields) : omitted mode f = f.exclude := by
  unfold omitted
  rw [(field_fine hf).1]
  cases mode <;> cases f.exclude <;> rfl

theorem mem_shown {mode : Mode} {c : Cls} {f : FieldDef Cls} :
    f ∈ shown mode c ↔ f ∈ (classDef c).fields ∧ f.exclude = false := by
  unfold shown
  rw [List.mem_filter]
  constructor
  · rintro ⟨h, h'⟩
    rw [omitted_eq h] at h'
    exact ⟨h, by simpa using h'⟩
  · rintro ⟨h, h'⟩
    rw [omitted_eq h, h']
    exact ⟨h, rfl⟩

theorem isRequired_iff {mode : Mode} {c : Cls} {f : FieldDef Cls} (hf : f ∈ (classDef c).fields) :
    isRequired mode f = true ↔ f.dflt = .required := by
  unfold isRequired
  have h := (field_fine hf).2.1
  simp only [Bool.and_eq_true, beq_iff_eq, Bool.not_eq_true', Bool.and_eq_false_iff]
  exact ⟨fun h => h.1, fun hd => ⟨hd, .inr (h hd).2⟩⟩

theorem shown_nodup (mode : Mode) (c : Cls) : ((shown mode c).map jsonName).Nodup :=
  (jsonNames_nodup c).sublist (List.filter_sublist.map _)

theorem lookup_properties {mode : Mode} {c : Cls} {k : Str} {t : V} :
    lookup k ((shown mode c).map fun f => (f.alias.getD f.name, fieldSchema f)) = some t ↔
      ∃ f ∈ shown mode c, k = jsonName f ∧ t = fieldSchema f := by
  constructor
  · intro h
    obtain ⟨f, hf, e⟩ := List.mem_map.1 (lookup_some_mem h)
    cases e
    exact ⟨f, hf, rfl, rfl⟩
  · rintro ⟨f, hf, rfl, rfl⟩
    exact lookup_named jsonName fieldSchema (shown_nodup mode c) hf

theorem classSchema_eq {mode : Mode} {c : Cls} (hk : (classDef c).kind ≠ .patterned) : ∃ req l,
    ((req = [] ∧ l = []) ∨ req = [(p!"required", .list l)]) ∧
    l = ((shown mode c).filter (isRequired mode)).map (fun f => V.str (jsonName f)) ∧
    classSchema mode c = objectSchema ((classDef c).kind != .nonExtendable)
      ((shown mode c).map fun f => (f.alias.getD f.name, fieldSchema f)) req := by
  unfold classSchema
  split
  · rename_i h _; exact absurd h hk
  · rename_i h _; exact absurd h hk
  · refine ⟨_, _, ?_, rfl, rfl⟩
    split
    · rename_i h; left; rw [h]; exact ⟨rfl, rfl⟩
    · right; rfl

theorem sat_class {mode : Mode} {c : Cls} (hk : (classDef c).kind ≠ .patterned) :
    Satisfies root v (.dict (classSchema mode c)) ↔ ∃ d, v = .dict d ∧
      (∀ f ∈ (classDef c).fields, f.dflt = .required → ∃ x, lookup (jsonName f) d = some x) ∧
      (∀ f ∈ (classDef c).fields, f.exclude = false → ∀ x, lookup (jsonName f) d = some x → Satisfies root x (fieldSchema f)) ∧
      ((classDef c).kind = .nonExtendable → ∀ e ∈ d, ∃ f ∈ (classDef c).fields, f.exclude = false ∧ e.1 = jsonName f) := by
  obtain ⟨req, l, h, hl, e⟩ := classSchema_eq (mode := mode) hk
  rw [e, sat_object h]
  refine exists_congr fun d => and_congr_right fun _ => and_congr ?_ (and_congr ?_ ?_)
  · subst hl
    constructor
    · intro h f hf hr
      refine h _ (List.mem_map.2 ⟨f, List.mem_filter.2 ⟨mem_shown.2 ⟨hf, ((field_fine hf).2.1 hr).1⟩, (isRequired_iff hf).2 hr⟩, rfl⟩)
    · intro h k hk
      obtain ⟨f, hf, e⟩ := List.mem_map.1 hk
      cases e
      obtain ⟨h1, h2⟩ := List.mem_filter.1 hf
      have hf := (mem_shown.1 h1).1
      exact h f hf ((isRequired_iff hf).1 h2)
  · constructor
    · intro h f hf he x hx
      exact h _ _ _ (lookup_properties.2 ⟨f, mem_shown.2 ⟨hf, he⟩, rfl, rfl⟩) hx
    · intro h k t x ht hx
      obtain ⟨f, hf, rfl, rfl⟩ := lookup_properties.1 ht
      exact h f (mem_shown.1 hf).1 (mem_shown.1 hf).2 x hx
  · simp only [bne_eq_false_iff_eq]
    refine imp_congr_right fun _ => forall_congr' fun e => imp_congr_right fun _ => ?_
    constructor
    · rintro ⟨t, ht⟩
      obtain ⟨f, hf, e, -⟩ := lookup_properties.1 ht
      exact ⟨f, (mem_shown.1 hf).1, (mem_shown.1 hf).2, e⟩
    · rintro ⟨f, hf, he, e⟩
      exact ⟨_, lookup_properties.2 ⟨f, mem_shown.2 ⟨hf, he⟩, e, rfl⟩⟩

/-! ### Schemas and types -/

theorem mem_tySchemas {ts : List (Ty Cls)} {s : V} : s ∈ tySchemas ts ↔ ∃ t ∈ ts, s = tySchema t := by
  induction ts with
  | nil => simp [tySchemas]
  | cons t ts ih => simp [tySchemas, ih]

theorem skipsAny_false {ts : List (Ty Cls)} : skipsAny ts = false ↔ ∀ t ∈ ts, skips t = false := by
  induction ts with
  | nil => simp [skipsAny]
  | cons t ts ih => simp [skipsAny, ih]

theorem mem_refsOfAll {ts : List (Ty Cls)} {c : Cls} : c ∈ refsOfAll ts ↔ ∃ t ∈ ts, c ∈ refsOf t := by
  induction ts with
  | nil => simp [refsOfAll]
  | cons t ts ih => simp [refsOfAll, ih]

theorem sat_dict {t : Ty Cls} : Satisfies root v (tySchema (.dict t)) ↔
    ∃ d, v = .dict d ∧ ∀ e ∈ d, Satisfies root e.2 (tySchema t) := by
  by_cases h : t = .any
  · subst h
    rw [show tySchema (.dict .any) = .dict ([(p!"additionalProperties", .bool true)] ++ typed p!"object") by rw [tySchema], sat_map]
    refine exists_congr fun d => and_congr_right fun _ => forall_congr' fun e => imp_congr_right fun _ => ?_
    rw [tySchema]
    exact ⟨fun _ => sat_nothing, fun _ => .always⟩
  · rw [tySchema, sat_map]
    exact h

theorem typed_lit {vs : List Lit} : TypedJson v (.lit vs) ↔ ∃ x ∈ vs, v = litValue x := by
  constructor
  · intro h
    cases h with
    | litStr h => exact ⟨_, h, rfl⟩
    | litInt h => exact ⟨_, h, rfl⟩
  · rintro ⟨x, hx, rfl⟩
    cases x
    · exact .litStr hx
    · exact .litInt hx

theorem limited_agrees {f : FieldDef Cls} {c : Cls} (hf : f ∈ (classDef c).fields) (h : Satisfies root v (tySchema f.ty) ↔ TypedJson v f.ty) :
    Satisfies root v (fieldSchema f) ↔ TypedJson v f.ty ∧ ∀ m s, f.maxLen = some m → v = .str s → s.length ≤ m := by
  unfold fieldSchema
  cases hm : f.maxLen with
  | none =>
    simp only [h]
    exact ⟨fun h => ⟨h, nofun⟩, fun h => h.1⟩
  | some m =>
    rcases (field_fine hf).2.2 m hm with e | e
    · rw [e]
      simp only [sat_limited]
      constructor
      · rintro ⟨s, rfl, hs⟩
        refine ⟨.str, ?_⟩
        rintro _ _ ⟨⟩ ⟨⟩
        exact hs
      · rintro ⟨h1, h2⟩
        cases h1
        exact ⟨_, rfl, h2 _ _ rfl rfl⟩
    · rw [e]
      simp only [List.map_cons, List.map_nil, sat_anyOf, List.exists_mem_cons_iff, sat_limited]
      constructor
      · rintro (⟨s, rfl, hs⟩ | h | ⟨_, h, _⟩)
        · refine ⟨.union (List.mem_cons_self) .str, ?_⟩
          rintro _ _ ⟨⟩ ⟨⟩
          exact hs
        · simp only [limited, tySchema, sat_type] at h
          cases h
          exact ⟨.union (t := .none) (by simp) .none, by simp⟩
        · cases h
      · rintro ⟨h1, h2⟩
        cases h1 with
        | union hm h1 =>
          simp only [List.mem_cons, List.not_mem_nil, or_false] at hm
          rcases hm with rfl | rfl
          · cases h1
            exact .inl ⟨_, rfl, h2 _ _ rfl rfl⟩
          · cases h1
            simp only [limited, tySchema, sat_type]
            exact .inr (.inl .null)

theorem patterned_schema {mode : Mode} {c : Cls} {t : Ty Cls} (hk : (classDef c).kind = .patterned)
    (ht : (classDef c).fields = [⟨p!"root", none, .dict t, .required, false, false, none⟩]) :
    V.dict (classSchema mode c) = tySchema (.dict t) := by
  unfold classSchema
  rw [hk, ht]
  simp only
  by_cases h : t = .any
  · subst h; rw [tySchema]
  · rw [tySchema]; exact h

variable {mode : Mode} {S : List Cls}

/-- The schemas of the classes in `S`, and of types made of these, say what the types are. -/
theorem agrees (hS : ∀ c ∈ S, DefinedAs root (p!"#/$defs/" ++ className c) (.dict (classSchema mode c)))
    (hc : ∀ c ∈ S, ∀ c' ∈ usesOf mode c, c' ∈ S) : ∀ (v : V),
    (∀ t, skips t = false → (∀ c ∈ refsOf t, c ∈ S) → (Satisfies root v (tySchema t) ↔ TypedJson v t)) ∧
    (∀ c, (∀ c' ∈ usesOf mode c, c' ∈ S) → (Satisfies root v (.dict (classSchema mode c)) ↔ TypedJson v (.model c))) := by
  have key : ∀ v : V, (∀ l, v = .list l → ∀ x ∈ l, ∀ t, skips t = false → (∀ c ∈ refsOf t, c ∈ S) → (Satisfies root x (tySchema t) ↔ TypedJson x t)) →
      (∀ d, v = .dict d → ∀ e ∈ d, ∀ t, skips t = false → (∀ c ∈ refsOf t, c ∈ S) → (Satisfies root e.2 (tySchema t) ↔ TypedJson e.2 t)) →
      (∀ t, skips t = false → (∀ c ∈ refsOf t, c ∈ S) → (Satisfies root v (tySchema t) ↔ TypedJson v t)) ∧
      (∀ c, (∀ c' ∈ usesOf mode c, c' ∈ S) → (Satisfies root v (.dict (classSchema mode c)) ↔ TypedJson v (.model c))) := by
    intro v hl hd
    have hdict : ∀ t, skips t = false → (∀ c ∈ refsOf t, c ∈ S) → (Satisfies root v (tySchema (.dict t)) ↔ TypedJson v (.dict t)) := by
      intro t h1 h2
      rw [sat_dict]
      constructor
      · rintro ⟨d, rfl, h⟩
        exact .dict fun e he => (hd d rfl e he t h1 h2).1 (h e he)
      · intro h
        cases h with
        | dict h => exact ⟨_, rfl, fun e he => (hd _ rfl e he t h1 h2).2 (h e he)⟩
    have hclass : ∀ c, (∀ c' ∈ usesOf mode c, c' ∈ S) → (Satisfies root v (.dict (classSchema mode c)) ↔ TypedJson v (.model c)) := by
      intro c hu
      by_cases hk : (classDef c).kind = .patterned
      · obtain ⟨t, ht⟩ := patterned_root c hk
        have hmem : (⟨p!"root", none, .dict t, .required, false, false, none⟩ : FieldDef Cls) ∈ (classDef c).fields := by
          rw [ht]; exact List.mem_singleton_self _
        have e := patterned_schema (mode := mode) hk ht
        rw [e]
        have hs : skips t = false := (field_fine hmem).1
        have hr : ∀ c ∈ refsOf t, c ∈ S := by
          intro c' hc'
          refine hu c' (List.mem_flatMap.2 ⟨_, mem_shown.2 ⟨hmem, rfl⟩, ?_⟩)
          rw [refsOf]
          exact hc'
        rw [hdict t hs hr]
        constructor
        · intro h
          exact .root hk hmem h
        · intro h
          cases h with
          | root _ hf h =>
            rw [ht] at hf
            cases List.mem_singleton.1 hf
            exact h
          | object hn => exact absurd hk hn
      · rw [sat_class hk]
        have hfield : ∀ d, v = .dict d → ∀ f ∈ (classDef c).fields, f.exclude = false → ∀ x, lookup (jsonName f) d = some x →
            (Satisfies root x (tySchema f.ty) ↔ TypedJson x f.ty) := by
          intro d e f hf he x hx
          refine hd d e _ (lookup_some_mem hx) f.ty (((field_fine hf).1).trans he) ?_
          intro c' hc'
          exact hu c' (List.mem_flatMap.2 ⟨f, mem_shown.2 ⟨hf, he⟩, hc'⟩)
        constructor
        · rintro ⟨d, rfl, h1, h2, h3⟩
          refine .object hk h1 ?_ ?_ h3
          · intro f hf he x hx
            exact ((limited_agrees hf (hfield d rfl f hf he x hx)).1 (h2 f hf he x hx)).1
          · intro f hf m s hm hx
            have he : f.exclude = false := by
              rw [← (field_fine hf).1]
              rcases (field_fine hf).2.2 m hm with e | e <;> rw [e] <;> rfl
            exact ((limited_agrees hf (hfield d rfl f hf he _ hx)).1 (h2 f hf he _ hx)).2 m s hm rfl
        · intro h
          cases h with
          | root hk' => exact absurd hk' hk
          | object _ h1 h2 h4 h3 =>
            refine ⟨_, rfl, h1, ?_, h3⟩
            intro f hf he x hx
            refine (limited_agrees hf (hfield _ rfl f hf he x hx)).2 ⟨h2 f hf he x hx, ?_⟩
            rintro m s hm rfl
            exact h4 f hf m s hm hx
    refine ⟨?_, hclass⟩
    intro t
    induction t using Ty.rec (motive_2 := fun ts => ∀ t ∈ ts, skips t = false → (∀ c ∈ refsOf t, c ∈ S) → (Satisfies root v (tySchema t) ↔ TypedJson v t)) with
    | any => intro _ _; rw [tySchema]; exact ⟨fun _ => .any, fun _ => sat_nothing⟩
    | none =>
      intro _ _; rw [tySchema, sat_type]
      exact ⟨fun h => by cases h; exact .none, fun h => by cases h; exact .null⟩
    | str =>
      intro _ _; rw [tySchema, sat_type]
      exact ⟨fun h => by cases h; exact .str, fun h => by cases h; exact .string⟩
    | int =>
      intro _ _; rw [tySchema, sat_type]
      exact ⟨fun h => by cases h; exact .int, fun h => by cases h; exact .integer⟩
    | bool =>
      intro _ _; rw [tySchema, sat_type]
      exact ⟨fun h => by cases h; exact .bool, fun h => by cases h; exact .boolean⟩
    | anyUrl =>
      intro _ _; rw [sat_url]
      constructor
      · rintro ⟨s, rfl, h⟩; exact .anyUrl h
      · intro h; cases h; exact ⟨_, rfl, ‹_›⟩
    | httpUrl =>
      intro _ _; rw [sat_http]
      constructor
      · rintro ⟨s, rfl, h, h'⟩; exact .httpUrl h h'
      · intro h; cases h; exact ⟨_, rfl, ‹_›, ‹_›⟩
    | email =>
      intro _ _; rw [sat_email]
      constructor
      · rintro ⟨s, rfl⟩; exact .email
      · intro h; cases h; exact ⟨_, rfl⟩
    | processors => intro h; cases h
    | lit vs => intro _ _; rw [tySchema, sat_lit, typed_lit]
    | list t _ =>
      intro h1 h2
      rw [skips] at h1
      simp only [refsOf] at h2
      rw [tySchema, sat_array]
      constructor
      · rintro ⟨l, rfl, h⟩
        exact .list fun x hx => (hl l rfl x hx t h1 h2).1 (h x hx)
      · intro h
        cases h with
        | list h => exact ⟨_, rfl, fun x hx => (hl _ rfl x hx t h1 h2).2 (h x hx)⟩
    | dict t _ =>
      intro h1 h2
      rw [skips] at h1
      simp only [refsOf] at h2
      exact hdict t h1 h2
    | model c =>
      intro _ h2
      have h := h2 c (by simp [refsOf])
      rw [tySchema, sat_ref (hS c h)]
      exact hclass c (hc c h)
    | union ts ih =>
      intro h1 h2
      rw [skips, skipsAny_false] at h1
      simp only [refsOf, mem_refsOfAll] at h2
      rw [tySchema, sat_anyOf]
      constructor
      · rintro ⟨s, hs, h⟩
        obtain ⟨t, ht, rfl⟩ := mem_tySchemas.1 hs
        exact .union ht ((ih t ht (h1 t ht) fun c hc => h2 c ⟨t, ht, hc⟩).1 h)
      · intro h
        cases h with
        | union ht h => exact ⟨_, mem_tySchemas.2 ⟨_, ht, rfl⟩, (ih _ ht (h1 _ ht) fun c hc => h2 c ⟨_, ht, hc⟩).2 h⟩
    | nil => rename_i ht _ _; cases ht
    | cons t ts h1 h2 =>
      rename_i t' ht' a b
      rcases List.mem_cons.1 ht' with rfl | h
      · exact h1 a b
      · exact h2 t' h a b
  intro v
  induction v using V.ind with
  | list l ih => exact key _ (by rintro _ ⟨⟩ x hx; exact (ih x hx).1) nofun
  | dict d ih => exact key _ nofun (by rintro _ ⟨⟩ x hx; exact (ih x hx).1)
  | _ => exact key _ nofun nofun

end Verif.JsonSchema
