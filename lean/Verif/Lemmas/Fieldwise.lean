import Verif.Lemmas.Construct
/-! Construction against the declarative specification. -/
namespace Verif.Pyd
open Verif Verif.Gen Verif.Spec

/-- A value is accepted for a type and becomes another. -/
def Accepts (E : Env) (x : V) (t : Ty Cls) (v : V) : Prop := ∃ sc, parse E x t = some (v, sc)

theorem names_nodup (c : Cls) : ((classDef c).fields.map (·.name)).Nodup := by
  cases c <;> decide

theorem findKey_iff {f : FieldDef Cls} {d : List (Str × V)} {k : Str} {x : V} :
    findKey f d = some (k, x) ↔ GivenAs f d k x := by
  unfold findKey GivenAs
  cases ha : f.alias with
  | none =>
    simp only [Option.map_eq_some_iff, Prod.mk.injEq, reduceCtorEq, false_or, false_implies, implies_true, and_true]
    constructor
    · rintro ⟨y, h, rfl, rfl⟩; exact ⟨h, rfl⟩
    · rintro ⟨h, rfl⟩; exact ⟨x, h, rfl, rfl⟩
  | some a =>
    simp only
    cases hl : lookup a d with
    | some y =>
      simp only [Option.some.injEq, Prod.mk.injEq]
      constructor
      · rintro ⟨rfl, rfl⟩; exact ⟨hl, .inl rfl⟩
      · rintro ⟨h, rfl | ⟨_, h'⟩⟩
        · rw [hl] at h; exact ⟨rfl, Option.some.inj h⟩
        · rw [h' _ rfl] at hl; cases hl
    | none =>
      simp only [Option.map_eq_some_iff, Prod.mk.injEq, Option.some.injEq]
      constructor
      · rintro ⟨y, h, rfl, rfl⟩; exact ⟨h, .inr ⟨rfl, fun _ e => e ▸ hl⟩⟩
      · rintro ⟨h, rfl | ⟨rfl, _⟩⟩
        · rw [hl] at h; cases h
        · exact ⟨x, h, rfl, rfl⟩

theorem findKey_isSome {f : FieldDef Cls} {d : List (Str × V)} :
    (findKey f d).isSome = true ↔ ∃ k x, GivenAs f d k x := by
  rw [Option.isSome_iff_exists]
  constructor
  · rintro ⟨⟨k, x⟩, h⟩; exact ⟨k, x, findKey_iff.1 h⟩
  · rintro ⟨k, x, h⟩; exact ⟨(k, x), findKey_iff.2 h⟩

theorem mem_usedKeys {c : Cls} {d : List (Str × V)} {k : Str} :
    (usedKeys c d).contains k = true ↔ ∃ f ∈ (classDef c).fields, ∃ x, GivenAs f d k x := by
  rw [List.contains_iff_mem]
  unfold usedKeys
  rw [List.mem_filterMap]
  constructor
  · rintro ⟨f, hf, h⟩
    rw [Option.map_eq_some_iff] at h
    obtain ⟨⟨k', x⟩, h, rfl⟩ := h
    exact ⟨f, hf, x, findKey_iff.1 h⟩
  · rintro ⟨f, hf, x, h⟩
    exact ⟨f, hf, by rw [findKey_iff.2 h]; rfl⟩

open Classical in
theorem extrasOf_eq (c : Cls) (d : List (Str × V)) :
    extrasOf c d = d.filter fun e => decide (∀ f ∈ (classDef c).fields, ∀ x, ¬ GivenAs f d e.1 x) := by
  unfold extrasOf
  apply List.filter_congr
  intro e _
  cases h : (usedKeys c d).contains e.1 with
  | true =>
    obtain ⟨f, hf, x, hx⟩ := mem_usedKeys.1 h
    simp only [Bool.not_true]
    symm; rw [decide_eq_false_iff_not]
    exact fun H => H f hf x hx
  | false =>
    simp only [Bool.not_false]
    symm; rw [decide_eq_true_eq]
    intro f hf x hx
    rw [mem_usedKeys.2 ⟨f, hf, x, hx⟩] at h; cases h

open Classical in
theorem setOf_eq (c : Cls) (d : List (Str × V)) :
    setOf c d = ((classDef c).fields.filter fun f => decide (∃ k x, GivenAs f d k x)).map (·.name) ++
      (extrasOf c d).map (·.1) := by
  unfold setOf
  congr 2
  apply List.filter_congr
  intro f _
  rw [Bool.eq_iff_iff, findKey_isSome, decide_eq_true_eq]

theorem hasDefault_iff {df : Dflt} {v : V} : HasDefault df v ↔ dfltValue df = some v := by
  cases df <;> simp [HasDefault, dfltValue, eq_comm]

theorem lengthOk_iff {m : Option Nat} {v : V} :
    lengthOk m v = true ↔ ∀ n s, m = some n → v = .str s → s.length ≤ n := by
  cases m with
  | none => simp [lengthOk]
  | some n => cases v <;> simp [lengthOk]

theorem given_unique {f : FieldDef Cls} {d : List (Str × V)} {k k' : Str} {x x' : V}
    (h : GivenAs f d k x) (h' : GivenAs f d k' x') : k = k' ∧ x = x' := by
  have := (findKey_iff.2 h).symm.trans (findKey_iff.2 h')
  simpa using this

/-- One field is right, apart from its validator. -/
theorem fieldOk_iff {E : Env} {d : List (Str × V)} {f : FieldDef Cls} {v : V} :
    FieldOk (Accepts E) d f v ↔
      (match findKey f d with
        | some (_, x) => ∃ sc, parse E x f.ty = some (v, sc)
        | none => dfltValue f.dflt = some v) ∧ lengthOk f.maxLen v = true := by
  unfold FieldOk
  rw [lengthOk_iff]
  refine and_congr ?_ Iff.rfl
  cases hk : findKey f d with
  | some kx =>
    obtain ⟨k, x⟩ := kx
    have hg := findKey_iff.1 hk
    constructor
    · rintro (⟨k', x', hg', h⟩ | ⟨hn, _⟩)
      · obtain ⟨rfl, rfl⟩ := given_unique hg hg'; exact h
      · exact absurd hg (hn k x)
    · intro h; exact .inl ⟨k, x, hg, h⟩
  | none =>
    have hn : ∀ k x, ¬ GivenAs f d k x := fun k x hg => by
      rw [findKey_iff.2 hg] at hk; cases hk
    constructor
    · rintro (⟨k', x', hg', h⟩ | ⟨_, h⟩)
      · exact absurd hg' (hn _ _)
      · exact hasDefault_iff.1 h
    · intro h; exact .inr ⟨hn, hasDefault_iff.2 h⟩

/-- The fields with a validator. -/
def checkedFields : Cls → List Str
  | .AsyncAPI3 => [p!"asyncapi"]
  | .CorrelationID => [p!"location"]
  | .AMQPOperationBindings => [p!"expiration"]
  | .SolaceOperationBindings => [p!"priority"]
  | .IBMMQServerBindings => [p!"heart_beat_interval"]
  | .IBMMQChannelBindings => [p!"max_msg_length"]
  | .IBMMQMessageBindings => [p!"expiry"]
  | .KafkaChannelBindings => [p!"partitions", p!"replicas"]
  | _ => []

theorem check_of_not_checked {E : Env} {c : Cls} {name : Str} (v : V) (h : name ∉ checkedFields c) :
    fieldCheck E c name v = true := by
  cases c <;> first
    | rfl
    | (simp only [checkedFields, List.mem_cons, List.not_mem_nil, or_false, not_or] at h
       simp only [fieldCheck]
       first
       | rw [if_neg h]
       | rw [if_neg h.1, if_neg h.2])

theorem check_none {E : Env} {c : Cls} {name : Str} (h1 : c ≠ .CorrelationID) (h2 : c ≠ .AsyncAPI3) :
    fieldCheck E c name .none = true := by
  cases c <;> first
    | rfl
    | exact absurd rfl h1
    | exact absurd rfl h2
    | (simp only [fieldCheck]; split <;> rfl)
    | (simp only [fieldCheck]; split <;> first | rfl | (split <;> rfl))

theorem defaults_table : Cls.all.all (fun c => (classDef c).fields.all fun f =>
    f.dflt == .required || (f.dflt == .null && c != .CorrelationID && c != .AsyncAPI3) ||
    (f.maxLen == none && !(checkedFields c).contains f.name) || c == .AsyncAPI3) = true := by decide +kernel

/-- A default value passes the validator of its field. -/
theorem default_check (E : Env) (c : Cls) (hc : c ≠ .AsyncAPI3) (f : FieldDef Cls) (hf : f ∈ (classDef c).fields)
    (v : V) (hv : dfltValue f.dflt = some v) : fieldCheck E c f.name v = true ∧ lengthOk f.maxLen v = true := by
  have := List.all_eq_true.1 (List.all_eq_true.1 defaults_table c (Cls.mem_all c)) f hf
  simp only [Bool.or_eq_true, Bool.and_eq_true, beq_iff_eq, bne_iff_ne, ne_eq, Bool.not_eq_true',
    List.contains_eq_mem, decide_eq_false_iff_not] at this
  rcases this with ((h | ⟨⟨h, h1⟩, h2⟩) | ⟨h1, h2⟩) | h
  · rw [h] at hv; cases hv
  · rw [h] at hv; cases hv
    exact ⟨check_none h1 h2, by cases f.maxLen <;> rfl⟩
  · exact ⟨check_of_not_checked v h2, by rw [h1]; rfl⟩
  · exact absurd h hc

theorem default_length (c : Cls) (f : FieldDef Cls) (hf : f ∈ (classDef c).fields)
    (v : V) (hv : dfltValue f.dflt = some v) : lengthOk f.maxLen v = true := by
  have := List.all_eq_true.1 (List.all_eq_true.1 (show Cls.all.all (fun c => (classDef c).fields.all fun f =>
    f.dflt == .required || f.dflt == .null || f.maxLen == none) = true by decide +kernel) c (Cls.mem_all c)) f hf
  simp only [Bool.or_eq_true, beq_iff_eq] at this
  rcases this with (h | h) | h
  · rw [h] at hv; cases hv
  · rw [h] at hv; cases hv; cases f.maxLen <;> rfl
  · rw [h]; rfl

/-- One field, with its validator, which only a given value passes through. -/
theorem one_isSome {E : Env} {c : Cls} {d : List (Str × V)} {f : FieldDef Cls}
    (hf : f ∈ (classDef c).fields) : (∃ sc, one E c d f = some (v, sc)) ↔
      FieldOk (Accepts E) d f v ∧ ((∃ k x, GivenAs f d k x) → fieldCheck E c f.name v = true) := by
  rw [fieldOk_iff, ← findKey_isSome]
  unfold one
  cases hk : findKey f d with
  | none =>
    simp only [Option.map_eq_some_iff, Prod.mk.injEq, Option.isSome_none, Bool.false_eq_true, false_implies, and_true]
    constructor
    · rintro ⟨_, w, h, rfl, _⟩
      exact ⟨h, default_length c f hf w h⟩
    · rintro ⟨h, _⟩; exact ⟨_, v, h, rfl, rfl⟩
  | some kx =>
    obtain ⟨k, x⟩ := kx
    simp only [Option.isSome_some, true_implies]
    cases hp : parse E x f.ty with
    | none => simp
    | some vs =>
      obtain ⟨w, sc⟩ := vs
      simp only [Option.some.injEq, Prod.mk.injEq]
      constructor
      · rintro ⟨sc', h⟩
        split at h
        · rename_i hb
          simp only [Option.some.injEq, Prod.mk.injEq] at h
          obtain ⟨rfl, _⟩ := h
          rw [Bool.and_eq_true] at hb
          exact ⟨⟨⟨sc, rfl, rfl⟩, hb.1⟩, hb.2⟩
        · cases h
      · rintro ⟨⟨⟨_, rfl, rfl⟩, h1⟩, h2⟩
        exact ⟨_, by rw [if_pos (by rw [h1, h2]; rfl)]⟩

/-- A list of named values is determined by its lookups. -/
theorem eq_of_names {α β : Type} (name : α → Str) {l : List α} {fs : List (Str × β)} (val : α → β)
    (hn : (l.map name).Nodup) (h : fs.map (·.1) = l.map name)
    (hv : ∀ f ∈ l, lookup (name f) fs = some (val f)) : fs = l.map fun f => (name f, val f) := by
  induction l generalizing fs with
  | nil => cases fs <;> simp_all
  | cons a l ih =>
    cases fs with
    | nil => simp at h
    | cons e fs =>
      obtain ⟨k, v⟩ := e
      simp only [List.map_cons, List.cons.injEq] at h
      obtain ⟨rfl, h⟩ := h
      simp only [List.map_cons, List.nodup_cons] at hn
      have h0 := hv a (by simp)
      simp only [lookup, if_true, Option.some.injEq] at h0
      subst h0
      rw [List.map_cons]; congr 1
      refine ih hn.2 h fun f hf => ?_
      have := hv f (by simp [hf])
      simp only [lookup] at this
      rwa [if_neg] at this
      intro e
      exact hn.1 (List.mem_map.2 ⟨f, hf, e.symm⟩)

theorem attr_fieldsOf {E : Env} {c : Cls} {d ex : List (Str × V)} {set : List Str} {f : FieldDef Cls}
    (hf : f ∈ (classDef c).fields) :
    (V.inst c (fieldsOf E c d) ex set).attr f.name = valueOf E c d f := by
  simp only [V.attr, fieldsOf]
  rw [lookup_named (·.name) (valueOf E c d) (names_nodup c) hf]; rfl

theorem lookup_isSome_of_mem {β : Type} {k : Str} {d : List (Str × β)} (h : k ∈ d.map (·.1)) :
    ∃ v, lookup k d = some v := by
  induction d with
  | nil => cases h
  | cons e d ih =>
    obtain ⟨k', v⟩ := e
    simp only [lookup]
    split
    · exact ⟨v, rfl⟩
    · rename_i hk
      rcases List.mem_cons.1 h with h | h
      · exact absurd h.symm hk
      · exact ih h

/-- All fields right one by one, with their validators. -/
theorem allOk_given {E : Env} {c : Cls} {d : List (Str × V)} (i : V) :
    (allOk E c d = true ∧ i = .inst c (fieldsOf E c d) (extrasOf c d) (setOf c d)) ↔
      Fieldwise (Accepts E) c d i ∧ ∀ f ∈ (classDef c).fields, (∃ k x, GivenAs f d k x) →
        fieldCheck E c f.name (i.attr f.name) = true := by
  unfold Fieldwise
  simp only [← extrasOf_eq, ← setOf_eq]
  unfold allOk
  simp only [Bool.and_eq_true, List.all_eq_true, Bool.not_eq_true', Bool.and_eq_false_iff, beq_eq_false_iff_ne,
    Bool.not_eq_false', List.isEmpty_iff]
  constructor
  · rintro ⟨⟨h1, h2⟩, rfl⟩
    have key : ∀ f ∈ (classDef c).fields, FieldOk (Accepts E) d f (valueOf E c d f) ∧
        ((∃ k x, GivenAs f d k x) → fieldCheck E c f.name (valueOf E c d f) = true) := by
      intro f hf
      have := h1 f hf
      rw [Option.isSome_iff_exists] at this
      obtain ⟨⟨v, sc⟩, hv⟩ := this
      have e : valueOf E c d f = v := by unfold valueOf; rw [hv]
      rw [e]
      exact (one_isSome hf).1 ⟨sc, hv⟩
    refine ⟨⟨fieldsOf E c d, by simp [fieldsOf], fun f hf => ?_, rfl, ?_⟩, fun f hf => ?_⟩
    · rw [attr_fieldsOf hf]; exact (key f hf).1
    · intro hk; exact h2.resolve_left (fun h => h hk)
    · rw [attr_fieldsOf hf]; exact (key f hf).2
  · rintro ⟨⟨fs, h1, h2, rfl, h4⟩, h5⟩
    have hone : ∀ f ∈ (classDef c).fields, ∃ sc, one E c d f =
        some ((V.inst c fs (extrasOf c d) (setOf c d)).attr f.name, sc) :=
      fun f hf => (one_isSome hf).2 ⟨h2 f hf, h5 f hf⟩
    have hval : ∀ f ∈ (classDef c).fields, valueOf E c d f =
        (V.inst c fs (extrasOf c d) (setOf c d)).attr f.name := by
      intro f hf; obtain ⟨sc, h⟩ := hone f hf; unfold valueOf; rw [h]
    have hfs : fs = fieldsOf E c d := by
      refine eq_of_names (fun f : FieldDef Cls => f.name) _ (names_nodup c) h1 fun f hf => ?_
      rw [hval f hf]
      obtain ⟨v, hv⟩ := lookup_isSome_of_mem (k := f.name) (d := fs) (by
        rw [h1]; exact List.mem_map.2 ⟨f, hf, rfl⟩)
      simp only [V.attr, hv]; rfl
    refine ⟨⟨fun f hf => ?_, ?_⟩, by rw [← hfs]⟩
    · obtain ⟨sc, h⟩ := hone f hf; rw [h]; rfl
    · by_cases hk : (classDef c).kind = .nonExtendable
      · exact .inr (h4 hk)
      · exact .inl hk

/-- For all classes but the document, default values too pass the validators. -/
theorem allOk_iff {E : Env} {c : Cls} {d : List (Str × V)} (hc : c ≠ .AsyncAPI3) (i : V) :
    (allOk E c d = true ∧ i = .inst c (fieldsOf E c d) (extrasOf c d) (setOf c d)) ↔
      Fieldwise (Accepts E) c d i ∧ ∀ f ∈ (classDef c).fields, fieldCheck E c f.name (i.attr f.name) = true := by
  rw [allOk_given]
  constructor
  · rintro ⟨h1, h2⟩
    refine ⟨h1, fun f hf => ?_⟩
    by_cases hg : ∃ k x, GivenAs f d k x
    · exact h2 f hf hg
    · obtain ⟨_, _, h, _⟩ := h1
      rcases (h f hf).1 with ⟨k, x, hk, _⟩ | ⟨_, hd⟩
      · exact absurd ⟨k, x, hk⟩ hg
      · exact (default_check E c hc f hf _ (hasDefault_iff.1 hd)).1
  · rintro ⟨h1, h2⟩; exact ⟨h1, fun f hf _ => h2 f hf⟩

theorem parse_model_dict (E : Env) {c : Cls} (hk : (classDef c).kind ≠ .patterned) (d : List (Str × V)) :
    parse E (.dict d) (.model c) = construct E c (entries E d) none E.built := by
  show parseModel E c (.dict (entries E d)) _ = _
  simp only [parseModel]
  generalize (classDef c).kind = k at hk
  generalize (classDef c).fields = fs
  cases k <;> first | exact absurd rfl hk | rfl

end Verif.Pyd
