import Verif.Lemmas.Accepted
import Verif.Spec.Rewrite
import Verif.Props.RoundTrip
/-! What is written of what was read. -/
namespace Verif.Pyd
open Verif Verif.Gen Verif.Spec Verif.Props

variable {E : Env}

/-- The Python name of the field with that JSON name. -/
def attrOf (c : Cls) (k : Str) : Str := (((classDef c).fields.find? fun f => jsonName f == k).map (·.name)).getD k

/-- The reader of an environment. -/
def readerOf (E : Env) : Reader where
  U := E.U
  url k s u := E.url k s = some u
  toInt v n := (∃ b, v = .bool b ∧ n = if b then 1 else 0) ∨ (∃ x, v = .float x ∧ E.floatToInt x = some n) ∨
    (∃ s, v = .str s ∧ E.strToInt s = some n)
  toBool v b := (v = .int 0 ∧ b = false) ∨ (v = .int 1 ∧ b = true) ∨ (∃ x, v = .float x ∧ E.floatToBool x = some b) ∨
    (∃ s, v = .str s ∧ E.strToBool s = some b)
  attr := attrOf
  processors := True

/-! ### Tables -/

/-- Values that the kernel can compare. -/
def sameScalar : Option V → Dflt → Bool
  | none, .null => true
  | none, .required => true
  | some (.bool b), .bool b' => b == b'
  | some (.str s), .str s' => s == s'
  | some (.int n), .int n' => n == n'
  | _, _ => false

theorem filled_table : grammar.all (fun e => (classDef e.1).fields.all fun f => f.exclude ||
    (if e.1 == .Channel && jsonName f == p!"address" then f.dflt == .null && (filledIn e.1 (jsonName f)).any V.isNone
      else sameScalar (filledIn e.1 (jsonName f)) f.dflt)) = true := by decide +kernel

theorem keeps_table : grammar.all (fun e => (classDef e.1).fields.all fun f => f.exclude ||
    keepsNull.contains (e.1, jsonName f) == ((e.1 == .Channel && f.name == p!"address") || (e.1 == .MultiFormatSchema && f.name == p!"schema"))) = true := by
  decide +kernel

open Classical in
theorem filled_null {c : Cls} {rs : List Row} (hrs : (c, rs) ∈ grammar) {f : FieldDef Cls} (hf : f ∈ (classDef c).fields)
    (he : f.exclude = false) {v : V} (hd : HasDefault f.dflt v) :
    filledIn c (jsonName f) = if v ≠ .none ∨ (c = .Channel ∧ jsonName f = p!"address") then some v else none := by
  have := List.all_eq_true.1 (List.all_eq_true.1 filled_table _ hrs) f hf
  simp only [he, Bool.false_or] at this
  split at this
  · rename_i h
    simp only [Bool.and_eq_true, beq_iff_eq] at h this
    rw [if_pos (.inr h)]
    obtain ⟨h1, h2⟩ := this
    rw [h1] at hd
    cases hfi : filledIn c (jsonName f) with
    | none => rw [hfi] at h2; cases h2
    | some w =>
      rw [hfi] at h2
      rw [show v = .none from hd]
      cases w <;> first | rfl | cases h2
  · rename_i h
    simp only [Bool.and_eq_true, beq_iff_eq] at h
    simp only [h, or_false]
    revert this hd
    generalize filledIn c (jsonName f) = w
    intro hd this
    cases hdf : f.dflt <;> rw [hdf] at hd this
    · cases hd
    all_goals
      cases hd
      rcases w with _ | w <;> try cases w
      all_goals first | (cases this; done) | skip
      all_goals first | rfl | (simp; done) | (simp only [sameScalar, beq_iff_eq] at this; subst this; simp)

theorem keeps_iff {c : Cls} {rs : List Row} (hrs : (c, rs) ∈ grammar) {f : FieldDef Cls} (hf : f ∈ (classDef c).fields)
    (he : f.exclude = false) : (c, jsonName f) ∈ keepsNull ↔
      (c = .Channel ∧ f.name = p!"address") ∨ (c = .MultiFormatSchema ∧ f.name = p!"schema") := by
  have := List.all_eq_true.1 (List.all_eq_true.1 keeps_table _ hrs) f hf
  simp only [he, Bool.false_or, beq_iff_eq] at this
  rw [← List.contains_iff_mem, this]
  simp

/-! ### Objects -/

theorem processor_field (n : Str) (hn : n = p!"extra_converters" ∨ n = p!"extra_validators") :
    ∃ f ∈ (classDef .AsyncAPI3).fields, f.name = n ∧ f.ty = .union [.list .processors, .none] ∧ f.dflt = .null := by
  rcases hn with rfl | rfl
  · exact ⟨defAsyncAPI3.fields[8], List.mem_of_getElem (i := 8) rfl, rfl, rfl, rfl⟩
  · exact ⟨defAsyncAPI3.fields[9], List.mem_of_getElem (i := 9) rfl, rfl, rfl, rfl⟩

/-- An instance read from JSON is what its fields say. -/
theorem json_fieldwise {c : Cls} (hk : (classDef c).kind ≠ .patterned) {d : List (Str × V)}
    (hj : ∀ e ∈ d, e.2.isJson = true) {v : V} {sc : Score} (h : parse E (.dict d) (.model c) = some (v, sc)) :
    Fieldwise (Accepts E) c d v := by
  by_cases hc : c = .AsyncAPI3
  · subst hc
    rw [parse_model_dict E hk, construct_eq] at h
    split at h
    · rename_i hok
      rw [Option.map_eq_some_iff] at h
      obtain ⟨i', h, he⟩ := h
      cases he
      obtain ⟨h1, -⟩ := (allOk_given _).1 ⟨hok, rfl⟩
      simp only [Option.getD_none] at h
      have hproc : ∀ n, n = p!"extra_converters" ∨ n = p!"extra_validators" →
          processorsOf ((V.inst .AsyncAPI3 (fieldsOf E .AsyncAPI3 d) (extrasOf .AsyncAPI3 d) (setOf .AsyncAPI3 d)).attr n) = [] := by
        intro n hn
        obtain ⟨f, hf, rfl, hty, hdf⟩ := processor_field n hn
        rcases (fieldwise_field h1 hf).1 with ⟨k, x, hg, sc, ha⟩ | ⟨-, hd⟩
        · refine list_processors_json (E := E) ?_
          rw [← hty]
          have hx := hj _ (mem_of_given hg)
          exact parse_validJson x hx _ _ _ (field_jsonTy hf) ha
        · rw [hdf] at hd
          rw [show _ = V.none from hd]; rfl
      have := after_json (fun _ => ⟨hproc _ (.inl rfl), hproc _ (.inr rfl)⟩) h
      rw [this]
      exact h1
    · cases h
  · have : validate E c (.dict d) = some v := by unfold validate; rw [h]; rfl
    exact ((C41_accepts_iff E c hk hc d v).1 this).1

theorem strip_parse {x : V} (hx : x ≠ .none) (t : Ty Cls) : parse E x (strip t) = parse E x t := by
  cases t with
  | union ms =>
    have hn : x.isNone = false := by cases x <;> first | rfl | exact absurd rfl hx
    have key : ∀ (ms : List (Ty Cls)) (cur : Res), pick E cur ((ms.filter fun m => !isNoneTy m).map (parse E x)) =
        pick E cur (ms.map (parse E x)) := by
      intro ms
      induction ms with
      | nil => intro _; rfl
      | cons m ms ih =>
        intro cur
        rw [List.filter_cons]
        split
        · simp only [List.map_cons]
          cases parse E x m with
          | none => exact ih cur
          | some r => cases cur <;> exact ih _
        · rename_i hm
          have : m = .none := by cases m <;> simp [isNoneTy] at hm ⊢
          subst this
          have : parse E x .none = none := by rw [parse_eq_shape]; simp only [parseAs, hn]; rfl
          rw [List.map_cons, this]
          exact ih cur
    have hu : ∀ l, parse E x (.union l) = pick E none (l.map (parse E x)) := by
      intro l; rw [parse_union, hn]; rfl
    simp only [strip]
    rw [hu, ← key]
    split
    · rename_i m heq
      rw [heq]
      simp only [List.map_cons, List.map_nil]
      cases parse E x m <;> rfl
    · rw [hu]
  | _ => rfl

theorem attrOf_json {c : Cls} {f : FieldDef Cls} (hf : f ∈ (classDef c).fields) : attrOf c (jsonName f) = f.name := by
  unfold attrOf
  cases h : (classDef c).fields.find? fun g => jsonName g == jsonName f with
  | none => 
    have := List.find?_eq_none.1 h f hf
    simp at this
  | some g =>
    have h1 := List.find?_some h
    have h2 := List.mem_of_find?_eq_some h
    simp only [beq_iff_eq] at h1
    rw [show g = f from apart h2 hf (.inr (.inr h1))]
    rfl

theorem valueFor_iff {c : Cls} {f : FieldDef Cls} (hf : f ∈ (classDef c).fields) {d : List (Str × V)} {x : V} :
    valueFor (readerOf E) c d (jsonName f) = some x ↔ ∃ k, GivenAs f d k x := by
  have ha : (readerOf E).attr c (jsonName f) = f.name := attrOf_json hf
  unfold valueFor GivenAs
  rw [ha]
  unfold jsonName
  cases hal : f.alias with
  | none =>
    simp only [Option.getD_none, reduceCtorEq, false_or, false_implies, implies_true, and_true]
    constructor
    · intro h
      refine ⟨f.name, ?_, rfl⟩
      split at h
      · rename_i y hy; rw [hy]; exact h
      · exact h
    · rintro ⟨k, h, rfl⟩
      rw [h]
  | some a =>
    simp only [Option.getD_some, Option.some.injEq, forall_eq']
    constructor
    · intro h
      split at h
      · rename_i y hy; exact ⟨a, by rw [hy]; exact h, .inl rfl⟩
      · rename_i hy; exact ⟨f.name, h, .inr ⟨rfl, hy⟩⟩
    · rintro ⟨k, h, rfl | ⟨rfl, h'⟩⟩
      · rw [h]
      · rw [h']; exact h

theorem lookup_filter {P : Str → Prop} [DecidablePred P] (k : Str) (d : List (Str × V)) :
    lookup k (d.filter fun e => decide (P e.1)) = if P k then lookup k d else none := by
  induction d with
  | nil => simp [lookup]
  | cons e d ih =>
    obtain ⟨k', x⟩ := e
    rw [List.filter_cons]
    by_cases hk : k' = k
    · subst hk
      by_cases hp : P k'
      · simp [hp, lookup]
      · simp only [hp, decide_false, Bool.false_eq_true, if_false] at ih ⊢
        exact ih
    · split
      · simp only [lookup, hk, if_false]
        exact ih
      · simp only [lookup, hk, if_false]
        exact ih

theorem excluded_iff {c : Cls} {f : FieldDef Cls} (hf : f ∈ (classDef c).fields) : f.exclude = true ↔
    (c = .AsyncAPI3 ∧ (f.name = p!"extra_converters" ∨ f.name = p!"extra_validators")) := by
  have : Cls.all.all (fun c => (classDef c).fields.all fun f => f.exclude ==
      (c == .AsyncAPI3 && (f.name == p!"extra_converters" || f.name == p!"extra_validators"))) = true := by decide +kernel
  have := List.all_eq_true.1 (List.all_eq_true.1 this c (Cls.mem_all c)) f hf
  rw [beq_iff_eq] at this
  rw [this]; simp

theorem address_iff {c : Cls} {f : FieldDef Cls} (hf : f ∈ (classDef c).fields) :
    ((c = .Channel ∧ f.name = p!"address") ↔ (c = .Channel ∧ jsonName f = p!"address")) ∧
    (c = .MultiFormatSchema ∧ f.name = p!"schema" → f.dflt = .required) := by
  have : Cls.all.all (fun c => (classDef c).fields.all fun f => (c != .Channel || (f.name == p!"address") == (jsonName f == p!"address")) &&
      (!(c == .MultiFormatSchema && f.name == p!"schema") || f.dflt == .required)) = true := by decide +kernel
  have := List.all_eq_true.1 (List.all_eq_true.1 this c (Cls.mem_all c)) f hf
  simp only [Bool.and_eq_true, Bool.or_eq_true, bne_iff_ne, beq_iff_eq, Bool.not_eq_true', Bool.and_eq_false_iff] at this
  obtain ⟨h1, h2⟩ := this
  refine ⟨and_congr_right fun hc => ?_, fun ⟨hc, hn⟩ => ?_⟩
  · have := h1.resolve_left (by simp [hc])
    rw [← beq_iff_eq (b := p!"address"), this, beq_iff_eq]
  · rcases h2 with (h | h) | h
    · simp [hc] at h
    · simp [hn] at h
    · exact h

theorem default_dump {f : Dflt} {v : V} (h : HasDefault f v) : dump v = v := by
  cases f <;> cases h <;> rfl

/-- What reading and writing does to parts of a value. -/
def Rewrites (E : Env) (x : V) : Prop :=
  ∀ ty v sc, parse E x ty = some (v, sc) → ∀ t, fits t ty = true → Rewritten (readerOf E) x (dump v) t

theorem rewritten_object {c : Cls} (hk : (classDef c).kind ≠ .patterned) {d : List (Str × V)}
    (hj : ∀ e ∈ d, e.2.isJson = true) (ih : ∀ e ∈ d, Rewrites E e.2) {v : V} {sc : Score}
    (h : parse E (.dict d) (.model c) = some (v, sc)) : Rewritten (readerOf E) (.dict d) (dump v) (.object c) := by
  classical
  obtain ⟨rs, hrs⟩ := grammar_of hk
  have hfw := json_fieldwise hk hj h
  have hjd : (V.dict d).isJson = true := by rw [V.isJson, isJsonDict_iff]; exact hj
  have hv : ValidJson E.U E.digits (NormalUrl E) v (.model c) :=
    parse_validJson (.dict d) hjd (.model c) _ _ rfl h
  have hfield := fun f hf => fieldwise_field hfw (f := f) hf
  obtain ⟨fs, -, -, hinst, -⟩ := hfw
  subst hinst
  have hlook := fun f hf => lookup_dump hv (f := f) hf
  have hval := fun f hf => validJson_valid (field_validJson hv (f := f) hf)
  have hvv := validJson_valid hv
  have hex : ∀ e ∈ d.filter (fun e => decide (∀ f ∈ (classDef c).fields, ∀ x, ¬ GivenAs f d e.1 x)), e.2.isJson = true :=
    fun e he => hj e (List.mem_filter.1 he).1
  rw [dump_written hk hvv hex]
  have hshown : ∀ f ∈ (classDef c).fields, f.exclude = false → ∀ w, Shown c f w ↔ w ≠ .none ∨ (c, jsonName f) ∈ keepsNull := by
    intro f hf he w
    unfold Shown
    rw [keeps_iff hrs hf he, ← excluded_iff hf, he]
    simp
  have hother : ∀ k, (∀ r ∈ rs, k ≠ r.name) → ∀ i, lookup k (writtenFields c i) = none ∨
      ∃ f ∈ (classDef c).fields, Shown c f (i.attr f.name) ∧ f.exclude = true := by
    intro k hkr i
    by_cases hx : ∃ f ∈ (classDef c).fields, Shown c f (i.attr f.name) ∧ f.exclude = true
    · exact .inr hx
    · left
      cases hl : lookup k (writtenFields c i) with
      | none => rfl
      | some w =>
        exfalso
        obtain ⟨f, hf, hs, he⟩ := mem_written (lookup_some_mem hl)
        have hfe : f.exclude = false := by
          cases hfe : f.exclude with
          | false => rfl
          | true => exact absurd ⟨f, hf, hs, hfe⟩ hx
        obtain ⟨r, hr, hrf⟩ := row_of_field hrs hf hfe
        exact hkr r hr (by rw [← hrf.name]; exact congrArg Prod.fst he)
  have hother : ∀ k, (∀ r ∈ rs, k ≠ r.name) → ∀ i, lookup k (writtenFields c i) = none := by
    intro k hkr i
    rcases hother k hkr i with h | ⟨f, hf, hs, he⟩
    · exact h
    · exact absurd ((excluded_iff hf).1 he) hs.1
  refine .object hrs ?_ ?_ ?_ ?_ ?_ ?_ ?_
  · intro e he
    by_cases hg : ∃ f ∈ (classDef c).fields, ∃ x, GivenAs f d e.1 x
    · obtain ⟨f, hf, x, hg⟩ := hg
      cases hfe : f.exclude with
      | true =>
        obtain ⟨hc, hn⟩ := (excluded_iff hf).1 hfe
        refine .inr (.inr (.inr ⟨trivial, hc, ?_⟩))
        rcases hg.2 with ha | ⟨hkn, -⟩
        · rw [((names_facts hf).2 hfe).1] at ha; cases ha
        · rw [hkn]; exact hn
      | false =>
        obtain ⟨r, hr, hrf⟩ := row_of_field hrs hf hfe
        refine .inl ⟨r, hr, ?_⟩
        rcases hg.2 with ha | ⟨hkn, -⟩
        · left; rw [← hrf.name]; unfold jsonName; rw [ha]; rfl
        · right; rw [hkn, ← hrf.name]; exact (attrOf_json hf).symm
    · have hmem : e ∈ d.filter (fun e => decide (∀ f ∈ (classDef c).fields, ∀ x, ¬ GivenAs f d e.1 x)) := by
        rw [List.mem_filter]
        refine ⟨he, ?_⟩
        rw [decide_eq_true_eq]
        exact fun f hf x h => hg ⟨f, hf, x, h⟩
      obtain ⟨-, hk1, hk2⟩ := kind_cases hrs
      cases hv with
      | model h1 h2 h3 h4 h5 =>
        cases hkk : (classDef c).kind with
        | openExtra => exact .inr (.inl (hk1.1 hkk))
        | extendable => exact .inr (.inr (.inl ⟨hk2.1 hkk, h4.extensions hkk e hmem⟩))
        | nonExtendable =>
          have : d.filter _ = [] := h4.closed (.inl hkk)
          rw [this] at hmem; cases hmem
        | patterned => exact absurd hkk hk
  · intro r hr hreq
    obtain ⟨f, hf, hrf⟩ := field_of_row hrs hr
    rcases (hfield f hf).1 with ⟨k', x', hg', sc', ha⟩ | ⟨hn, hd⟩
    · left
      rw [← hrf.name, (valueFor_iff hf).2 ⟨k', hg'⟩]
      simp
    · right
      rw [← hrf.name, filled_null hrs hf hrf.exclude hd, if_pos]
      · simp
      · have := (hshown f hf hrf.exclude _).1 ((shown_iff hf (hval f hf)).1 (by rw [hrf.exclude, hrf.required hreq]; rfl))
        refine this.imp id fun h => ?_
        rw [keeps_iff hrs hf hrf.exclude] at h
        rcases h with h | h
        · exact (address_iff hf).1.1 h
        · rw [(address_iff hf).2 h] at hd; cases hd
  · intro r hr x w hx hw
    obtain ⟨f, hf, hrf⟩ := field_of_row hrs hr
    rw [← hrf.name] at hx hw
    rw [hlook f hf] at hw
    split at hw
    · rename_i hs
      cases hw
      obtain ⟨k, hg⟩ := (valueFor_iff hf).1 hx
      rcases (hfield f hf).1 with ⟨k', x', hg', sc', ha⟩ | ⟨hn, -⟩
      · have hxx : x' = x := by
          have := (findKey_iff.2 hg).symm.trans (findKey_iff.2 hg')
          cases this; rfl
        subst hxx
        have hm := mem_of_given hg
        rcases hrf.ty with ht | ⟨he, ht⟩
        · exact ih _ hm _ _ _ ha _ ht
        · have hs' := (shown_iff hf (hval f hf)).2 hs
          have hne : x' ≠ .none := by
            intro hxn
            rw [(parse_null f.ty (field_docFree hf) ha).1 hxn, he] at hs'
            simp [V.isNone] at hs'
          rw [← strip_parse hne] at ha
          exact ih _ hm _ _ _ ha _ ht
      · exact absurd hg (hn k x)
    · cases hw
  · intro r hr x hx
    obtain ⟨f, hf, hrf⟩ := field_of_row hrs hr
    rw [← hrf.name] at hx ⊢
    rw [hlook f hf]
    obtain ⟨k, hg⟩ := (valueFor_iff hf).1 hx
    rcases (hfield f hf).1 with ⟨k', x', hg', sc', ha⟩ | ⟨hn, -⟩
    · have hxx : x' = x := by
        have := (findKey_iff.2 hg).symm.trans (findKey_iff.2 hg')
        cases this; rfl
      subst hxx
      rw [ne_eq, not_congr (parse_null f.ty (field_docFree hf) ha), ← ne_eq, ← hshown f hf hrf.exclude]
      split <;> simp_all
    · exact absurd hg (hn k x)
  · intro r hr hx
    obtain ⟨f, hf, hrf⟩ := field_of_row hrs hr
    rw [← hrf.name] at hx ⊢
    rw [hlook f hf]
    rcases (hfield f hf).1 with ⟨k', x', hg', sc', ha⟩ | ⟨hn, hd⟩
    · rw [(valueFor_iff hf).2 ⟨k', hg'⟩] at hx; cases hx
    · rw [filled_null hrs hf hrf.exclude hd, default_dump hd]
      have h1 := address_iff hf
      have h2 : ¬ (c = .MultiFormatSchema ∧ f.name = p!"schema") := by
        intro h; rw [h1.2 h] at hd; cases hd
      have hs := fun w => hshown f hf hrf.exclude w
      simp only [hs, keeps_iff hrs hf hrf.exclude, h2, or_false, h1.1]
  · intro k hkr htk
    rw [lookup_append, hother k hkr]
    show lookup k _ = none
    rw [lookup_filter (P := fun k => ∀ f ∈ (classDef c).fields, ∀ x, ¬ GivenAs f d k x)]
    split
    · rename_i hp
      cases hl : lookup k d with
      | none => rfl
      | some x =>
        exfalso
        rcases htk with ⟨r, hr, hkn, hnone⟩ | ⟨-, hc, hkn⟩
        · obtain ⟨f, hf, hrf⟩ := field_of_row hrs hr
          have : k = f.name := by rw [hkn, ← hrf.name]; exact attrOf_json hf
          refine hp f hf x ⟨hl, .inr ⟨this, fun a ha => ?_⟩⟩
          rw [← hrf.name] at hnone
          unfold jsonName at hnone
          rw [ha] at hnone
          exact hnone
        · subst hc
          obtain ⟨f, hf, hfn, -, -⟩ := processor_field k hkn
          have : f.alias = none := by
            have := (names_facts hf).2 ((excluded_iff hf).2 ⟨rfl, by rw [hfn]; exact hkn⟩)
            exact this.1
          exact hp f hf x ⟨hl, .inr ⟨hfn.symm, fun a ha => by rw [this] at ha; cases ha⟩⟩
    · rfl
  · intro k hkr htk
    rw [lookup_append, hother k hkr]
    show lookup k _ = _
    rw [lookup_filter (P := fun k => ∀ f ∈ (classDef c).fields, ∀ x, ¬ GivenAs f d k x), if_pos]
    intro f hf x hg
    apply htk
    cases he : f.exclude with
    | true =>
      obtain ⟨hc, hn⟩ := (excluded_iff hf).1 he
      right
      refine ⟨trivial, hc, ?_⟩
      rcases hg.2 with ha | ⟨hkn, -⟩
      · rw [((names_facts hf).2 he).1] at ha; cases ha
      · rw [hkn]; exact hn
    | false =>
      left
      obtain ⟨r, hr, hrf⟩ := row_of_field hrs hf he
      have hkn : k ≠ jsonName f := by rw [hrf.name]; exact hkr r hr
      rcases hg.2 with ha | ⟨hkf, hal⟩
      · exact absurd (by unfold jsonName; rw [ha]; rfl) hkn
      · refine ⟨r, hr, by rw [hkf, ← hrf.name]; exact (attrOf_json hf).symm, ?_⟩
        rw [← hrf.name]
        unfold jsonName at hkn ⊢
        cases hfa : f.alias with
        | none => rw [hfa] at hkn; exact absurd hkf hkn
        | some a => exact hal a hfa

/-! ### Every value -/

theorem items_rewritten {t : STy} {ty : Ty Cls} (hf : fits t ty = true) : ∀ {l : List V}, (∀ v ∈ l, Rewrites E v) →
    ∀ {r : List V} {sc : Score}, parseItems ty (parsers E l) = some (r, sc) →
    ∃ ps : List (V × V), ps.map (·.1) = l ∧ ps.map (·.2) = r.map dump ∧ ∀ p ∈ ps, Rewritten (readerOf E) p.1 p.2 t
  | [], _, r, sc, h => by
    simp only [parsers, parseItems, Option.some.injEq, Prod.mk.injEq] at h
    exact ⟨[], rfl, by rw [← h.1]; rfl, by simp⟩
  | v :: l, ih, r, sc, h => by
    simp only [parsers, parseItems] at h
    cases hv : parse E v ty with
    | none => rw [hv] at h; cases h
    | some w =>
      cases hl : parseItems ty (parsers E l) with
      | none => rw [hv] at h; simp only [hl] at h; cases h
      | some r' =>
        rw [hv] at h
        simp only [hl, Option.some.injEq, Prod.mk.injEq] at h
        obtain ⟨ps, h1, h2, h3⟩ := items_rewritten hf (fun v hv => ih v (List.mem_cons_of_mem _ hv)) hl
        refine ⟨(v, dump w.1) :: ps, by simp [h1], by rw [← h.1]; simp [h2], ?_⟩
        intro p hp
        rcases List.mem_cons.1 hp with rfl | hp
        · exact ih v List.mem_cons_self _ _ _ hv _ hf
        · exact h3 p hp

theorem entries_rewritten {t : STy} {ty : Ty Cls} (hf : fits t ty = true) : ∀ {d : List (Str × V)}, (∀ e ∈ d, Rewrites E e.2) →
    ∀ {r : List (Str × V)} {sc : Score}, parseEntries ty (entries E d) = some (r, sc) →
    ∃ ps : List (Str × V × V), ps.map (fun p => (p.1, p.2.1)) = d ∧ ps.map (fun p => (p.1, p.2.2)) = r.map (fun e => (e.1, dump e.2)) ∧
      ∀ p ∈ ps, Rewritten (readerOf E) p.2.1 p.2.2 t
  | [], _, r, sc, h => by
    simp only [entries, parseEntries, Option.some.injEq, Prod.mk.injEq] at h
    exact ⟨[], rfl, by rw [← h.1]; rfl, by simp⟩
  | (k, v) :: d, ih, r, sc, h => by
    simp only [entries, parseEntries] at h
    cases hv : parse E v ty with
    | none => rw [hv] at h; cases h
    | some w =>
      cases hl : parseEntries ty (entries E d) with
      | none => rw [hv] at h; simp only [hl] at h; cases h
      | some r' =>
        rw [hv] at h
        simp only [hl, Option.some.injEq, Prod.mk.injEq] at h
        obtain ⟨ps, h1, h2, h3⟩ := entries_rewritten hf (fun v hv => ih v (List.mem_cons_of_mem _ hv)) hl
        refine ⟨(k, v, dump w.1) :: ps, by simp [h1], by rw [← h.1]; simp [h2], ?_⟩
        intro p hp
        rcases List.mem_cons.1 hp with rfl | hp
        · exact ih (k, v) List.mem_cons_self _ _ _ hv _ hf
        · exact h3 p hp

/-- Parts of a value are rewritten. -/
def PartsRewrite (E : Env) : V → Prop
  | .list l => ∀ v ∈ l, Rewrites E v
  | .dict d => ∀ e ∈ d, Rewrites E e.2
  | _ => True

theorem dict_rewritten {d : List (Str × V)} (ih : ∀ e ∈ d, Rewrites E e.2) {t : STy} {ty : Ty Cls} (hf : fits t ty = true)
    {v : V} {sc : Score} (h : parseDict ty (.dict (entries E d)) = some (v, sc)) :
    ∃ ps : List (Str × V × V), d = ps.map (fun p => (p.1, p.2.1)) ∧ dump v = .dict (ps.map fun p => (p.1, p.2.2)) ∧
      ∀ p ∈ ps, Rewritten (readerOf E) p.2.1 p.2.2 t := by
  simp only [parseDict, Option.map_eq_some_iff, Prod.mk.injEq] at h
  obtain ⟨⟨r, sc'⟩, hr, rfl, -⟩ := h
  obtain ⟨ps, h1, h2, h3⟩ := entries_rewritten hf ih hr
  exact ⟨ps, h1.symm, by rw [dump, dumpDict_map, h2], h3⟩

theorem rewritten_keyed {d : List (Str × V)} (hj : (V.dict d).isJson = true)
    (ih : ∀ e ∈ d, Rewrites E e.2) {c : Cls} {t : STy} (hf : fits (.keyed t) (.model c) = true)
    {v : V} {sc : Score} (h : parse E (.dict d) (.model c) = some (v, sc)) :
    Rewritten (readerOf E) (.dict d) (dump v) (.keyed t) := by
  simp only [fits, Bool.and_eq_true, beq_iff_eq] at hf
  obtain ⟨hk, hff⟩ := hf
  obtain ⟨ty, hfs⟩ := patterned_root c hk
  rw [hfs] at hff
  simp only [List.all_cons, List.all_nil, Bool.and_true] at hff
  rw [parse_eq_shape] at h
  simp only [parseAs, shapeOf, parseModel] at h
  rw [hk, hfs] at h
  simp only [parseRootTy] at h
  unfold constructRoot at h
  cases hr : parseDict ty (.dict (entries E d)) with
  | none => rw [hr] at h; cases h
  | some ws =>
    obtain ⟨w, s⟩ := ws
    rw [hr] at h
    simp only at h
    split at h
    · cases h
    · rename_i i hi
      have hne : c ≠ .AsyncAPI3 := by rintro rfl; cases hk
      have := after_json (fun e => absurd e hne) hi
      cases h
      subst this
      obtain ⟨ps, h1, h2, h3⟩ := dict_rewritten ih hff hr
      have : dump (.inst c [(p!"root", w)] [] ((none : Option (List Str)).getD [p!"root"])) = dump w := by
        rw [dump, hk]; rfl
      rw [this, h1, h2]
      exact .keyed h3

mutual
theorem rewritten_parts {x : V} (hx : PartsRewrite E x) (hj : x.isJson = true) :
    ∀ ty v sc, parse E x ty = some (v, sc) → ∀ t, fits t ty = true → Rewritten (readerOf E) x (dump v) t
  | .any, v, sc, h, t, hf => by
    rw [parse_eq_shape] at h
    simp only [parseAs, Option.some.injEq, Prod.mk.injEq] at h
    cases t <;> first | (cases hf; done) | (rename_i k; cases k <;> cases hf; done) | skip
    rw [← h.1, dump_json _ hj]
    exact .any
  | .none, v, sc, h, t, hf => by
    cases t <;> first | (cases hf; done) | (rename_i k; cases k <;> cases hf; done) | skip
    cases x <;> cases h
    exact .null
  | .str, v, sc, h, t, hf => by
    cases t <;> first | (cases hf; done) | (rename_i k; cases k <;> cases hf; done) | skip
    cases x <;> cases h
    exact .string
  | .int, v, sc, h, t, hf => by
    cases t <;> first | (cases hf; done) | (rename_i k; cases k <;> cases hf; done) | skip
    cases x <;> try cases h
    · exact .asInteger (.inl ⟨_, rfl, rfl⟩)
    · exact .integer
    · rw [parse_eq_shape] at h
      simp only [parseAs, parseInt, Option.map_eq_some_iff, Prod.mk.injEq] at h
      obtain ⟨n, hn, rfl, -⟩ := h
      exact .asInteger (.inr (.inl ⟨_, rfl, hn⟩))
    · rw [parse_eq_shape] at h
      simp only [parseAs, parseInt, Option.map_eq_some_iff, Prod.mk.injEq] at h
      obtain ⟨n, hn, rfl, -⟩ := h
      exact .asInteger (.inr (.inr ⟨_, rfl, hn⟩))
  | .bool, v, sc, h, t, hf => by
    cases t <;> first | (cases hf; done) | (rename_i k; cases k <;> cases hf; done) | skip
    rw [parse_eq_shape] at h
    cases x <;> simp only [parseAs, parseBool, reduceCtorEq] at h
    · cases h; exact .boolean
    · split at h
      · rename_i h0; cases h; rw [h0]; exact .asBoolean (.inl ⟨rfl, rfl⟩)
      · split at h
        · rename_i h1; cases h; rw [h1]; exact .asBoolean (.inr (.inl ⟨rfl, rfl⟩))
        · cases h
    · simp only [Option.map_eq_some_iff, Prod.mk.injEq] at h
      obtain ⟨n, hn, rfl, -⟩ := h
      exact .asBoolean (.inr (.inr (.inl ⟨_, rfl, hn⟩)))
    · simp only [Option.map_eq_some_iff, Prod.mk.injEq] at h
      obtain ⟨n, hn, rfl, -⟩ := h
      exact .asBoolean (.inr (.inr (.inr ⟨_, rfl, hn⟩)))
  | .anyUrl, v, sc, h, t, hf => by
    cases t <;> first | (cases hf; done) | (rename_i k; cases k <;> cases hf; done) | skip
    rename_i k
    cases k <;> first | (cases hf; done) | skip
    rw [parse_eq_shape] at h
    cases x <;> simp only [parseAs, parseUrl, reduceCtorEq] at h
    · simp only [Option.map_eq_some_iff, Prod.mk.injEq] at h
      obtain ⟨n, hn, rfl, -⟩ := h
      exact .url hn
    · cases hj
  | .httpUrl, v, sc, h, t, hf => by
    cases t <;> first | (cases hf; done) | (rename_i k; cases k <;> cases hf; done) | skip
    rename_i k
    cases k <;> first | (cases hf; done) | skip
    rw [parse_eq_shape] at h
    cases x <;> simp only [parseAs, parseUrl, reduceCtorEq] at h
    · simp only [Option.map_eq_some_iff, Prod.mk.injEq] at h
      obtain ⟨n, hn, rfl, -⟩ := h
      exact .url hn
    · cases hj
  | .email, v, sc, h, t, hf => by
    cases t <;> first | (cases hf; done) | (rename_i k; cases k <;> cases hf; done) | skip
    rw [parse_eq_shape] at h
    cases x <;> simp only [parseAs, parseEmail, reduceCtorEq] at h
    split at h <;> cases h
    exact .email
  | .processors, v, sc, h, t, hf => by cases t <;> simp [fits] at hf
  | .lit vs, v, sc, h, t, hf => by
    cases t <;> first | (cases hf; done) | (rename_i k; cases k <;> cases hf; done) | skip
    rw [parse_eq_shape] at h
    cases x <;> simp only [parseAs, parseLit, reduceCtorEq] at h
    all_goals split at h <;> cases h
    all_goals exact .enum
  | .list ty, v, sc, h, t, hf => by
    cases t <;> first | (cases hf; done) | (rename_i k; cases k <;> cases hf; done) | skip
    rw [parse_eq_shape] at h
    cases x <;> simp only [parseAs, shapeOf, reduceCtorEq] at h
    simp only [Option.map_eq_some_iff, Prod.mk.injEq] at h
    obtain ⟨⟨r, sc'⟩, hr, rfl, -⟩ := h
    simp only [fits] at hf
    obtain ⟨ps, h1, h2, h3⟩ := items_rewritten (ty := ty) hf hx hr
    rw [dump, dumpList_map, ← h1, ← h2]
    exact .list h3
  | .dict ty, v, sc, h, t, hf => by
    cases t <;> first | (cases hf; done) | (rename_i k; cases k <;> cases hf; done) | skip
    rw [parse_eq_shape] at h
    cases x <;> simp only [parseAs, shapeOf, parseDict, reduceCtorEq] at h
    simp only [fits] at hf
    obtain ⟨ps, h1, h2, h3⟩ := dict_rewritten hx (ty := ty) hf (v := v) (sc := sc) h
    rw [h2, h1]
    exact .map h3
  | .model c, v, sc, h, t, hf => by
    obtain ⟨d, rfl⟩ : ∃ d, x = .dict d := by
      have := takes_of_parse h (l := [.dict, .inst c]) rfl
      cases x <;> first | exact ⟨_, rfl⟩ | (cases hj; done) | simp [headOf] at this
    have hj' := hj
    rw [V.isJson, isJsonDict_iff] at hj'
    cases t <;> first | (cases hf; done) | (rename_i k; cases k <;> cases hf; done) | skip
    · simp only [fits, Bool.and_eq_true, beq_iff_eq, bne_iff_ne] at hf
      obtain ⟨rfl, hk⟩ := hf
      exact rewritten_object hk hj' hx h
    · exact rewritten_keyed hj hx hf h
  | .union ms, v, sc, h, t, hf => by
    cases t <;> first | (cases hf; done) | (rename_i k; cases k <;> cases hf; done) | skip
    rename_i ts
    simp only [fits, Bool.and_eq_true, List.all_eq_true] at hf
    obtain ⟨hfe, hf⟩ := hf
    rw [parse_union] at h
    split at h
    · rename_i hn
      rw [Bool.and_eq_true] at hn
      cases h
      obtain ⟨t, ht, hft⟩ := fitsSome_iff.1 (hf _ (hasNone_mem hn.2))
      have : x = .none := by
        have := hn.1
        cases x <;> first | rfl | cases this
      subst this
      refine .either ht ?_
      cases t <;> first | (cases hft; done) | (rename_i k; cases k <;> cases hft; done) | skip
      exact .null
    · rcases pick_mem h with h | h
      · cases h
      · exact rewritten_each hx hj ms v sc h ts hf
theorem rewritten_each {x : V} (hx : PartsRewrite E x) (hj : x.isJson = true) :
    ∀ (ms : List (Ty Cls)) (v : V) (sc : Score), some (v, sc) ∈ ms.map (parse E x) →
      ∀ ts : List STy, (∀ m ∈ ms, fitsSome ts m = true) → Rewritten (readerOf E) x (dump v) (.either ts)
  | [], v, sc, h, _, _ => by simp at h
  | m :: ms, v, sc, h, ts, hf => by
    rw [List.map_cons, List.mem_cons] at h
    rcases h with h | h
    · obtain ⟨t, ht, hft⟩ := fitsSome_iff.1 (hf m List.mem_cons_self)
      exact .either ht (rewritten_parts hx hj m v sc h.symm t hft)
    · exact rewritten_each hx hj ms v sc h ts (fun m hm => hf m (List.mem_cons_of_mem _ hm))
end

/-- What is written of what was read from JSON. -/
theorem rewritten : ∀ x, x.isJson = true → Rewrites E x := by
  apply V.ind
  · intro l h hj; exact rewritten_parts (x := .list l) (fun v hv => h v hv (by rw [V.isJson, isJsonList_iff] at hj; exact hj v hv)) hj
  · intro d h hj; exact rewritten_parts (x := .dict d) (fun v hv => h v hv (by rw [V.isJson, isJsonDict_iff] at hj; exact hj v hv)) hj
  · intro c fs ex set h1 h2 hj; cases hj
  all_goals intros; exact rewritten_parts trivial ‹_›

end Verif.Pyd
