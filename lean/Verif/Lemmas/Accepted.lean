import Verif.Lemmas.Conform
/-! Conforming JSON is accepted. -/
namespace Verif.Pyd
open Verif Verif.Gen Verif.Spec Verif.Props

variable {E : Env}

theorem union_cases {x v : V} {ts : List (Ty Cls)} {sc : Score} (h : parse E x (.union ts) = some (v, sc)) :
    (x = .none ∧ v = .none) ∨ ∃ t ∈ ts, parse E x t = some (v, sc) := by
  rw [parse_union] at h
  split at h
  · rename_i hn
    simp only [Option.some.injEq, Prod.mk.injEq] at h
    rw [Bool.and_eq_true] at hn
    refine .inl ⟨?_, h.1.symm⟩
    cases x <;> first | rfl | cases hn.1
  · right
    rcases pick_mem h with h | h
    · cases h
    · obtain ⟨t, ht, he⟩ := List.mem_map.1 h
      exact ⟨t, ht, he⟩

theorem pick_isSome {rs : List Res} {cur : Res} (h : cur.isSome = true ∨ ∃ r ∈ rs, r.isSome = true) :
    (pick E cur rs).isSome = true := by
  induction rs generalizing cur with
  | nil =>
    rcases h with h | ⟨r, hr, _⟩
    · exact h
    · cases hr
  | cons o rs ih =>
    cases o with
    | none =>
      refine ih (h.imp id ?_)
      rintro ⟨r, hr, h2⟩
      rcases List.mem_cons.1 hr with rfl | hr
      · cases h2
      · exact ⟨r, hr, h2⟩
    | some n => cases cur <;> exact ih (.inl rfl)

theorem union_isSome {x : V} {ts : List (Ty Cls)} {t : Ty Cls} (ht : t ∈ ts) (h : (parse E x t).isSome = true) :
    (parse E x (.union ts)).isSome = true := by
  rw [parse_union]
  split
  · rfl
  · exact pick_isSome (.inr ⟨_, List.mem_map.2 ⟨t, ht, rfl⟩, h⟩)

theorem strip_isSome {x : V} {t : Ty Cls} (h : (parse E x (strip t)).isSome = true) : (parse E x t).isSome = true := by
  cases t with
  | union ms =>
    have hsub : ∀ t, t ∈ ms.filter (fun m => !isNoneTy m) → t ∈ ms := fun t h => (List.mem_filter.1 h).1
    simp only [strip] at h
    split at h
    · rename_i m heq
      exact union_isSome (hsub m (by rw [heq]; exact List.mem_cons_self)) h
    · obtain ⟨⟨v, sc⟩, hv⟩ := Option.isSome_iff_exists.1 h
      rw [parse_union] at hv
      split at hv
      · rename_i hn
        rw [Bool.and_eq_true] at hn
        exact union_isSome (hsub _ (hasNone_mem hn.2)) (by
          cases x <;> first | rfl | cases hn.1)
      · rcases pick_mem hv with hv | hv
        · cases hv
        · obtain ⟨t, ht, he⟩ := List.mem_map.1 hv
          exact union_isSome (hsub t ht) (by rw [he]; rfl)
  | _ => exact h

mutual
theorem parse_null {x : V} : ∀ (t : Ty Cls) {v : V} {sc : Score}, docFree t = true → parse E x t = some (v, sc) →
    (x = .none ↔ v = .none)
  | .union ts, v, sc, hd, h => by
    rcases union_cases h with ⟨h1, h2⟩ | ⟨t, ht, h⟩
    · exact ⟨fun _ => h2, fun _ => h1⟩
    · exact parse_null_each ts t v sc hd ht h
  | .any, v, sc, _, h => by
    rw [parse_eq_shape] at h
    simp only [parseAs, Option.some.injEq, Prod.mk.injEq] at h
    rw [h.1]
  | .none, v, sc, _, h => by
    have h1 := takes_of_parse h (l := [.none]) rfl
    have h2 := gives_of_valid (parse_valid x _ _ _ (.inr rfl) h) (l := [.none]) rfl
    constructor
    · intro _; cases v <;> first | rfl | simp [headOf] at h2
    · intro _; cases x <;> first | rfl | simp [headOf] at h1
  | .str, v, sc, hd, h | .int, v, sc, hd, h | .bool, v, sc, hd, h | .anyUrl, v, sc, hd, h | .httpUrl, v, sc, hd, h
  | .email, v, sc, hd, h | .processors, v, sc, hd, h | .lit _, v, sc, hd, h | .list _, v, sc, hd, h
  | .dict _, v, sc, hd, h | .model _, v, sc, hd, h => by
    have h1 := takes_of_parse h rfl
    have h2 := gives_of_valid (parse_valid x _ _ _ (.inr hd) h) rfl
    constructor
    · rintro rfl; simp [headOf] at h1
    · rintro rfl; simp [headOf] at h2
theorem parse_null_each {x : V} : ∀ (ts : List (Ty Cls)) (t : Ty Cls) (v : V) (sc : Score), docFreeAll ts = true → t ∈ ts →
    parse E x t = some (v, sc) → (x = .none ↔ v = .none)
  | [], _, _, _, _, h, _ => by cases h
  | u :: ts, t, v, sc, hd, ht, h => by
    rw [docFreeAll, Bool.and_eq_true] at hd
    rcases List.mem_cons.1 ht with ht | ht
    · rw [ht] at h
      exact parse_null u hd.1 h
    · exact parse_null_each ts t v sc hd.2 ht h
end

/-! ### Scalars that rules look at -/

theorem strish_same {t : Ty Cls} (ht : strish t = true) {x v : V} {sc : Score} (h : parse E x t = some (v, sc)) : v = x := by
  have hstr : ∀ {x v : V} {sc : Score}, parse E x .str = some (v, sc) → v = x := by
    intro x v sc h
    rw [parse_eq_shape] at h
    cases x <;> simp [parseAs, parseStr] at h
    exact h.1.symm
  have hlit : ∀ {vs} {x v : V} {sc : Score}, parse E x (.lit vs) = some (v, sc) → v = x := by
    intro vs x v sc h
    rw [parse_eq_shape] at h
    cases x <;> simp [parseAs, parseLit] at h
    · exact h.2.1.symm
    · exact h.2.1.symm
  have hnone : ∀ {x v : V} {sc : Score}, parse E x .none = some (v, sc) → v = x := by
    intro x v sc h
    rw [parse_eq_shape] at h
    cases x <;> simp [parseAs, V.isNone] at h
    exact h.1.symm
  unfold strish at ht
  split at ht
  · exact hstr h
  · exact hlit h
  · rcases union_cases h with ⟨rfl, rfl⟩ | ⟨t, ht, h⟩
    · rfl
    · simp only [List.mem_cons, List.not_mem_nil, or_false] at ht
      rcases ht with rfl | rfl
      · exact hstr h
      · exact hnone h
  · rcases union_cases h with ⟨rfl, rfl⟩ | ⟨t, ht, h⟩
    · rfl
    · simp only [List.mem_cons, List.not_mem_nil, or_false] at ht
      rcases ht with rfl | rfl
      · exact hlit h
      · exact hnone h
  · cases ht

/-- Conforming JSON for such a type is an integer, null or an object. -/
theorem intish_conforms {W : World} {x : V} {s : STy} (hx : Conforms W x s) {t : Ty Cls} (ht : intish t = true)
    (hf : fits s t = true ∨ fits s (strip t) = true) : x = .none ∨ (∃ n, x = .int n) ∨ ∃ d, x = .dict d := by
  have hone : ∀ {s : STy} {t : Ty Cls}, Conforms W x s → fits s t = true → (t = .int ∨ t = .none ∨ ∃ c, t = .model c) →
      x = .none ∨ (∃ n, x = .int n) ∨ ∃ d, x = .dict d := by
    rintro s t hx hf (rfl | rfl | ⟨c, rfl⟩) <;> cases s <;> simp only [fits, Bool.false_eq_true] at hf <;> cases hx
    · exact .inr (.inl ⟨_, rfl⟩)
    · exact .inl rfl
    · exact .inr (.inr ⟨_, rfl⟩)
    · exact .inr (.inr ⟨_, rfl⟩)
  have hunion : ∀ {s : STy} {ts : List (Ty Cls)}, Conforms W x s → fits s (.union ts) = true →
      (∀ t ∈ ts, t = .int ∨ t = .none ∨ ∃ c, t = .model c) → x = .none ∨ (∃ n, x = .int n) ∨ ∃ d, x = .dict d := by
    intro s ts hx hf hts
    cases s <;> simp only [fits, Bool.false_eq_true] at hf
    cases hx with
    | either hm _ hx =>
      rw [Bool.and_eq_true] at hf
      obtain ⟨m, hm', hfm⟩ := fitsEach_iff.1 hf.1 _ hm
      exact hone hx hfm (hts m hm')
  unfold intish at ht
  split at ht
  · rcases hf with hf | hf <;> exact hone hx hf (.inl rfl)
  · rcases hf with hf | hf
    · exact hunion hx hf (by simp)
    · exact hone hx hf (.inl rfl)
  · rcases hf with hf | hf
    · exact hunion hx hf (by simp)
    · exact hunion (ts := [.int, .model .Schema, .model .Reference]) hx hf (by simp)
  · cases ht

/-! ### Keys -/

theorem snake_table : anyFields.all (fun c => (classDef c).fields.all fun f =>
    (f.exclude == false && jsonName f == f.name) || snakeNames.any fun e => e.1 == c && e.2.contains f.name) = true := by
  decide +kernel

theorem names_table : Cls.all.all (fun c => (classDef c).fields.all fun f =>
    f.name.take 2 != p!"x-" && (!f.exclude || f.alias == none && f.dflt == .null)) = true := by decide +kernel

theorem names_facts {c : Cls} {f : FieldDef Cls} (hf : f ∈ (classDef c).fields) :
    f.name.take 2 ≠ p!"x-" ∧ (f.exclude = true → f.alias = none ∧ f.dflt = .null) := by
  have := List.all_eq_true.1 (List.all_eq_true.1 names_table c (Cls.mem_all c)) f hf
  simp only [Bool.and_eq_true, bne_iff_ne, Bool.or_eq_true, Bool.not_eq_true', beq_iff_eq] at this
  refine ⟨this.1, fun h => this.2.resolve_left (by rw [h]; simp)⟩

/-- The keys of a conforming object. -/
def KeysOk (W : World) (c : Cls) (rs : List Row) (d : List (Str × V)) : Prop :=
  ∀ e ∈ d, (∃ r ∈ rs, e.1 = r.name) ∨ (OtherKey W c e.1 ∧ e.2.isJson = true)

variable {W : World}

theorem extension_take {U : Uni} {k : Str} (h : OrNewline (ExtensionForm U) k) : k.take 2 = p!"x-" := by
  rcases h with ⟨r, hr, _⟩ | ⟨t, ht, r, hr, _⟩
  · rw [hr]; rfl
  · rw [ht, hr]; rfl

/-- A key that is a Python name is the JSON name too. -/
theorem key_name {W : World} (hW : ∀ c k, pythonNames c k → W.reserved c k) {c : Cls} {rs : List Row} (hrs : (c, rs) ∈ grammar)
    {d : List (Str × V)} (hd : KeysOk W c rs d) {f : FieldDef Cls} (hf : f ∈ (classDef c).fields) {x : V}
    (hx : lookup f.name d = some x) : f.exclude = false ∧ jsonName f = f.name := by
  obtain ⟨e, he, hek⟩ := key_of_lookup hx
  rcases hd e he with ⟨r, hr, hkr⟩ | ⟨ho, -⟩
  · obtain ⟨g, hg, hrg⟩ := field_of_row hrs hr
    have hgf : jsonName g = f.name := by rw [hrg.name, ← hkr, hek]
    have : g = f := apart hg hf (.inr (.inl hgf))
    subst this
    exact ⟨hrg.exclude, hgf⟩
  · rcases ho with ⟨hc, h⟩ | ⟨-, h⟩
    · have := List.all_eq_true.1 (List.all_eq_true.1 snake_table c hc) f hf
      simp only [Bool.or_eq_true, Bool.and_eq_true, beq_iff_eq, List.any_eq_true, List.contains_iff_mem] at this
      rcases this with h' | ⟨⟨c', l⟩, hl, rfl, hk⟩
      · exact h'
      · exact absurd (hW _ _ ⟨l, hl, hk⟩) (by rw [← hek]; exact h)
    · exact absurd (by rw [← hek]; exact extension_take h) (names_facts hf).1

theorem given_json (hW : ∀ c k, pythonNames c k → W.reserved c k) {c : Cls} {rs : List Row} (hrs : (c, rs) ∈ grammar)
    {d : List (Str × V)} (hd : KeysOk W c rs d) {f : FieldDef Cls} (hf : f ∈ (classDef c).fields) {k : Str} {x : V} :
    GivenAs f d k x ↔ f.exclude = false ∧ k = jsonName f ∧ lookup k d = some x := by
  unfold GivenAs
  constructor
  · rintro ⟨h1, h2 | ⟨rfl, h2⟩⟩
    · have : jsonName f = k := by unfold jsonName; rw [h2]; rfl
      refine ⟨?_, this.symm, h1⟩
      cases he : f.exclude with
      | false => rfl
      | true => rw [((names_facts hf).2 he).1] at h2; cases h2
    · obtain ⟨h3, h4⟩ := key_name hW hrs hd hf h1
      exact ⟨h3, h4.symm, h1⟩
  · rintro ⟨h1, rfl, h2⟩
    refine ⟨h2, ?_⟩
    unfold jsonName at h2 ⊢
    cases ha : f.alias with
    | none => exact .inr ⟨rfl, by simp⟩
    | some a => exact .inl rfl

theorem conforms_json {x : V} {s : STy} (h : Conforms W x s) : x.isJson = true := by
  induction h with
  | any h => exact h
  | list _ ih => exact (isJsonList_iff _).2 ih
  | map _ ih => exact (isJsonDict_iff _).2 ih
  | keyed _ _ ih => exact (isJsonDict_iff _).2 ih
  | either _ _ _ ih => exact ih
  | object _ _ _ _ h5 _ ih =>
    refine (isJsonDict_iff _).2 fun e he => ?_
    rcases h5 e he with ⟨r, hr, hn⟩ | ⟨-, h⟩
    · exact ih r hr e he hn
    · exact h
  | _ => rfl

/-! ### What is read agrees with the JSON -/

/-- The fields of an instance are what the JSON says. -/
def ReadFrom (E : Env) (W : World) (c : Cls) (d : List (Str × V)) (i : V) : Prop :=
  ∀ f ∈ (classDef c).fields, f.exclude = false →
    (∃ x, lookup (jsonName f) d = some x ∧ (∃ s, Conforms W x s ∧ (fits s f.ty = true ∨ fits s (strip f.ty) = true)) ∧
      Accepts E x f.ty (i.attr f.name)) ∨
    (lookup (jsonName f) d = none ∧ HasDefault f.dflt (i.attr f.name))

theorem pres_read {c : Cls} {d : List (Str × V)} {i : V} (h : ReadFrom E W c d i) {f : FieldDef Cls}
    (hf : f ∈ (classDef c).fields) (he : f.exclude = false) (hn : f.dflt = .null) :
    HasField d (jsonName f) ↔ Present (i.attr f.name) := by
  unfold HasField Present
  rcases h f hf he with ⟨x, h1, -, sc, h3⟩ | ⟨h1, h2⟩
  · have := parse_null f.ty (field_docFree hf) h3
    rw [h1]
    constructor
    · rintro ⟨y, h4, h5⟩ h6
      exact h5 (by rw [← Option.some.inj h4]; exact this.2 h6)
    · exact fun h4 => ⟨x, rfl, fun h5 => h4 (this.1 h5)⟩
  · rw [hn] at h2
    rw [h1, h2]
    simp

theorem intish_read {t : Ty Cls} (ht : intish t = true) {x v : V} {sc : Score} (h : parse E x t = some (v, sc))
    (hx : x = .none ∨ (∃ n, x = .int n) ∨ ∃ d, x = .dict d) (n : Int) : x = .int n ↔ v = .int n := by
  have hint : ∀ {x v : V} {sc : Score}, parse E x .int = some (v, sc) → (x = .none ∨ (∃ n, x = .int n) ∨ ∃ d, x = .dict d) →
      (x = .int n ↔ v = .int n) := by
    rintro x v sc h (rfl | ⟨m, rfl⟩ | ⟨d, rfl⟩)
    · cases h
    · have : some (V.int m, Score.exactly) = some (v, sc) := h
      simp only [Option.some.injEq, Prod.mk.injEq] at this
      rw [this.1]
    · cases h
  have hother : ∀ {t : Ty Cls}, docFree t = true → (t = .none ∨ ∃ c, t = .model c) → parse E x t = some (v, sc) →
      (x = .int n ↔ v = .int n) := by
    rintro t hd (rfl | ⟨c, rfl⟩) h
    · have h1 := takes_of_parse h rfl
      have h2 := gives_of_valid (parse_valid x _ _ _ (.inr hd) h) rfl
      constructor
      · rintro rfl; simp [headOf] at h1
      · rintro rfl; simp [headOf] at h2
    · have h1 := takes_of_parse h rfl
      have h2 := gives_of_valid (parse_valid x _ _ _ (.inr hd) h) rfl
      constructor
      · rintro rfl; simp [headOf] at h1
      · rintro rfl; simp [headOf] at h2
  unfold intish at ht
  split at ht
  · exact hint h hx
  · rcases union_cases h with ⟨rfl, rfl⟩ | ⟨t, ht, h⟩
    · exact Iff.rfl
    · simp only [List.mem_cons, List.not_mem_nil, or_false] at ht
      rcases ht with rfl | rfl
      · exact hint h hx
      · exact hother rfl (.inl rfl) h
  · rcases union_cases h with ⟨rfl, rfl⟩ | ⟨t, ht, h⟩
    · exact Iff.rfl
    · simp only [List.mem_cons, List.not_mem_nil, or_false] at ht
      rcases ht with rfl | rfl | rfl | rfl
      · exact hint h hx
      · exact hother rfl (.inr ⟨_, rfl⟩) h
      · exact hother rfl (.inr ⟨_, rfl⟩) h
      · exact hother rfl (.inl rfl) h
  · cases ht

theorem view_read {c : Cls} {d : List (Str × V)} {i : V} (h : ReadFrom E W c d i)
    (hflow : c = .OAuthFlows → ∀ n ∈ flowNames, ∀ f, lookup n.1 d = some (.dict f) → ∀ v, Accepts E (.dict f) (.model .OAuthFlow) v →
      ReadFrom E W .OAuthFlow f v) : View c d i where
  pres := by
    intro n hn
    obtain ⟨f, hf, h1, h2, h3, h4⟩ := pres_field hn
    rw [← h1, ← h2]
    exact pres_read h hf h3 h4
  str := by
    intro n hn s hs
    obtain ⟨f, hf, h1, h2, h3, h4, -⟩ := str_field hn
    unfold Says at hs
    rw [← h1] at hs
    rw [← h2]
    rcases h f hf h3 with ⟨x, h5, -, sc, h6⟩ | ⟨h5, -⟩
    · rw [strish_same h4 h6]
      rw [h5] at hs
      exact Option.some.inj hs
    · rw [h5] at hs; cases hs
  str' := by
    intro n hn s hs
    obtain ⟨f, hf, h1, h2, h3, h4, h5⟩ := str_field hn
    rw [← h2] at hs
    unfold Says
    rw [← h1]
    rcases h f hf h3 with ⟨x, h6, -, sc, h7⟩ | ⟨h6, h7⟩
    · left
      rw [strish_same h4 h7] at hs
      rw [h6, hs]
    · right
      rcases h5 _ h7 with h8 | ⟨s', h8, h9⟩
      · rw [h8] at hs; cases hs
      · rw [h8] at hs
        rw [h9, V.str.inj hs]
  int := by
    intro n hn k
    obtain ⟨f, hf, h1, h2, h3, h4, h5⟩ := int_field hn
    rw [← h1, ← h2]
    rcases h f hf h3 with ⟨x, h6, ⟨s, hs1, hs2⟩, sc, h7⟩ | ⟨h6, h7⟩
    · rw [h6, ← intish_read h4 h7 (intish_conforms hs1 h4 hs2)]
      simp
    · rw [h5] at h7
      rw [h6, h7]; simp
  flow := by
    rintro rfl n hn f0 hf0
    obtain ⟨f, hf, h1, h2, h3, h4, h5⟩ := flow_field hn
    have hfl := hflow rfl n hn f0 hf0
    rw [← h1] at hf0
    rw [← h2]
    rcases h f hf h3 with ⟨x, h6, -, sc, h7⟩ | ⟨h6, -⟩
    · rw [hf0] at h6
      have h6 := Option.some.inj h6
      subst h6
      rw [h4] at h7
      have hm : parse E (.dict f0) (.model .OAuthFlow) = some (i.attr f.name, sc) := by
        rcases union_cases h7 with ⟨h, -⟩ | ⟨t, ht, h⟩
        · cases h
        · simp only [List.mem_cons, List.not_mem_nil, or_false] at ht
          rcases ht with rfl | rfl
          · exact h
          · cases h
      refine ⟨fun hnone => ?_, fun m hm' => ?_⟩
      · have := (parse_null (E := E) (.model .OAuthFlow) rfl hm).2 hnone
        cases this
      · obtain ⟨g, hg, g1, g2, g3, g4⟩ := pres_field hm'
        rw [← g1, ← g2]
        exact pres_read (hfl _ ⟨sc, hm⟩) hg g3 g4
    · rw [hf0] at h6; cases h6
  flow' := by
    rintro rfl n hn hp
    obtain ⟨f, hf, h1, h2, h3, h4, h5⟩ := flow_field hn
    rw [← h2] at hp
    rw [← h1]
    rcases h f hf h3 with ⟨x, h6, ⟨s, hs, -⟩, sc, h7⟩ | ⟨h6, h7⟩
    · rw [h4] at h7
      have hj := conforms_json hs
      have : ∃ d, x = .dict d := by
        rcases union_cases h7 with ⟨-, h⟩ | ⟨t, ht, h⟩
        · exact absurd h hp
        · simp only [List.mem_cons, List.not_mem_nil, or_false] at ht
          rcases ht with rfl | rfl
          · have := takes_of_parse h rfl
            cases x <;> simp [headOf] at this
            · exact ⟨_, rfl⟩
            · cases hj
          · have := (gives_of_valid (parse_valid x _ _ _ (.inr rfl) h) rfl)
            exfalso
            revert this hp
            generalize i.attr f.name = w
            cases w <;> simp [headOf, Present]
      obtain ⟨d0, rfl⟩ := this
      exact ⟨d0, h6⟩
    · rw [h5] at h7; exact absurd h7 hp

theorem read_fieldwise (hW : ∀ c k, pythonNames c k → W.reserved c k) {c : Cls} {rs : List Row} (hrs : (c, rs) ∈ grammar)
    {d : List (Str × V)} (hd : KeysOk W c rs d) (hrow : ∀ r ∈ rs, ∀ e ∈ d, e.1 = r.name → Conforms W e.2 r.ty) {i : V}
    (h : Fieldwise (Accepts E) c d i) : ReadFrom E W c d i := by
  intro f hf he
  obtain ⟨r, hr, hrf⟩ := row_of_field hrs hf he
  rcases (fieldwise_field h hf).1 with ⟨k, x, hg, ha⟩ | ⟨hn, hdf⟩
  · obtain ⟨-, rfl, hl⟩ := (given_json hW hrs hd hf).1 hg
    refine .inl ⟨x, hl, ⟨r.ty, ?_, hrf.ty.imp id (·.2)⟩, ha⟩
    exact hrow r hr (jsonName f, x) (lookup_some_mem hl) hrf.name
  · refine .inr ⟨?_, hdf⟩
    cases hl : lookup (jsonName f) d with
    | none => rfl
    | some x => exact absurd ((given_json hW hrs hd hf).2 ⟨he, rfl, hl⟩) (hn _ _)

/-- A conforming value for an optional flow is a conforming flow. -/
theorem flow_conforms {f : List (Str × V)} {s : STy} (h : Conforms W (.dict f) s)
    (hs : fits s (.union [.model .OAuthFlow, .none]) = true ∨ fits s (strip (.union [.model .OAuthFlow, .none])) = true) :
    Conforms W (.dict f) (.object .OAuthFlow) := by
  have hone : ∀ {s : STy}, Conforms W (.dict f) s → fits s (.model .OAuthFlow) = true → Conforms W (.dict f) (.object .OAuthFlow) := by
    intro s h hs
    cases s <;> simp only [fits, Bool.false_eq_true, Bool.and_eq_true, beq_iff_eq] at hs
    · rw [← hs.1]; exact h
    · exact absurd hs.1 (by decide)
  rcases hs with hs | hs
  · cases s <;> simp only [fits, Bool.false_eq_true] at hs
    rw [Bool.and_eq_true] at hs
    cases h with
    | @either _ t _ hm _ h =>
      obtain ⟨m, hm', hfm⟩ := fitsEach_iff.1 hs.1 _ hm
      simp only [List.mem_cons, List.not_mem_nil, or_false] at hm'
      rcases hm' with rfl | rfl
      · exact hone h hfm
      · cases t <;> simp only [fits, Bool.false_eq_true] at hfm
        cases h
  · exact hone h hs

theorem object_fieldwise (hW : ∀ c k, pythonNames c k → W.reserved c k) {c : Cls} {rs : List Row} (hrs : (c, rs) ∈ grammar)
    {d : List (Str × V)} (h1 : ∀ r ∈ rs, r.required = true → ∃ x, lookup r.name d = some x)
    (h3 : ∀ r ∈ rs, ∀ s m, lookup r.name d = some (.str s) → r.max = some m → s.length ≤ m)
    (h4 : KeysOk W c rs d)
    (ih : ∀ r ∈ rs, ∀ e ∈ d, e.1 = r.name → ∀ ty, fits r.ty ty = true → (parse E e.2 ty).isSome = true) :
    ∃ i, Fieldwise (Accepts E) c d i := by
  have hval : ∀ f, ∃ v, f ∈ (classDef c).fields → FieldOk (Accepts E) d f v := by
    intro f
    by_cases hf : f ∈ (classDef c).fields
    · by_cases he : f.exclude = false
      · obtain ⟨r, hr, hrf⟩ := row_of_field hrs hf he
        cases hl : lookup (jsonName f) d with
        | some x =>
          have hp : (parse E x f.ty).isSome = true := by
            have := ih r hr (jsonName f, x) (lookup_some_mem hl) hrf.name
            rcases hrf.ty with ht | ⟨-, ht⟩
            · exact this _ ht
            · exact strip_isSome (this _ ht)
          obtain ⟨⟨v, sc⟩, hv⟩ := Option.isSome_iff_exists.1 hp
          refine ⟨v, fun _ => ⟨.inl ⟨_, x, (given_json hW hrs h4 hf).2 ⟨he, rfl, hl⟩, sc, hv⟩, fun m s hm hs => ?_⟩⟩
          rcases hrf.long with hl' | ⟨hl', -⟩
          · rw [hl'] at hm; cases hm
          · have hsh : strish f.ty = true := by
              revert hl'
              generalize f.ty = t
              unfold strTy
              split <;> simp [strish]
            rw [strish_same hsh hv] at hs
            subst hs
            rw [hrf.name] at hl
            exact h3 r hr s m hl (by rw [hrf.max]; exact hm)
        | none =>
          have hreq : r.required = false := by
            cases hq : r.required with
            | false => rfl
            | true =>
              obtain ⟨x, hx⟩ := h1 r hr hq
              rw [← hrf.name, hl] at hx; cases hx
          have hdf := hrf.optional hreq
          obtain ⟨v, hv⟩ : ∃ v, dfltValue f.dflt = some v := by
            cases hdd : f.dflt <;> first | exact absurd hdd hdf | exact ⟨_, rfl⟩
          refine ⟨v, fun _ => ⟨.inr ⟨fun k x hg => ?_, hasDefault_iff.2 hv⟩, fun m s hm hs => ?_⟩⟩
          · obtain ⟨-, rfl, hx⟩ := (given_json hW hrs h4 hf).1 hg
            rw [hl] at hx; cases hx
          · exact lengthOk_iff.1 (default_length c f hf v hv) m s hm hs
      · have he : f.exclude = true := by simpa using he
        refine ⟨.none, fun _ => ⟨.inr ⟨fun k x hg => ?_, ?_⟩, fun m s _ hs => by cases hs⟩⟩
        · have := ((given_json hW hrs h4 hf).1 hg).1
          rw [he] at this; cases this
        · rw [((names_facts hf).2 he).2]; rfl
    · exact ⟨.none, fun h => absurd h hf⟩
  obtain ⟨val, hval⟩ := Classical.axiomOfChoice hval
  refine ⟨.inst c ((classDef c).fields.map fun f => (f.name, val f)) _ _, _, ?_, fun f hf => ?_, rfl, fun hk => ?_⟩
  · rw [List.map_map]; rfl
  · have : ∀ ex set, (V.inst c ((classDef c).fields.map fun f => (f.name, val f)) ex set).attr f.name = val f := by
      intro ex set
      show (lookup f.name _).getD V.none = _
      rw [lookup_named (·.name) val (names_nodup c) hf]; rfl
    rw [this]
    exact hval f hf
  · rw [List.filter_eq_nil_iff]
    intro e he
    simp only [decide_eq_true_eq]
    intro hne
    rcases h4 e he with ⟨r, hr, hn⟩ | ⟨ho, -⟩
    · obtain ⟨f, hf, hrf⟩ := field_of_row hrs hr
      obtain ⟨x, hx⟩ := lookup_isSome_of_mem (k := e.1) (d := d) (List.mem_map.2 ⟨e, he, rfl⟩)
      exact hne f hf x ((given_json hW hrs h4 hf).2 ⟨hrf.exclude, by rw [hrf.name, hn], hx⟩)
    · obtain ⟨-, hk1, hk2⟩ := kind_cases hrs
      rcases ho with ⟨ho, -⟩ | ⟨ho, -⟩
      · rw [hk1.2 ho] at hk; cases hk
      · rw [hk2.2 ho] at hk; cases hk

theorem object_extensions (hW : ∀ c k, pythonNames c k → W.reserved c k) {c : Cls} {rs : List Row} (hrs : (c, rs) ∈ grammar)
    {d : List (Str × V)} (h4 : KeysOk W c rs d) {i : V} (hi : Fieldwise (Accepts E) c d i) : ExtensionRule W.U c i := by
  intro hk e he
  obtain ⟨fs, -, -, hi, -⟩ := hi
  subst hi
  change e ∈ d.filter _ at he
  rw [List.mem_filter] at he
  obtain ⟨he, hne⟩ := he
  simp only [decide_eq_true_eq] at hne
  rcases h4 e he with ⟨r, hr, hn⟩ | ⟨ho, -⟩
  · obtain ⟨f, hf, hrf⟩ := field_of_row hrs hr
    obtain ⟨x, hx⟩ := lookup_isSome_of_mem (k := e.1) (d := d) (List.mem_map.2 ⟨e, he, rfl⟩)
    exact absurd ((given_json hW hrs h4 hf).2 ⟨hrf.exclude, by rw [hrf.name, hn], hx⟩) (hne f hf x)
  · rcases ho with ⟨ho, -⟩ | ⟨-, ho⟩
    · obtain ⟨-, hk1, hk2⟩ := kind_cases hrs
      rw [hk1.2 ho] at hk; cases hk
    · exact ho

theorem object_accepted {R : Cls → Str → Prop} {F : Prop} (hR : ∀ c k, pythonNames c k → R c k) {c : Cls} {rs : List Row}
    (hrs : (c, rs) ∈ grammar) {d : List (Str × V)}
    (h1 : ∀ r ∈ rs, r.required = true → ∃ x, lookup r.name d = some x)
    (h2 : ∀ r ∈ rs, ∀ e ∈ d, e.1 = r.name → Conforms (worldOf E R F) e.2 r.ty)
    (h3 : ∀ r ∈ rs, ∀ s m, lookup r.name d = some (.str s) → r.max = some m → s.length ≤ m)
    (h4 : KeysOk (worldOf E R F) c rs d) (h5 : JsonRule E.U E.digits c d)
    (ih : ∀ r ∈ rs, ∀ e ∈ d, e.1 = r.name → ∀ ty, fits r.ty ty = true → (parse E e.2 ty).isSome = true) :
    (parse E (.dict d) (.model c)).isSome = true := by
  obtain ⟨hk, -, -⟩ := kind_cases hrs
  obtain ⟨i, hi⟩ := object_fieldwise (W := worldOf E R F) hR hrs h1 h3 h4 ih
  have hread := read_fieldwise (W := worldOf E R F) hR hrs h4 h2 hi
  have hext := object_extensions (W := worldOf E R F) hR hrs h4 hi
  have hview : View c d i := by
    refine view_read hread ?_
    rintro rfl n hn f hf v ⟨sc, hv⟩
    obtain ⟨g, hg, g1, g2, g3, g4, g5⟩ := flow_field hn
    have hcon : Conforms (worldOf E R F) (.dict f) (.object .OAuthFlow) := by
      rcases hread g hg g3 with ⟨x, hx, ⟨s, hs1, hs2⟩, -⟩ | ⟨hx, -⟩
      · rw [g1, hf] at hx
        have := Option.some.inj hx
        subst this
        rw [g4] at hs2
        exact flow_conforms hs1 hs2
      · rw [g1, hf] at hx; cases hx
    cases hcon with
    | object hrs' _ h2' _ h4' _ =>
      have : validate E .OAuthFlow (.dict f) = some v := by unfold validate; rw [hv]; rfl
      exact read_fieldwise (W := worldOf E R F) hR hrs' h4' h2' ((C41_accepts_iff E _ (by decide) (by decide) f v).1 this).1
  by_cases hc : c = .AsyncAPI3
  · subst hc
    have hver : ∀ f ∈ (classDef .AsyncAPI3).fields, (∃ k x, GivenAs f d k x) →
        fieldCheck E .AsyncAPI3 f.name (i.attr f.name) = true := by
      refine (versionRule_iff hi).2 fun _ => ?_
      obtain ⟨s, hs1, hs2⟩ := h5
      exact ⟨s, hview.str (p!"asyncapi", p!"asyncapi", some p!"3.0.0") (by simp [strNames]) s hs1, hs2⟩
    obtain ⟨hok, hi'⟩ := (allOk_given i).2 ⟨hi, hver⟩
    have hproc : ∀ f ∈ (classDef .AsyncAPI3).fields, f.exclude = true → i.attr f.name = .none := by
      intro f hf he
      rcases (fieldwise_field hi hf).1 with ⟨k, x, hg, -⟩ | ⟨-, hdf⟩
      · have := ((given_json (W := worldOf E R F) hR hrs h4 hf).1 hg).1
        rw [he] at this; cases this
      · rw [((names_facts hf).2 he).2] at hdf
        exact hdf
    have hfc : ∃ f ∈ (classDef .AsyncAPI3).fields, f.name = p!"extra_converters" ∧ f.exclude = true := by decide +kernel
    have hfv : ∃ f ∈ (classDef .AsyncAPI3).fields, f.name = p!"extra_validators" ∧ f.exclude = true := by decide +kernel
    obtain ⟨f, hf, hf1, hf2⟩ := hfc
    obtain ⟨g, hg, hg1, hg2⟩ := hfv
    have e1 := hproc f hf hf2
    have e2 := hproc g hg hg2
    rw [hf1] at e1
    rw [hg1] at e2
    rw [parse_model_dict E hk, construct_eq, if_pos hok]
    simp only [Option.getD_none]
    rw [← hi']
    have hb := (baseCheck_iff E _ hk i).2 hext
    unfold after
    rw [hb]
    simp only [modelCheck, Bool.and_self, if_true, runProcessors_none e1 e2]
    rfl
  · have hrule : Rule c i := by
      by_cases hm : c = .IBMMQMessageBindings
      · subst hm
        refine (rule_ibmmq (U := E.U) (limit := E.digits) hview ?_).1 h5
        have hval : Valid E.U E.digits (i.attr p!"type") (.lit [.s p!"string", .s p!"jms", .s p!"binary"]) := by
          have hmem : defIBMMQMessageBindings.fields[0] ∈ (classDef .IBMMQMessageBindings).fields := List.mem_of_getElem (i := 0) rfl
          rcases hread _ hmem rfl with ⟨x, -, -, sc, h⟩ | ⟨-, h⟩
          · exact parse_valid x _ _ _ (.inr rfl) h
          · exact default_valid hmem (hasDefault_iff.1 h)
        generalize i.attr p!"type" = w at hval
        cases hval with
        | litStr h => exact ⟨_, by simpa using h, rfl⟩
        | litInt h => simp at h
      · exact (rule_json hview hc hm).1 h5
    have := (C41_accepts_iff E c hk hc d i).2 ⟨hi, hext, hrule⟩
    unfold validate at this
    cases hp : parse E (.dict d) (.model c) with
    | none => rw [hp] at this; cases this
    | some _ => rfl

/-! ### Every conforming value -/

theorem items_isSome {t : Ty Cls} {l : List V} (h : ∀ v ∈ l, (parse E v t).isSome = true) :
    (parseItems t (parsers E l)).isSome = true := by
  induction l with
  | nil => rfl
  | cons v l ih =>
    simp only [parsers, parseItems]
    obtain ⟨⟨w, sc⟩, hw⟩ := Option.isSome_iff_exists.1 (h v List.mem_cons_self)
    obtain ⟨⟨r, sc'⟩, hr⟩ := Option.isSome_iff_exists.1 (ih fun v hv => h v (List.mem_cons_of_mem _ hv))
    rw [hw]
    simp only [hr]
    rfl

theorem entries_isSome {t : Ty Cls} {d : List (Str × V)} (h : ∀ e ∈ d, (parse E e.2 t).isSome = true) :
    ∃ d' sc, parseEntries t (entries E d) = some (d', sc) ∧ d'.map (·.1) = d.map (·.1) := by
  induction d with
  | nil => exact ⟨[], _, rfl, rfl⟩
  | cons e d ih =>
    obtain ⟨k, v⟩ := e
    obtain ⟨⟨w, sc⟩, hw⟩ := Option.isSome_iff_exists.1 (h (k, v) List.mem_cons_self)
    obtain ⟨d', sc', hd, hn⟩ := ih fun e he => h e (List.mem_cons_of_mem _ he)
    refine ⟨(k, w) :: d', sc.and sc', ?_, by simp [hn]⟩
    simp only [entries, parseEntries]
    simp only at hw
    rw [hw]
    simp only [hd]

theorem conforming_accepted {R : Cls → Str → Prop} {F : Prop} (hR : ∀ c k, pythonNames c k → R c k) {j : V} {s : STy}
    (h : Conforms (worldOf E R F) j s) : ∀ ty, fits s ty = true → (parse E j ty).isSome = true := by
  induction h with
  | any _ =>
    intro ty hf
    cases ty <;> simp only [fits, Bool.false_eq_true] at hf
    rw [parse_eq_shape]; rfl
  | null | string | integer | boolean =>
    intro ty hf
    cases ty <;> simp only [fits, Bool.false_eq_true] at hf
    rfl
  | email hm =>
    intro ty hf
    cases ty <;> simp only [fits, Bool.false_eq_true] at hf
    show (parseEmail (.str _)).isSome = true
    simp only [parseEmail, (C22_exact _).2 hm, if_true]; rfl
  | @url k s hu =>
    intro ty hf
    have hu : (E.url k s).isSome = true := hu
    obtain ⟨u, hu⟩ := Option.isSome_iff_exists.1 hu
    cases k <;> cases ty <;> simp only [fits, Bool.false_eq_true] at hf
    · show (parseUrl E .any (.str s)).isSome = true
      simp only [parseUrl, hu]; rfl
    · show (parseUrl E .http (.str s)).isSome = true
      simp only [parseUrl, hu]; rfl
  | enumStr hm =>
    intro ty hf
    cases ty <;> simp only [fits, Bool.false_eq_true, Bool.and_eq_true, List.all_eq_true] at hf
    rw [parse_eq_shape]
    simp only [parseAs, parseLit, hf.1 _ hm]; rfl
  | enumInt hm =>
    intro ty hf
    cases ty <;> simp only [fits, Bool.false_eq_true, Bool.and_eq_true, List.all_eq_true] at hf
    rw [parse_eq_shape]
    simp only [parseAs, parseLit, hf.1 _ hm]; rfl
  | list _ ih =>
    intro ty hf
    cases ty <;> simp only [fits, Bool.false_eq_true] at hf
    show ((parseItems _ (parsers E _)).map _).isSome = true
    rw [Option.isSome_map]
    exact items_isSome fun v hv => ih v hv _ hf
  | map _ ih =>
    intro ty hf
    cases ty <;> simp only [fits, Bool.false_eq_true] at hf
    show ((parseEntries _ (entries E _)).map _).isSome = true
    obtain ⟨d', sc, h, -⟩ := entries_isSome fun e he => ih e he _ hf
    rw [h]; rfl
  | @keyed d t hk _ ih =>
    intro ty hf
    cases ty <;> simp only [fits, Bool.false_eq_true] at hf
    rename_i c
    rw [Bool.and_eq_true, beq_iff_eq] at hf
    obtain ⟨hkind, hf⟩ := hf
    obtain ⟨u, hfs⟩ := patterned_root c hkind
    rw [hfs] at hf
    simp only [List.all_cons, List.all_nil, Bool.and_true] at hf
    obtain ⟨d', sc, h, hn⟩ := entries_isSome fun e he => ih e he _ hf
    have hp : parse E (.dict d) (.model c) = constructRoot E c ((parseEntries u (entries E d)).map fun r => (.dict r.1, r.2)) none E.built := by
      show parseModel E c (.dict (entries E d)) _ = _
      simp only [parseModel, hkind, hfs]
      rfl
    have hne : c ≠ .AsyncAPI3 := by rintro rfl; cases hkind
    have hbase : baseCheck E c (.inst c [(p!"root", .dict d')] [] [p!"root"]) = true := by
      unfold baseCheck
      rw [hkind]
      show Patterns.patternedKeys (d'.map (·.1)) = true
      rw [hn, C20_keys_exact]
      intro k hk'
      obtain ⟨e, he, rfl⟩ := List.mem_map.1 hk'
      exact hk e he
    have hmodel : modelCheck c (.inst c [(p!"root", .dict d')] [] [p!"root"]) = true := by
      revert hkind
      cases c <;> first | (intro _; rfl) | (intro h; cases h)
    rw [hp, h]
    simp only [Option.map_some, constructRoot, Option.getD_none]
    rw [after_of_checks hne (by rw [hbase, hmodel]; rfl)]
    rfl
  | either hm _ _ ih =>
    intro ty hf
    cases ty <;> simp only [fits, Bool.false_eq_true] at hf
    rw [Bool.and_eq_true] at hf
    obtain ⟨m, hm', hfm⟩ := fitsEach_iff.1 hf.1 _ hm
    exact union_isSome hm' (ih m hfm)
  | object hrs h1 h2 h3 h4 h5 ih =>
    intro ty hf
    cases ty <;> simp only [fits, Bool.false_eq_true, Bool.and_eq_true, beq_iff_eq] at hf
    rw [← hf.1]
    exact object_accepted hR hrs h1 h2 h3 h4 h5 ih

end Verif.Pyd
