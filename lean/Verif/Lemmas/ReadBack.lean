import Verif.Lemmas.RoundTrip
/-! Unions, and the induction of the round trip. -/
namespace Verif.Pyd
open Verif Verif.Gen Verif.Spec Verif.Props

variable {E : Env}

theorem dump_ne_none {U : Uni} {limit : Option Nat} {norm : UrlKind → Str → Prop} {v : V} {t : Ty Cls}
    (h : ValidJson U limit norm v t) (hd : dump v = .none) : v = .none := by
  induction h with
  | any hj => rw [dump_json _ hj] at hd; exact hd
  | union _ _ ih => exact ih hd
  | @model c fs ex set h1 h2 h3 h4 h5 ih =>
    exfalso
    have := writes_of_valid (ValidJson.model h1 h2 h3 h4 h5) (l := [.dict]) rfl
    rw [hd] at this
    simp [headOf] at this
  | _ => first | rfl | cases hd

/-- The best candidate is picked. -/
theorem pick_best {rs : List Res} {r : V × Score} {cur : Res}
    (hc : cur = none ∨ cur = some r ∨ ∃ w, cur = some w ∧ better E w.2 r.2 = true ∧ better E r.2 w.2 = false)
    (h : ∀ o ∈ rs, o = none ∨ o = some r ∨ ∃ w, o = some w ∧ better E w.2 r.2 = true ∧ better E r.2 w.2 = false)
    (hr : cur = some r ∨ some r ∈ rs) : pick E cur rs = some r := by
  induction rs generalizing cur with
  | nil => rcases hr with hr | hr
           · exact hr
           · cases hr
  | cons o rs ih =>
    have h' := fun o ho => h o (List.mem_cons_of_mem _ ho)
    rcases h o List.mem_cons_self with rfl | rfl | ⟨w, rfl, hw1, hw2⟩
    · refine ih hc h' ?_
      rcases hr with hr | hr
      · exact .inl hr
      · rcases List.mem_cons.1 hr with hr | hr
        · cases hr
        · exact .inr hr
    · rcases hc with rfl | rfl | ⟨w, rfl, hw1, hw2⟩
      · exact ih (.inr (.inl rfl)) h' (.inl rfl)
      · simp only [pick, ite_self]
        exact ih (.inr (.inl rfl)) h' (.inl rfl)
      · simp only [pick, hw1, if_true]
        exact ih (.inr (.inl rfl)) h' (.inl rfl)
    · have hne : w ≠ r := by rintro rfl; rw [hw1] at hw2; cases hw2
      have hr' : cur = some r ∨ some r ∈ rs := by
        rcases hr with hr | hr
        · exact .inl hr
        · rcases List.mem_cons.1 hr with hr | hr
          · exact absurd (Option.some.inj hr).symm hne
          · exact .inr hr
      rcases hc with rfl | rfl | ⟨w', rfl, hw1', hw2'⟩
      · exact ih (.inr (.inr ⟨w, rfl, hw1, hw2⟩)) h' (hr'.imp_left fun h => by cases h)
      · simp only [pick, hw2, Bool.false_eq_true, if_false]
        exact ih (.inr (.inl rfl)) h' (.inl rfl)
      · simp only [pick]
        refine ih ?_ h' ?_
        · right; right
          split
          · exact ⟨w, rfl, hw1, hw2⟩
          · exact ⟨w', rfl, hw1', hw2'⟩
        · right
          rcases hr' with h | h
          · simp only [Option.some.injEq] at h
            subst h; rw [hw1'] at hw2'; cases hw2'
          · exact h

open Classical in
theorem mem_written {c : Cls} {i : V} {e : Str × V} (h : e ∈ writtenFields c i) :
    ∃ f ∈ (classDef c).fields, Shown c f (i.attr f.name) ∧ e = (jsonName f, dump (i.attr f.name)) := by
  unfold writtenFields at h
  rw [List.mem_map] at h
  obtain ⟨f, hf, rfl⟩ := h
  rw [List.mem_filter, decide_eq_true_eq] at hf
  exact ⟨f, hf.1, hf.2, rfl⟩

theorem extra_extension {U : Uni} {limit : Option Nat} {c : Cls} (hk : (classDef c).kind ≠ .openExtra) {fs ex : List (Str × V)}
    {set : List Str} (h : Valid U limit (.inst c fs ex set) (.model c)) {e : Str × V} (he : e ∈ ex) :
    e.1.take 2 = p!"x-" := by
  cases h with
  | model hfs _ hcon =>
    have hext : ex = [] ∨ (classDef c).kind = .extendable := by
      revert hk
      cases hkk : (classDef c).kind
      · exact fun _ => .inr rfl
      · exact fun _ => .inl (hcon.closed (.inl hkk))
      · exact fun h => absurd rfl h
      · exact fun _ => .inl (hcon.closed (.inr hkk))
    rcases hext with rfl | hext
    · cases he
    · rcases hcon.extensions hext e he with ⟨r, hr, _⟩ | ⟨t, ht, r, hr, _⟩
      · rw [hr]; rfl
      · rw [ht, hr]; rfl

/-- What has no `$ref` is not taken for a Reference. -/
theorem refuse_reference {d : List (Str × V)} (h : ∀ k s, (k = p!"$ref" ∨ k = p!"ref") → (∀ e ∈ d, e.1 = k) →
    lookup k d = some (.str s) → False) : parse E (.dict d) (.model .Reference) = none := by
  cases hp : parse E (.dict d) (.model .Reference) with
  | none => rfl
  | some r =>
    obtain ⟨k, s, hk, hall, hl, _⟩ := C38_only E d r.1 ⟨r.2, hp⟩
    exact (h k s hk hall hl).elim

variable {norm : UrlKind → Str → Prop}

theorem refuse_reference_noRef {c : Cls} (hn : noRefKey c = true) {v : V} (hv : ValidJson E.U E.digits norm v (.model c)) :
    parse E (dump v) (.model .Reference) = none := by
  unfold noRefKey at hn
  simp only [Bool.and_eq_true, bne_iff_ne, List.all_eq_true] at hn
  obtain ⟨⟨hk, ho⟩, hf⟩ := hn
  cases hv with
  | @model c fs ex set h1 h2 h3 h4 h5 =>
    have hval := validJson_valid (ValidJson.model h1 h2 h3 h4 h5)
    rw [dump_written hk hval h3]
    refine refuse_reference fun k s hks _ hl => ?_
    rcases List.mem_append.1 (lookup_some_mem hl) with hm | hm
    · obtain ⟨f, hff, _, he⟩ := mem_written hm
      simp only [Prod.mk.injEq] at he
      have := hf f hff
      rw [← he.1] at this
      rcases hks with rfl | rfl
      · exact this.1 rfl
      · exact this.2 rfl
    · have := extra_extension ho hval hm
      dsimp only at this
      rcases hks with rfl | rfl <;> exact absurd this (by decide)

theorem schema_shown {f : FieldDef Cls} {v : V} : Shown .Schema f v ↔ v ≠ .none := by
  unfold Shown; simp

theorem refuse_reference_schema {fs ex : List (Str × V)} {set : List Str}
    (hv : ValidJson E.U E.digits norm (.inst .Schema fs ex set) (.model .Schema))
    (hr : ¬ RefLike (.inst .Schema fs ex set)) :
    parse E (dump (.inst .Schema fs ex set)) (.model .Reference) = none := by
  have hval := validJson_valid hv
  cases hv with
  | model h1 h2 h3 h4 h5 =>
    rw [dump_written (by decide) hval h3]
    refine refuse_reference fun k s hks hall hl => hr ?_
    have hjson : ∀ f ∈ (classDef .Schema).fields, jsonName f ≠ k := by
      intro f hf
      change f ∈ defSchema.fields at hf
      simp only [defSchema, List.mem_cons, List.not_mem_nil, or_false] at hf
      rcases hks with rfl | rfl <;> rcases hf with rfl | rfl | rfl <;> decide
    have hnone : ∀ f ∈ (classDef .Schema).fields, (V.inst .Schema fs ex set).attr f.name = .none := by
      intro f hf
      refine Classical.byContradiction fun hc => ?_
      have hs : Shown .Schema f ((V.inst .Schema fs ex set).attr f.name) := schema_shown.2 hc
      have := lookup_some_mem (lookup_written_shown hf hs)
      exact hjson f hf (hall _ (List.mem_append_left _ this))
    refine ⟨hnone, k, s, hks, ?_, fun e he => hall e (List.mem_append_right _ he)⟩
    rw [lookup_append, lookup_none_of (d := writtenFields _ _) (by
      intro e he
      obtain ⟨f, hf, hs, _⟩ := mem_written he
      exact absurd (hnone f hf) (schema_shown.1 hs))] at hl
    exact hl

theorem refuse_multi_schema {fs ex : List (Str × V)} {set : List Str}
    (hv : ValidJson E.U E.digits norm (.inst .Schema fs ex set) (.model .Schema))
    (hr : ∀ e ∈ ex, e.1 ≠ p!"schema") :
    parse E (dump (.inst .Schema fs ex set)) (.model .MultiFormatSchema) = none := by
  have hval := validJson_valid hv
  cases hv with
  | model h1 h2 h3 h4 h5 =>
    rw [dump_written (by decide) hval h3, parse_model_dict E (by decide), construct_eq]
    have hnot : lookup p!"schema" (writtenFields .Schema (.inst .Schema fs ex set) ++ ex) = none := by
      refine lookup_none_of fun e he hk => ?_
      rcases List.mem_append.1 he with he | he
      · obtain ⟨f, hf, _, rfl⟩ := mem_written he
        dsimp only at hk
        change f ∈ defSchema.fields at hf
        simp only [defSchema, List.mem_cons, List.not_mem_nil, or_false] at hf
        rcases hf with rfl | rfl | rfl <;> exact absurd hk (by decide)
      · exact hr e he hk
    rw [if_neg]
    intro hall
    unfold allOk at hall
    rw [Bool.and_eq_true, List.all_eq_true] at hall
    have := hall.1 ⟨p!"schema", none, .any, .required, false, false, none⟩ (by
      show _ ∈ defMultiFormatSchema.fields; simp [defMultiFormatSchema])
    unfold one findKey at this
    simp only [hnot, Option.map_none] at this
    simp [dfltValue] at this

theorem refuse_reference_multi {fs ex : List (Str × V)} {set : List Str}
    (hv : ValidJson E.U E.digits norm (.inst .MultiFormatSchema fs ex set) (.model .MultiFormatSchema)) :
    parse E (dump (.inst .MultiFormatSchema fs ex set)) (.model .Reference) = none := by
  have hval := validJson_valid hv
  cases hv with
  | model h1 h2 h3 h4 h5 =>
    rw [dump_written (by decide) hval h3]
    refine refuse_reference fun k s hks hall _ => ?_
    have hf : (⟨p!"schema", none, .any, .required, false, false, none⟩ : FieldDef Cls) ∈ (classDef .MultiFormatSchema).fields := by
      show _ ∈ defMultiFormatSchema.fields; simp [defMultiFormatSchema]
    have := lookup_some_mem (lookup_written_shown (i := .inst .MultiFormatSchema fs ex set) hf (by
      unfold Shown; simp))
    have := hall _ (List.mem_append_left _ this)
    dsimp only at this
    rcases hks with rfl | rfl <;> exact absurd this (by decide)

/-- Read as a schema, a multi-format schema has none of its fields. -/
theorem schema_of_multi {fs ex : List (Str × V)} {set : List Str}
    (hv : ValidJson E.U E.digits norm (.inst .MultiFormatSchema fs ex set) (.model .MultiFormatSchema))
    (hr : ∀ e ∈ ex, ∀ f ∈ (classDef .Schema).fields, e.1 ≠ f.name ∧ e.1 ≠ jsonName f) {r : V × Score}
    (h : parse E (dump (.inst .MultiFormatSchema fs ex set)) (.model .Schema) = some r) : r.2 = ⟨min 2 E.built, some 0⟩ := by
  have hval := validJson_valid hv
  cases hv with
  | model h1 h2 h3 h4 h5 =>
    rw [dump_written (by decide) hval h3, parse_model_dict E (by decide), construct_eq] at h
    split at h
    · rw [Option.map_eq_some_iff] at h
      obtain ⟨i, _, rfl⟩ := h
      have hno : ∀ f ∈ (classDef .Schema).fields, ∀ k, k = f.name ∨ f.alias = some k →
          lookup k (writtenFields .MultiFormatSchema (.inst .MultiFormatSchema fs ex set) ++ ex) = none := by
        intro f hf k hk
        refine lookup_none_of fun e he hek => ?_
        rcases List.mem_append.1 he with he | he
        · obtain ⟨g, hg, _, rfl⟩ := mem_written he
          change f ∈ defSchema.fields at hf
          change g ∈ defMultiFormatSchema.fields at hg
          simp only [defSchema, defMultiFormatSchema, List.mem_cons, List.not_mem_nil, or_false] at hf hg
          dsimp only at hek
          subst hek
          clear he hr h1 h2 h3 h4 hval
          rcases hf with rfl | rfl | rfl <;> rcases hg with rfl | rfl <;> revert hk <;> decide
        · rcases hk with rfl | hk
          · exact (hr e he f hf).1 hek
          · exact (hr e he f hf).2 (by unfold jsonName; rw [hk, hek]; rfl)
      have hfind : ∀ f ∈ (classDef .Schema).fields,
          findKey f (writtenFields .MultiFormatSchema (.inst .MultiFormatSchema fs ex set) ++ ex) = none := by
        intro f hf
        unfold findKey
        cases ha : f.alias with
        | none => simp only [hno f hf _ (.inl rfl), Option.map_none]
        | some a => simp only [hno f hf _ (.inr ha), hno f hf _ (.inl rfl), Option.map_none]
      have hsc : ∀ L : List (FieldDef Cls), (∀ f ∈ L, f ∈ (classDef .Schema).fields) →
          fieldsScore E .Schema (writtenFields .MultiFormatSchema (.inst .MultiFormatSchema fs ex set) ++ ex) L = .exactly := by
        intro L hL
        induction L with
        | nil => rfl
        | cons f L ih =>
          simp only [fieldsScore, hfind f (hL f List.mem_cons_self)]
          exact ih fun g hg => hL g (List.mem_cons_of_mem _ hg)
      rw [hsc _ fun f hf => hf]
      rfl
    · cases h

/-- Read as itself, it has both. -/
theorem multi_of_multi {fs ex : List (Str × V)} {set : List Str}
    (hv : ValidJson E.U E.digits norm (.inst .MultiFormatSchema fs ex set) (.model .MultiFormatSchema))
    (hns : NotShadowed (.inst .MultiFormatSchema fs ex set)) {r : V × Score}
    (h : parse E (dump (.inst .MultiFormatSchema fs ex set)) (.model .MultiFormatSchema) = some r) : r.2 = ⟨min 1 E.built, some 2⟩ := by
  have hval := validJson_valid hv
  cases hv with
  | model h1 h2 h3 h4 h5 =>
    rw [dump_written (by decide) hval h3, parse_model_dict E (by decide), construct_eq] at h
    split at h
    · rw [Option.map_eq_some_iff] at h
      obtain ⟨i, _, rfl⟩ := h
      have hsep := fun e he f hf => hns .MultiFormatSchema fs ex set rfl e he f hf
      let f1 : FieldDef Cls := ⟨p!"schema_format", (some p!"schemaFormat"), .str,
        .str p!"application/vnd.aai.asyncapi;version=3.0.0", false, false, none⟩
      let f2 : FieldDef Cls := ⟨p!"schema", none, .any, .required, false, false, none⟩
      have hL : (classDef .MultiFormatSchema).fields = [f1, f2] := rfl
      have hf1 : f1 ∈ (classDef .MultiFormatSchema).fields := by rw [hL]; simp
      have hf2 : f2 ∈ (classDef .MultiFormatSchema).fields := by rw [hL]; simp
      obtain ⟨s, hs⟩ : ∃ s, (V.inst .MultiFormatSchema fs ex set).attr f1.name = .str s := by
        have := h2 f1 hf1
        generalize (V.inst .MultiFormatSchema fs ex set).attr f1.name = w at this
        cases this; exact ⟨_, rfl⟩
      have s1 : Shown .MultiFormatSchema f1 ((V.inst .MultiFormatSchema fs ex set).attr f1.name) := by
        unfold Shown; rw [hs]; simp
      have s2 : Shown .MultiFormatSchema f2 ((V.inst .MultiFormatSchema fs ex set).attr f2.name) := by
        unfold Shown; simp [f2]
      have k1 := findKey_written (c := .MultiFormatSchema) (i := .inst .MultiFormatSchema fs ex set) hsep hf1
      have k2 := findKey_written (c := .MultiFormatSchema) (i := .inst .MultiFormatSchema fs ex set) hsep hf2
      rw [if_pos s1] at k1
      rw [if_pos s2] at k2
      rw [hs] at k1
      have p2 : ∀ x, parse E x f2.ty = some (x, ⟨1, none⟩) := fun x => by rw [parse_eq_shape]; rfl
      have p1 : parse E (dump (.str s)) f1.ty = some (.str s, .exactly) := rfl
      rw [hL]
      simp only [fieldsScore, k1, k2, p1, p2]
      rfl
    · cases h

theorem reference_shape {v : V} (hv : ValidJson E.U E.digits norm v (.model .Reference)) :
    ∃ s set, v = .inst .Reference [(p!"ref", .str s)] [] set ∧ dump v = loneRef s := by
  cases hv with
  | @model c fs ex set h1 h2 h3 h4 h5 =>
    have hex : ex = [] := h4.closed (.inl rfl)
    subst hex
    match fs, h1 with
    | [(k, w)], h1 =>
      have hk : k = p!"ref" := by
        simpa [classDef, defReference] using h1
      subst hk
      have := h2 (defReference.fields[0]) (List.mem_of_getElem (i := 0) rfl)
      change ValidJson E.U E.digits norm w .str at this
      cases this
      exact ⟨_, set, rfl, rfl⟩

theorem back_of_json {v : V} {t : Ty Cls} (hj : v.isJson = true) (hk : Kept E v t) : Back E v t := by
  obtain ⟨sc, h⟩ := hk
  exact ⟨v, sc, by rw [dump_json v hj]; exact h, rfl⟩

/-- The member that wrote a value reads it. -/
theorem back_union {v : V} {t : Ty Cls} {ts : List (Ty Cls)} (ht : t ∈ ts)
    (hu : unionTold ts = true ∨ isAnyNone ts = true) (hv : ValidJson E.U E.digits norm v t) (hb : Back E v t)
    (hr : Regular v) : Back E v (.union ts) := by
  by_cases hn : v = .none ∧ Ty.none ∈ ts
  · obtain ⟨rfl, hn⟩ := hn
    exact back_of_json rfl (kept_none hn)
  have hn' : ((dump v).isNone && hasNone ts) = false := by
    rw [Bool.and_eq_false_iff]
    by_cases h : dump v = .none
    · right
      cases hh : hasNone ts with
      | false => rfl
      | true => exact absurd ⟨dump_ne_none hv h, hasNone_mem hh⟩ hn
    · left; exact isNone_false.2 h
  rcases hu with hu | hu
  · by_cases href : t = .model .Reference
    · subst href
      obtain ⟨s, set, rfl, hd⟩ := reference_shape hv
      refine ⟨referenceTo s, ⟨min 2 E.built, some 1⟩, ?_, rfl⟩
      rw [parse_union, hn', hd]
      simp only [Bool.false_eq_true, if_false]
      refine pick_reference E s ts (fun u huu => ?_) none (.inl rfl) (.inl ⟨_, ht, rfl⟩)
      rcases unionTold_mem hu ht huu with rfl | h
      · decide
      · simpa [toldApart, isRefTy] using h
    · obtain ⟨v', sc, hp, hf⟩ := hb
      refine ⟨v', sc, ?_, hf⟩
      rw [parse_union, hn']
      simp only [Bool.false_eq_true, if_false]
      refine pick_best (.inl rfl) (fun o ho => ?_) (.inr (List.mem_map.2 ⟨t, ht, hp⟩))
      rw [List.mem_map] at ho
      obtain ⟨u, huu, rfl⟩ := ho
      rcases unionTold_mem hu ht huu with rfl | h
      · exact .inr (.inl hp)
      · unfold toldApart at h
        rw [if_neg (by
          intro hh
          unfold isRefTy at hh
          split at hh
          · exact href rfl
          · cases hh), Bool.or_eq_true] at h
        rcases h with h | h
        · exact .inl (refuse_apart hv h)
        · split at h
          · cases hv with | @model _ fs ex set h1 h2 h3 h4 h5 =>
            cases hr with | inst hr _ =>
            exact .inl (refuse_reference_schema (.model h1 h2 h3 h4 h5) (hr.2.2.1 rfl).1)
          · cases hv with | @model _ fs ex set h1 h2 h3 h4 h5 =>
            cases hr with | inst hr _ =>
            exact .inl (refuse_multi_schema (.model h1 h2 h3 h4 h5) (hr.2.2.1 rfl).2)
          · cases hv with | @model _ fs ex set h1 h2 h3 h4 h5 =>
            exact .inl (refuse_reference_multi (.model h1 h2 h3 h4 h5))
          · cases hv with | @model _ fs ex set h1 h2 h3 h4 h5 =>
            cases hr with | inst hr _ =>
            have hsc := multi_of_multi (.model h1 h2 h3 h4 h5) (hr.2.1 rfl) hp
            cases hq : parse E (dump (.inst .MultiFormatSchema fs ex set)) (.model .Schema) with
            | none => exact .inl rfl
            | some w =>
              have hw := schema_of_multi (.model h1 h2 h3 h4 h5) (hr.2.2.2 rfl) hq
              refine .inr (.inr ⟨w, rfl, ?_, ?_⟩) <;> simp only at hsc <;> rw [hw, hsc] <;> rfl
          · exact .inl (refuse_reference_noRef h hv)
          · cases h
  · unfold isAnyNone at hu
    split at hu
    · simp only [List.mem_cons, List.not_mem_nil, or_false] at ht
      have hvj : v.isJson = true := by
        rcases ht with rfl | rfl
        · cases hv; assumption
        · cases hv; rfl
      refine back_of_json hvj (kept_union (t := t) ?_ (.inl (.inr rfl)) (validJson_valid hv) ?_)
      · simpa using ht
      · obtain ⟨v', sc, hp, hf⟩ := hb
        rcases ht with rfl | rfl
        · exact ⟨⟨1, none⟩, by rw [parse_eq_shape]; rfl⟩
        · cases hv; exact ⟨_, rfl⟩
    · cases hu

/-- URLs in normal form. -/
def NormalUrl (E : Env) (k : UrlKind) (s : Str) : Prop := E.url k s = some s

theorem back_items {t : Ty Cls} {l : List V} (h : ∀ v ∈ l, Back E v t) :
    ∃ l' sc, parseItems t (parsers E (dumpList l)) = some (l', sc) ∧ forgetList l' = forgetList l := by
  induction l with
  | nil => exact ⟨[], _, rfl, rfl⟩
  | cons v l ih =>
    obtain ⟨v', sc, hv, hf⟩ := h v List.mem_cons_self
    obtain ⟨l', sc', hl, hfl⟩ := ih fun v hv => h v (List.mem_cons_of_mem _ hv)
    exact ⟨v' :: l', sc.and sc', by simp only [dumpList, parsers, parseItems, hv, hl], by simp only [forgetList, hf, hfl]⟩

theorem back_entries {t : Ty Cls} {d : List (Str × V)} (h : ∀ e ∈ d, Back E e.2 t) :
    ∃ d' sc, parseEntries t (entries E (dumpDict d)) = some (d', sc) ∧ forgetDict d' = forgetDict d := by
  induction d with
  | nil => exact ⟨[], _, rfl, rfl⟩
  | cons e d ih =>
    obtain ⟨k, v⟩ := e
    obtain ⟨v', sc, hv, hf⟩ := h (k, v) List.mem_cons_self
    obtain ⟨l', sc', hl, hfl⟩ := ih fun v hv => h v (List.mem_cons_of_mem _ hv)
    exact ⟨(k, v') :: l', sc.and sc', by simp only [dumpDict, entries, parseEntries, hv, hl],
      by simp only [forgetDict, hf, hfl]⟩

theorem back_dict {t : Ty Cls} {d : List (Str × V)} (h : ∀ e ∈ d, Back E e.2 t) : Back E (.dict d) (.dict t) := by
  obtain ⟨d', sc, h, hf⟩ := back_entries h
  refine ⟨.dict d', sc, ?_, by simp only [forget, hf]⟩
  rw [parse_eq_shape]
  simp only [dump, parseAs, shapeOf, parseDict, h, Option.map_some]

/-- Without processors, nothing is run. -/
theorem runProcessors_none {i : V} (h1 : i.attr p!"extra_converters" = .none) (h2 : i.attr p!"extra_validators" = .none) :
    (runProcessors E i).2 = some i := by
  unfold runProcessors
  rw [h1]
  simp only [processorsOf, callAll]
  rw [h2]
  rfl

/-- The instance read back passes. -/
theorem after_back {c : Cls} {i i' : V} (hf : forget i' = forget i)
    (hc : (baseCheck E c i && modelCheck c i) = true)
    (hp : c = .AsyncAPI3 → i.attr p!"extra_converters" = .none ∧ i.attr p!"extra_validators" = .none) :
    after E c i' = some i' := by
  rw [← checks_forget E c hf] at hc
  by_cases h : c = .AsyncAPI3
  · subst h
    unfold after
    rw [hc]
    simp only [if_true]
    have key : ∀ n, i.attr n = .none → i'.attr n = .none := by
      intro n hn
      rw [← forget_eq_none, ← attr_forget, hf, attr_forget, hn]; rfl
    exact runProcessors_none (key _ (hp rfl).1) (key _ (hp rfl).2)
  · exact after_of_checks h hc

theorem no_processors {fs ex : List (Str × V)} {set : List Str} (hr : RegularInst .AsyncAPI3 (.inst .AsyncAPI3 fs ex set)) :
    (V.inst .AsyncAPI3 fs ex set).attr p!"extra_converters" = .none ∧
    (V.inst .AsyncAPI3 fs ex set).attr p!"extra_validators" = .none := by
  constructor
  · have := hr.1 (defAsyncAPI3.fields[8]) (List.mem_of_getElem (i := 8) rfl) (by
      unfold Shown; exact fun h => h.1 ⟨rfl, .inl rfl⟩)
    exact this
  · have := hr.1 (defAsyncAPI3.fields[9]) (List.mem_of_getElem (i := 9) rfl) (by
      unfold Shown; exact fun h => h.1 ⟨rfl, .inr rfl⟩)
    exact this

/-- Reading back what was written. -/
theorem back (hd : E.digits ≠ some 0) {v : V} {t : Ty Cls}
    (hv : ValidJson E.U E.digits (NormalUrl E) v t) : (toldTy t = true ∨ t = keyTy ∧ Back E v t) → Regular v →
    Keys (fun k => Back E k keyTy) v → Back E v t := by
  induction hv with
  | any hj => intro _ _ _; exact back_of_json hj ⟨⟨1, none⟩, by rw [parse_eq_shape]; rfl⟩
  | none => intro _ _ _; exact ⟨_, _, rfl, rfl⟩
  | str => intro _ _ _; exact ⟨_, _, rfl, rfl⟩
  | int => intro _ _ _; exact ⟨_, _, rfl, rfl⟩
  | bool => intro _ _ _; exact ⟨_, _, rfl, rfl⟩
  | @anyUrl s h =>
    intro _ _ _
    refine ⟨.url .any s, ⟨0, none⟩, ?_, rfl⟩
    have h : E.url .any s = some s := h
    rw [parse_eq_shape]; simp [dump, parseAs, parseUrl, h]
  | @httpUrl s h =>
    intro _ _ _
    refine ⟨.url .http s, ⟨0, none⟩, ?_, rfl⟩
    have h : E.url .http s = some s := h
    rw [parse_eq_shape]; simp [dump, parseAs, parseUrl, h]
  | @email s h =>
    intro _ _ _
    refine ⟨.str s, .exactly, ?_, rfl⟩
    rw [parse_eq_shape]
    simp only [dump, parseAs, parseEmail, (C22_exact _).2 h, if_true]
  | @litStr s vs h =>
    intro _ _ _
    refine ⟨.str s, .exactly, ?_, rfl⟩
    rw [parse_eq_shape]
    simp only [dump, parseAs, parseLit, List.contains_iff_mem.2 h, if_true]
  | @litInt s vs h =>
    intro _ _ _
    refine ⟨.int s, .exactly, ?_, rfl⟩
    rw [parse_eq_shape]
    simp only [dump, parseAs, parseLit, List.contains_iff_mem.2 h, if_true]
  | @list l t h ih =>
    intro h2 hu hK
    cases hu with | list hu =>
    cases hK with | list hK =>
    have h2 : toldTy t = true := h2.resolve_right fun h => by cases h.1
    obtain ⟨l', sc, hi, hf⟩ := back_items (E := E) (t := t) fun v hv => ih v hv (.inl h2) (hu v hv) (hK v hv)
    refine ⟨.list l', sc, ?_, by simp only [forget, hf]⟩
    rw [parse_eq_shape]
    simp only [dump, parseAs, shapeOf, hi, Option.map_some]
  | @dict d t h ih =>
    intro h2 hu hK
    cases hu with | dict hu =>
    cases hK with | dict hK =>
    have h2 : toldTy t = true := h2.resolve_right fun h => by cases h.1
    exact back_dict fun e he => ih e he (.inl h2) (hu e he) (hK e he)
  | union ht hv ih =>
    intro h2 hu hK
    rcases h2 with h2 | h2
    · simp only [toldTy, Bool.and_eq_true, Bool.or_eq_true] at h2
      exact back_union ht h2.1 hv (ih (.inl (toldAll_mem h2.2 ht)) hu hK) hu
    · exact h2.2
  | @model c fs ex set hfs hf hex hcon hjn ih =>
    intro _ hu hK
    cases hu with | inst hreg hu =>
    cases hK with | inst hkk hK =>
    have hjv : ValidJson E.U E.digits (NormalUrl E) (.inst c fs ex set) (.model c) := .model hfs hf hex hcon hjn
    have hval := validJson_valid hjv
    obtain ⟨hchk, hfld⟩ := checks_of_consistent hd hfs hcon
    have hb : ∀ f ∈ (classDef c).fields, Back E ((V.inst c fs ex set).attr f.name) f.ty := fun f hff =>
      ih f hff (by
        rcases field_told hff with h | ⟨rfl, hn, hty⟩
        · exact .inl h
        · refine .inr ⟨hty, ?_⟩
          rw [hn, hty]; exact hkk rfl) (hu _ (lookup_mem_attr (ex := ex) (set := set) hfs hff))
        (hK _ (lookup_mem_attr (ex := ex) (set := set) hfs hff))
    have hpr : c = .AsyncAPI3 → (V.inst c fs ex set).attr p!"extra_converters" = .none ∧
        (V.inst c fs ex set).attr p!"extra_validators" = .none := by
      rintro rfl; exact no_processors hreg
    by_cases hk : (classDef c).kind = .patterned
    · obtain ⟨t, hft⟩ := patterned_root c hk
      have hex : ex = [] := hcon.closed (.inr hk)
      rw [hft] at hfs
      match fs, hfs with
      | [(k, w)], hfs =>
        simp only [List.map_cons, List.map_nil, List.cons.injEq, and_true] at hfs
        subst hfs hex
        obtain ⟨w', sc, hw, hwf⟩ := hb _ (by rw [hft]; exact List.mem_cons_self)
        have hdw : dump (.inst c [(p!"root", w)] [] set) = dump w := by
          simp only [dump, hk, dumpDict, lookup, if_true, Option.getD_some]
        have hroot := hf _ (by rw [hft]; exact List.mem_cons_self)
        change ValidJson E.U E.digits (NormalUrl E) w (.dict t) at hroot
        change parse E (dump w) (.dict t) = some (w', sc) at hw
        change forget w' = forget w at hwf
        cases hroot with
        | @dict d _ hdd =>
        have hfi : forget (.inst c [(p!"root", w')] [] [p!"root"]) = forget (.inst c [(p!"root", .dict d)] [] set) := by
          simp only [forget, forgetDict, V.inst.injEq, true_and, and_true, List.cons.injEq, Prod.mk.injEq]
          exact hwf
        refine ⟨.inst c [(p!"root", w')] [] [p!"root"], sc.and ⟨E.built, none⟩, ?_, hfi⟩
        rw [hdw]
        have hpd : parseDict t (.dict (entries E (dumpDict d))) = some (w', sc) := by
          rw [parse_eq_shape] at hw
          exact hw
        have haft := after_back (E := E) hfi hchk hpr
        show parse E (.dict (dumpDict d)) (.model c) = _
        rw [parse_eq_shape]
        simp only [parseAs, shapeOf, parseModel]
        rw [hk, hft]
        simp only [parseRootTy, hpd, constructRoot, Option.getD_none, haft]
    · have hsep : ∀ e ∈ ex, ∀ f ∈ (classDef c).fields, e.1 ≠ f.name ∧ f.alias ≠ some e.1 := by
        have hns : NotShadowed (.inst c fs ex set) := by
          by_cases ho : (classDef c).kind = .openExtra
          · exact hreg.2.1 ho
          · exact notShadowed_of_valid ho hval
        exact fun e he f hff => hns c fs ex set rfl e he f hff
      obtain ⟨i', hi', hp⟩ := construct_written (E := E) (set := set) hk hfs hsep hreg.1
        (fun f hff _ => ⟨hb f hff, hfld f hff⟩) (fun hn => hcon.closed (.inl hn))
      rw [after_back hi' hchk hpr] at hp
      rw [Option.map_some] at hp
      exact ⟨i', _, by rw [dump_written hk hval hex]; exact hp, hi'⟩

end Verif.Pyd
