import Verif.Lemmas.JsonSchema
import Verif.Lemmas.Accepted
import Verif.Lemmas.Reorder
/-! JSON of the declared types: what is written, what conforms, what is accepted. -/
namespace Verif.JsonSchema
open Verif Verif.Gen Verif.Spec Verif.Props Verif.Pyd

/-! ### What is written -/

theorem written_typed {U : Uni} {limit : Option Nat} {norm : UrlKind → Str → Prop} (hu : UrlsFit norm) {v : V} {t : Ty Cls}
    (h : ValidJson U limit norm v t) : TypedJson (dump v) t := by
  induction h with
  | any => exact .any
  | none => exact .none
  | str => exact .str
  | int => exact .int
  | bool => exact .bool
  | anyUrl h => exact .anyUrl (hu _ _ h).1
  | httpUrl h => exact .httpUrl (hu _ _ h).1 ((hu _ _ h).2 rfl)
  | email => exact .email
  | litStr h => exact .litStr h
  | litInt h => exact .litInt h
  | list _ ih =>
    show TypedJson (.list (dumpList _)) _
    rw [dumpList_map]
    refine .list fun v hv => ?_
    obtain ⟨w, hw, rfl⟩ := List.mem_map.1 hv
    exact ih w hw
  | dict _ ih =>
    show TypedJson (.dict (dumpDict _)) _
    rw [dumpDict_map]
    refine .dict fun v hv => ?_
    obtain ⟨w, hw, rfl⟩ := List.mem_map.1 hv
    exact ih w hw
  | union hm _ ih => exact .union hm ih
  | @model c fs ex set h1 h2 h3 h4 h5 ih =>
    have hv := ValidJson.model h1 h2 h3 h4 h5
    by_cases hk : (classDef c).kind = .patterned
    · obtain ⟨ty, hfs⟩ := patterned_root c hk
      obtain ⟨d, hd1, hd2⟩ := C36_patterned U limit c hk _ (validJson_valid hv)
      have hm : (⟨p!"root", none, .dict ty, .required, false, false, none⟩ : FieldDef Cls) ∈ (classDef c).fields := by
        rw [hfs]; exact List.mem_singleton_self _
      have h := ih _ hm
      rw [hd2]
      simp only [hd1] at h
      change TypedJson (.dict (dumpDict d)) _ at h
      rw [dumpDict_map] at h
      exact .root hk hm h
    · obtain ⟨fs', ex', set', e, hd⟩ := dump_model_dict hk hv
      cases e
      rw [hd]
      have hx : ∀ f ∈ (classDef c).fields, ∀ x, lookup (jsonName f) (writtenFields c (.inst c fs ex set) ++ ex) = some x →
          x = dump ((V.inst c fs ex set).attr f.name) := by
        intro f hf x hx
        rw [lookup_dump hv hf] at hx
        split at hx
        · exact (Option.some.inj hx).symm
        · cases hx
      refine .object hk ?_ ?_ ?_ ?_
      · intro f hf hr
        rw [lookup_dump hv hf, if_pos]
        · exact ⟨_, rfl⟩
        · refine (shown_iff hf (validJson_valid (h2 f hf))).1 ?_
          obtain ⟨e1, e2⟩ := (field_fine hf).2.1 hr
          rw [e1, e2]
          rfl
      · intro f hf _ x hl
        rw [hx f hf x hl]
        exact ih f hf
      · intro f hf m s hm hl
        have e := hx f hf _ hl
        have hs := h2 f hf
        rcases (field_fine hf).2.2 m hm with ht | ht
        · rw [ht] at hs
          generalize hg : (V.inst c fs ex set).attr f.name = w at hs e
          cases hs
          cases e
          exact h4.lengths f hf m _ hm hg
        · rw [ht] at hs
          generalize hg : (V.inst c fs ex set).attr f.name = w at hs e
          cases hs with
          | union hm' hs =>
            simp only [List.mem_cons, List.not_mem_nil, or_false] at hm'
            rcases hm' with rfl | rfl
            · cases hs
              cases e
              exact h4.lengths f hf m _ hm hg
            · cases hs
              cases e
      · intro hn e he
        have hex : ex = [] := h4.closed (.inl hn)
        rw [hex, List.append_nil] at he
        obtain ⟨f, hf, hs, e'⟩ : ∃ f ∈ (classDef c).fields, Shown c f ((V.inst c fs ex set).attr f.name) ∧ e.1 = jsonName f := by
          unfold writtenFields at he
          obtain ⟨f, hf, rfl⟩ := List.mem_map.1 he
          obtain ⟨hf, hs⟩ := List.mem_filter.1 hf
          refine ⟨f, hf, ?_, rfl⟩
          rw [hex]
          simpa using hs
        refine ⟨f, hf, ?_, e'⟩
        have := (shown_iff hf (validJson_valid (h2 f hf))).2 hs
        simp only [Bool.and_eq_true, Bool.not_eq_true'] at this
        exact this.1

/-! ### What conforms -/

theorem typed_of_strip {v : V} {t : Ty Cls} (h : TypedJson v (strip t)) : TypedJson v t := by
  unfold strip at h
  split at h
  · rename_i ms
    split at h
    · rename_i m e
      refine .union (List.mem_of_mem_filter (p := fun m => !isNoneTy m) (a := m) ?_) h
      rw [e]; exact List.mem_singleton_self m
    · cases h with
      | union hm h => exact .union (List.mem_of_mem_filter hm) h
  · exact h

theorem conforms_typed {W : World} (hu : UrlsFit W.isUrl) {v : V} {t : STy} (h : Conforms W v t) :
    ∀ m, fits t m = true → TypedJson v m := by
  induction h with
  | any => intro m hm; cases m <;> simp only [fits, Bool.false_eq_true] at hm; exact .any
  | null => intro m hm; cases m <;> simp only [fits, Bool.false_eq_true] at hm; exact .none
  | string => intro m hm; cases m <;> simp only [fits, Bool.false_eq_true] at hm; exact .str
  | integer => intro m hm; cases m <;> simp only [fits, Bool.false_eq_true] at hm; exact .int
  | boolean => intro m hm; cases m <;> simp only [fits, Bool.false_eq_true] at hm; exact .bool
  | email => intro m hm; cases m <;> simp only [fits, Bool.false_eq_true] at hm; exact .email
  | @url k s h =>
    intro m hm
    cases k <;> cases m <;> simp only [fits, Bool.false_eq_true] at hm
    · exact .anyUrl (hu _ _ h).1
    · exact .httpUrl (hu _ _ h).1 ((hu _ _ h).2 rfl)
  | enumStr h =>
    intro m hm
    cases m <;> simp only [fits, Bool.false_eq_true, Bool.and_eq_true, List.all_eq_true, List.contains_iff_mem] at hm
    exact .litStr (hm.1 _ h)
  | enumInt h =>
    intro m hm
    cases m <;> simp only [fits, Bool.false_eq_true, Bool.and_eq_true, List.all_eq_true, List.contains_iff_mem] at hm
    exact .litInt (hm.1 _ h)
  | list _ ih =>
    intro m hm
    cases m <;> simp only [fits, Bool.false_eq_true] at hm
    exact .list fun v hv => ih v hv _ hm
  | map _ ih =>
    intro m hm
    cases m <;> simp only [fits, Bool.false_eq_true] at hm
    exact .dict fun v hv => ih v hv _ hm
  | keyed _ _ ih =>
    intro m hm
    cases m <;> simp only [fits, Bool.false_eq_true, Bool.and_eq_true, beq_iff_eq] at hm
    rename_i c
    obtain ⟨hk, hm⟩ := hm
    obtain ⟨u, hfs⟩ := patterned_root c hk
    rw [hfs] at hm
    simp only [List.all_cons, List.all_nil, Bool.and_true] at hm
    refine .root hk (f := ⟨p!"root", none, .dict u, .required, false, false, none⟩) (by rw [hfs]; exact List.mem_singleton_self _) ?_
    exact .dict fun v hv => ih v hv _ hm
  | either hm _ _ ih =>
    intro m hf
    cases m <;> simp only [fits, Bool.false_eq_true, Bool.and_eq_true] at hf
    obtain ⟨m, hm', hfm⟩ := fitsEach_iff.1 hf.1 _ hm
    exact .union hm' (ih m hfm)
  | @object c rs d hrs h1 h2 h3 h4 h5 ih =>
    intro m hm
    cases m <;> simp only [fits, Bool.false_eq_true, Bool.and_eq_true, beq_iff_eq, bne_iff_ne] at hm
    obtain ⟨rfl, hk⟩ := hm
    refine .object hk ?_ ?_ ?_ ?_
    · intro f hf hr
      obtain ⟨r, hr', hrf⟩ := row_of_field hrs hf ((field_fine hf).2.1 hr).1
      rw [hrf.name]
      refine h1 r hr' ?_
      cases hq : r.required
      · exact absurd hr (hrf.optional hq)
      · rfl
    · intro f hf he x hx
      obtain ⟨r, hr', hrf⟩ := row_of_field hrs hf he
      have := ih r hr' _ (lookup_some_mem hx) hrf.name
      rcases hrf.ty with h | ⟨-, h⟩
      · exact this _ h
      · exact typed_of_strip (this _ h)
    · intro f hf m s hm hx
      have he : f.exclude = false := by
        rw [← (field_fine hf).1]
        rcases (field_fine hf).2.2 m hm with e | e <;> rw [e] <;> rfl
      obtain ⟨r, hr', hrf⟩ := row_of_field hrs hf he
      rw [hrf.name] at hx
      exact h3 r hr' s m hx (hrf.max.trans hm)
    · intro hn e he
      rcases h4 e he with ⟨r, hr, e'⟩ | ⟨h, -⟩
      · obtain ⟨f, hf, hrf⟩ := field_of_row hrs hr
        exact ⟨f, hf, hrf.exclude, e'.trans hrf.name.symm⟩
      · obtain ⟨-, k1, k2⟩ := kind_cases hrs
        rcases h with ⟨h, -⟩ | ⟨h, -⟩
        · rw [k1.2 h] at hn; cases hn
        · rw [k2.2 h] at hn; cases hn

/-! ### What is accepted -/

theorem items_each {E : Env} {t : Ty Cls} {l : List V} {r : List V × Score} (h : parseItems t (parsers E l) = some r) :
    ∀ x ∈ l, ∃ y, Accepts E x t y := by
  induction l generalizing r with
  | nil => intro x hx; cases hx
  | cons x l ih =>
    simp only [parsers, parseItems] at h
    cases hx : parse E x t with
    | none => rw [hx] at h; cases h
    | some p =>
      rw [hx] at h
      simp only at h
      cases hl : parseItems t (parsers E l) with
      | none => rw [hl] at h; cases h
      | some q =>
        intro y hy
        rcases List.mem_cons.1 hy with rfl | hy
        · exact ⟨p.1, p.2, hx⟩
        · exact ih hl y hy

theorem entries_each {E : Env} {t : Ty Cls} {d : List (Str × V)} {r : List (Str × V) × Score}
    (h : parseEntries t (entries E d) = some r) : ∀ e ∈ d, ∃ y, Accepts E e.2 t y := by
  rw [parseEntries_eq] at h
  split at h
  · rename_i ha
    intro e he
    obtain ⟨p, hp⟩ := Option.isSome_iff_exists.1 (List.all_eq_true.1 ha e he)
    exact ⟨p.1, p.2, hp⟩
  · cases h

theorem others_mem {ts : List (Ty Cls)} {t : Ty Cls} (ht : t ∈ ts) (hn : t ≠ .none) : t ∈ others ts := by
  unfold others
  rw [List.mem_filter]
  refine ⟨ht, ?_⟩
  cases t <;> first | rfl | exact absurd rfl hn

theorem tried_member {v : V} {ts : List (Ty Cls)} {t : Ty Cls} (ht : t ∈ ts) (hn : t ≠ .none) : ∃ pre, Portion v (.union ts) pre v t := by
  have hm := others_mem ht hn
  by_cases h : 2 ≤ (others ts).length
  · exact ⟨_, .one h hm⟩
  · refine ⟨_, .only ?_⟩
    match ho : others ts, h, hm with
    | [u], _, hm => rw [List.mem_singleton.1 hm]
    | _ :: _ :: _, h, _ => simp at h

theorem literally_part {accept : V → Ty Cls → V → Prop} {v v' : V} {t t' : Ty Cls} {pre : List Step} (h : Literally accept v t)
    (hp : Portion v t pre v' t') : Literally accept v' t' where
  ints w y ht := h.ints w y (.part hp ht)
  bools w y ht := h.bools w y (.part hp ht)
  names d c y f k x ht := h.names d c y f k x (.part hp ht)

theorem closed_shown : Cls.all.all (fun c => (classDef c).kind != .nonExtendable || (classDef c).fields.all fun f => !f.exclude) = true := by
  decide +kernel

theorem jsonName_given {f : FieldDef Cls} {d : List (Str × V)} {x : V} (h : lookup (jsonName f) d = some x) : GivenAs f d (jsonName f) x := by
  refine ⟨h, ?_⟩
  unfold jsonName
  cases f.alias with
  | none => exact .inr ⟨rfl, nofun⟩
  | some a => exact .inl rfl

theorem scalar_typed {E : Env} (hu : UrlsFit fun k s => (E.url k s).isSome = true) {x y : V} {m : Ty Cls}
    (hj : x.isJson = true) (ha : Accepts E x m y) (hl : Literally (Accepts E) x m)
    (hm : m = .any ∨ m = .none ∨ m = .str ∨ m = .int ∨ m = .bool ∨ m = .anyUrl ∨ m = .httpUrl ∨ m = .email ∨ (∃ vs, m = .lit vs)) :
    TypedJson x m := by
  obtain ⟨sc, h⟩ := ha
  have ha : Accepts E x m y := ⟨sc, h⟩
  rw [parse_eq_shape] at h
  rcases hm with rfl | rfl | rfl | rfl | rfl | rfl | rfl | rfl | ⟨vs, rfl⟩ <;> simp only [parseAs] at h
  · exact .any
  · split at h
    · rename_i hn
      cases x <;> first | (cases hn; done) | exact .none
    · cases h
  · cases x <;> first | (cases h; done) | exact .str
  · obtain ⟨n, rfl⟩ := hl.ints x y .self ha; exact .int
  · obtain ⟨n, rfl⟩ := hl.bools x y .self ha; exact .bool
  · cases x <;> first | (cases h; done) | (cases hj; done) | skip
    simp only [parseUrl, Option.map_eq_some_iff] at h
    obtain ⟨u, hu', -⟩ := h
    exact .anyUrl (hu .any _ (Option.isSome_iff_exists.2 ⟨u, hu'⟩)).1
  · cases x <;> first | (cases h; done) | (cases hj; done) | skip
    simp only [parseUrl, Option.map_eq_some_iff] at h
    obtain ⟨u, hu', -⟩ := h
    have := hu .http _ (Option.isSome_iff_exists.2 ⟨u, hu'⟩)
    exact .httpUrl this.1 (this.2 rfl)
  · cases x <;> first | (cases h; done) | exact .email
  · cases x <;> first | (cases h; done) | skip
    all_goals
      simp only [parseLit] at h
      split at h
      · rename_i hc
        first | exact .litInt (List.contains_iff_mem.1 hc) | exact .litStr (List.contains_iff_mem.1 hc)
      · cases h

theorem accepted_typed {E : Env} (hu : UrlsFit fun k s => (E.url k s).isSome = true) : ∀ (x : V), x.isJson = true →
    ∀ t y, Accepts E x t y → Literally (Accepts E) x t → TypedJson x t := by
  have key : ∀ x : V, x.isJson = true →
      (∀ l, x = .list l → ∀ x ∈ l, ∀ t y, Accepts E x t y → Literally (Accepts E) x t → TypedJson x t) →
      (∀ d, x = .dict d → ∀ e ∈ d, ∀ t y, Accepts E e.2 t y → Literally (Accepts E) e.2 t → TypedJson e.2 t) →
      ∀ t y, Accepts E x t y → Literally (Accepts E) x t → TypedJson x t := by
    intro x hj hl hd t
    induction t using Ty.rec (motive_2 := fun ts => ∀ t ∈ ts, ∀ y, Accepts E x t y → Literally (Accepts E) x t → TypedJson x t) with
    | any => intro y ha hlit; exact scalar_typed hu hj ha hlit (by simp)
    | none => intro y ha hlit; exact scalar_typed hu hj ha hlit (by simp)
    | str => intro y ha hlit; exact scalar_typed hu hj ha hlit (by simp)
    | int => intro y ha hlit; exact scalar_typed hu hj ha hlit (by simp)
    | bool => intro y ha hlit; exact scalar_typed hu hj ha hlit (by simp)
    | anyUrl => intro y ha hlit; exact scalar_typed hu hj ha hlit (by simp)
    | httpUrl => intro y ha hlit; exact scalar_typed hu hj ha hlit (by simp)
    | email => intro y ha hlit; exact scalar_typed hu hj ha hlit (by simp)
    | lit vs => intro y ha hlit; exact scalar_typed hu hj ha hlit (by simp)
    | processors =>
      rintro y ⟨sc, h⟩ _
      rw [parse_eq_shape] at h
      simp only [parseAs] at h
      cases x <;> first | (cases h; done) | cases hj
    | list t _ =>
      rintro y ⟨sc, h⟩ hlit
      cases x with
      | list l =>
        change (parseItems t (parsers E l)).map _ = _ at h
        obtain ⟨r, hr, -⟩ := Option.map_eq_some_iff.1 h
        refine .list fun w hw => ?_
        obtain ⟨y', hy'⟩ := items_each hr w hw
        obtain ⟨n, hn, e⟩ := List.getElem_of_mem hw
        exact hl l rfl w hw t y' hy' (literally_part hlit (.item (List.getElem?_eq_some_iff.2 ⟨hn, e⟩)))
      | _ => rw [parse_eq_shape] at h; cases h
    | dict t _ =>
      rintro y ⟨sc, h⟩ hlit
      cases x with
      | dict d =>
        change (parseEntries t (entries E d)).map _ = _ at h
        obtain ⟨r, hr, -⟩ := Option.map_eq_some_iff.1 h
        refine .dict fun w hw => ?_
        obtain ⟨y', hy'⟩ := entries_each hr w hw
        exact hd d rfl w hw t y' hy' (literally_part hlit (.entry hw))
      | _ => rw [parse_eq_shape] at h; cases h
    | model c =>
      rintro y ⟨sc, h⟩ hlit
      cases x with
      | dict d =>
        by_cases hk : (classDef c).kind = .patterned
        · obtain ⟨u, hfs⟩ := patterned_root c hk
          have hm : (⟨p!"root", none, .dict u, .required, false, false, none⟩ : FieldDef Cls) ∈ (classDef c).fields := by
            rw [hfs]; exact List.mem_singleton_self _
          have hp : parse E (.dict d) (.model c) = constructRoot E c ((parseEntries u (entries E d)).map fun r => (.dict r.1, r.2)) none E.built := by
            show parseModel E c (.dict (entries E d)) _ = _
            simp only [parseModel, hk, hfs]
            rfl
          rw [hp] at h
          cases hr : parseEntries u (entries E d) with
          | none => rw [hr] at h; cases h
          | some r =>
            refine .root hk hm ?_
            refine .dict fun w hw => ?_
            obtain ⟨y', hy'⟩ := entries_each hr w hw
            exact hd d rfl w hw u y' hy' (literally_part (literally_part hlit (.root hk hm)) (.entry hw))
        · obtain ⟨i, ⟨fs, hfs, hok, hi, hcl⟩, -⟩ := validate_fieldwise (E := E) (v := y) hk (show validate E c (.dict d) = some y by
            unfold validate; rw [h]; rfl)
          have hpart : ∀ f ∈ (classDef c).fields, ∀ k x, GivenAs f d k x → ∃ pre, Portion (.dict d) (.model c) pre x f.ty := by
            intro f hf k x hg
            refine ⟨[.key k], .field hk hf ⟨.inl ⟨d, rfl, hg.1⟩, hg.2.imp id fun ⟨e, hn⟩ => ⟨e, ?_⟩⟩⟩
            rintro a y ha (⟨d', e', h'⟩ | ⟨_, _, _, e', _⟩)
            · cases e'; rw [hn a ha] at h'; cases h'
            · cases e'
          have hgiven : ∀ f ∈ (classDef c).fields, ∀ x, lookup (jsonName f) d = some x →
              Accepts E x f.ty (i.attr f.name) ∧ ∀ m s, f.maxLen = some m → i.attr f.name = .str s → s.length ≤ m := by
            intro f hf x hx
            obtain ⟨h1, h2⟩ := hok f hf
            rcases h1 with ⟨k, x', hg, ha⟩ | ⟨hn, -⟩
            · obtain ⟨-, rfl⟩ := given_unique hg (jsonName_given hx)
              exact ⟨ha, h2⟩
            · exact absurd (jsonName_given hx) (hn _ _)
          refine .object hk ?_ ?_ ?_ ?_
          · intro f hf hr
            rcases (hok f hf).1 with ⟨k, x, hg, -⟩ | ⟨-, hdf⟩
            · have := hlit.names d c y f k x .self ⟨sc, h⟩ hf hg
              subst this
              exact ⟨x, hg.1⟩
            · rw [hr] at hdf; cases hdf
          · intro f hf he x hx
            obtain ⟨pre, hp⟩ := hpart f hf _ x (jsonName_given hx)
            exact hd d rfl _ (lookup_some_mem hx) f.ty _ (hgiven f hf x hx).1 (literally_part hlit hp)
          · intro f hf m s hm hx
            obtain ⟨⟨sc', ha⟩, hlen⟩ := hgiven f hf _ hx
            refine hlen m s hm ?_
            have hstr : ∀ {y sc}, parse E (.str s) (.str : Ty Cls) = some (y, sc) → y = .str s := by
              intro y sc h; cases h; rfl
            rcases (field_fine hf).2.2 m hm with e | e
            · rw [e] at ha; exact hstr ha
            · rw [e] at ha
              rcases union_cases ha with ⟨h1, -⟩ | ⟨t, ht, h1⟩
              · cases h1
              · simp only [List.mem_cons, List.not_mem_nil, or_false] at ht
                rcases ht with rfl | rfl
                · exact hstr h1
                · cases h1
          · intro hn e he
            have hex := hcl hn
            have := List.filter_eq_nil_iff.1 hex e he
            simp only [decide_eq_true_eq, Classical.not_forall, not_not] at this
            obtain ⟨f, hf, x, hg⟩ := this
            refine ⟨f, hf, ?_, hlit.names d c y f _ x .self ⟨sc, h⟩ hf hg⟩
            have := List.all_eq_true.1 closed_shown c (Cls.mem_all c)
            rw [hn] at this
            simp only [bne_self_eq_false, Bool.false_or, List.all_eq_true, Bool.not_eq_true'] at this
            exact this f hf
      | inst => cases hj
      | _ => rw [parse_eq_shape] at h; cases h
    | union ts ih =>
      rintro y ⟨sc, h⟩ hlit
      rcases union_cases h with ⟨rfl, rfl⟩ | ⟨t, ht, h⟩
      · rw [parse_union] at h
        split at h
        · rename_i hn
          refine .union (t := .none) ?_ .none
          simp only [V.isNone, Bool.true_and] at hn
          clear ih hlit h
          induction ts with
          | nil => cases hn
          | cons t ts ih =>
            cases t <;> first
              | exact List.mem_cons_self
              | (refine List.mem_cons_of_mem _ (ih ?_); simpa [hasNone] using hn)
        · rcases pick_mem h with h | h
          · cases h
          · obtain ⟨t, ht, he⟩ := List.mem_map.1 h
            refine .union ht ?_
            by_cases hn : t = .none
            · subst hn; exact .none
            · obtain ⟨pre, hp⟩ := tried_member (v := .none) ht hn
              exact ih t ht _ ⟨_, he⟩ (literally_part hlit hp)
      · refine .union ht ?_
        by_cases hn : t = .none
        · subst hn
          rw [parse_eq_shape] at h
          simp only [parseAs] at h
          split at h
          · rename_i hn
            cases x <;> first | (cases hn; done) | exact .none
          · cases h
        · obtain ⟨pre, hp⟩ := tried_member (v := x) ht hn
          exact ih t ht _ ⟨_, h⟩ (literally_part hlit hp)
    | nil => rename_i ht _ _ _; cases ht
    | cons t ts h1 h2 =>
      rename_i t' ht' y a b
      rcases List.mem_cons.1 ht' with rfl | h
      · exact h1 y a b
      · exact h2 t' h y a b
  intro x
  induction x using V.ind with
  | list l ih =>
    intro hj
    refine key _ hj ?_ nofun
    rintro _ ⟨⟩ x hx
    exact ih x hx ((isJsonList_iff l).1 hj x hx)
  | dict d ih =>
    intro hj
    refine key _ hj nofun ?_
    rintro _ ⟨⟩ x hx
    exact ih x hx ((isJsonDict_iff d).1 hj x hx)
  | _ => exact fun hj => key _ hj nofun nofun

/-! ### Whole schemas -/

theorem shown_eq (mode : Mode) (c : Cls) : shown mode c = shown .validation c := by
  unfold shown
  refine List.filter_congr fun f hf => ?_
  rw [omitted_eq hf, omitted_eq hf]

theorem usesOf_eq (mode : Mode) (c : Cls) : usesOf mode c = usesOf .validation c := by
  unfold usesOf
  rw [shown_eq]

theorem collect_eq (mode : Mode) (n : Nat) : ∀ todo seen, collect mode n todo seen = collect .validation n todo seen := by
  induction n with
  | zero => intro todo seen; cases todo <;> rfl
  | succ n ih =>
    intro todo seen
    cases todo with
    | nil => rfl
    | cons c todo =>
      unfold collect
      rw [ih, ih, usesOf_eq]

theorem defsOf_eq (mode : Mode) (c : Cls) : defsOf mode c = defsOf .validation c := by
  unfold defsOf
  rw [collect_eq, usesOf_eq]

theorem required_eq (mode : Mode) (c : Cls) :
    (shown mode c).filter (isRequired mode) = (shown .validation c).filter (isRequired .validation) := by
  rw [shown_eq]
  refine List.filter_congr fun f hf => ?_
  have hf := (mem_shown.1 hf).1
  rw [Bool.eq_iff_iff, isRequired_iff hf, isRequired_iff hf]

theorem classSchema_mode (mode : Mode) (c : Cls) : classSchema mode c = classSchema .validation c := by
  unfold classSchema
  rw [required_eq, shown_eq]

theorem definitions_mode (mode : Mode) (cs : List Cls) : definitions mode cs = definitions .validation cs := by
  have : ∀ c, classSchema mode c = classSchema .validation c := classSchema_mode mode
  unfold definitions
  split
  · rfl
  · simp only [this]

theorem modes_eq (mode : Mode) (c : Cls) : modelJsonSchema mode c = modelJsonSchema .validation c := by
  unfold modelJsonSchema
  simp only [defsOf_eq mode, classSchema_mode mode, definitions_mode mode]

/-- No class refers to itself, the names of the classes a class refers to are different, and the definitions are complete. -/
def schemaFine (c : Cls) : Bool :=
  !(defsOf .validation c).contains c && decide ((defsOf .validation c).map className).Nodup &&
  (usesOf .validation c).all (fun c' => (defsOf .validation c).contains c') &&
  (defsOf .validation c).all fun c' => (usesOf .validation c').all fun c'' => (defsOf .validation c).contains c''

theorem schemas_fine : Cls.all.all schemaFine = true := by decide +kernel

theorem schema_fine (c : Cls) : (defsOf .validation c).contains c = false ∧ ((defsOf .validation c).map className).Nodup ∧
    (∀ c' ∈ usesOf .validation c, c' ∈ defsOf .validation c) ∧
    ∀ c' ∈ defsOf .validation c, ∀ c'' ∈ usesOf .validation c', c'' ∈ defsOf .validation c := by
  have h := List.all_eq_true.1 schemas_fine c (Cls.mem_all c)
  simp only [schemaFine, Bool.and_eq_true, Bool.not_eq_true', decide_eq_true_eq, List.all_eq_true, List.contains_iff_mem] at h
  exact ⟨h.1.1.1, h.1.1.2, h.1.2, h.2⟩

theorem modelJsonSchema_eq (c : Cls) : modelJsonSchema .validation c =
    .dict (definitions .validation (defsOf .validation c) ++ classSchema .validation c) := by
  unfold modelJsonSchema
  simp only [(schema_fine c).1, Bool.false_eq_true, if_false]

theorem lookup_definitions {cs : List Cls} {k : Str} (h : k ≠ p!"$defs") : lookup k (definitions .validation cs) = none := by
  unfold definitions
  split
  · rfl
  · simp [lookup, h.symm]

theorem defined_as {c c' : Cls} (h : c' ∈ defsOf .validation c) :
    DefinedAs (modelJsonSchema .validation c) (p!"#/$defs/" ++ className c') (.dict (classSchema .validation c')) := by
  rw [modelJsonSchema_eq]
  have hn : defsOf .validation c ≠ [] := List.ne_nil_of_mem h
  refine ⟨_, (defsOf .validation c).map fun c => (className c, .dict (classSchema .validation c)), className c', rfl, ?_, rfl, ?_⟩
  · unfold definitions
    split
    · rename_i e; exact absurd e hn
    · simp [lookup]
  · exact lookup_named className (fun c => V.dict (classSchema .validation c)) (schema_fine c).2.1 h

theorem root_agrees (c : Cls) (v : V) :
    Satisfies (modelJsonSchema .validation c) v (modelJsonSchema .validation c) ↔ TypedJson v (.model c) := by
  have h := (agrees (mode := .validation) (S := defsOf .validation c) (root := modelJsonSchema .validation c) (fun c' h => defined_as h)
    (schema_fine c).2.2.2 v).2 c (schema_fine c).2.2.1
  rw [← h]
  have e : ∀ root, Satisfies root v (modelJsonSchema .validation c) ↔ Satisfies root v (.dict (classSchema .validation c)) := by
    intro root
    rw [modelJsonSchema_eq]
    refine satisfies_congr fun k hk => ?_
    rw [lookup_append, lookup_definitions hk]
    rfl
  exact e _

/-! ### Well made -/

/-- The keyword has a value that makes sense. -/
def FineAt (root : V) (e : Str × V) : Prop :=
      (e.1 = p!"$ref" ∧ ∃ r s, e.2 = .str r ∧ DefinedAs root r s) ∨
      (e.1 = p!"anyOf" ∧ ∃ l, e.2 = .list l ∧ l ≠ [] ∧ ∀ s ∈ l, WellMade root s) ∨
      (e.1 = p!"type" ∧ ∃ t v, e.2 = .str t ∧ JsonType t v) ∨
      (e.1 = p!"enum" ∧ ∃ l, e.2 = .list l ∧ l ≠ []) ∨
      e.1 = p!"const" ∨ e.1 = p!"format" ∨
      (e.1 = p!"minLength" ∧ ∃ n : Nat, e.2 = .int n) ∨
      (e.1 = p!"maxLength" ∧ ∃ n : Nat, e.2 = .int n) ∨
      (e.1 = p!"items" ∧ WellMade root e.2) ∨
      (e.1 = p!"required" ∧ ∃ l : List Str, e.2 = .list (l.map .str) ∧ l.Nodup) ∨
      (e.1 = p!"properties" ∧ ∃ ps, e.2 = .dict ps ∧ (ps.map (·.1)).Nodup ∧ ∀ p ∈ ps, WellMade root p.2) ∨
      (e.1 = p!"additionalProperties" ∧ WellMade root e.2) ∨
      (e.1 = p!"$defs" ∧ ∃ ps, e.2 = .dict ps ∧ (ps.map (·.1)).Nodup ∧ ∀ p ∈ ps, WellMade root p.2)

theorem wellMade_of {root : V} {kw : List (Str × V)} (hn : (kw.map (·.1)).Nodup) (h : ∀ e ∈ kw, FineAt root e) :
    WellMade root (.dict kw) := by
  have key : ∀ k x, lookup k kw = some x → FineAt root (k, x) := fun k x hx => h (k, x) (lookup_some_mem hx)
  refine .keywords hn ?_ ?_ ?_ ?_ ?_ ?_ ?_ ?_ ?_ ?_ ?_ ?_ ?_ ?_ ?_
  · intro e he
    rcases h e he with h | h | h | h | h | h | h | h | h | h | h | h | h <;> (first | rw [h.1] | rw [h]) <;> decide
  all_goals
    intro x hx
    have hx := key _ _ hx
    try simp only [FineAt, List.cons.injEq, Char.reduceEq, reduceCtorEq, and_false, false_and, and_true, true_and, or_false, false_or, V.list.injEq, V.dict.injEq] at hx
    try exact hx
    try (obtain ⟨l, rfl, h1, h2⟩ := hx; exact ⟨l, rfl, h1⟩)
    try (obtain ⟨l, h0, h1, h2⟩ := hx; cases h0; exact h2)

mutual
/-- No empty unions and lists of values. -/
def sensible : Ty Cls → Bool
  | .lit vs => !vs.isEmpty
  | .list t => sensible t
  | .dict t => sensible t
  | .union ts => !ts.isEmpty && sensibleAll ts
  | _ => true
/-- None of the types has. -/
def sensibleAll : List (Ty Cls) → Bool
  | [] => true
  | t :: ts => sensible t && sensibleAll ts
end

theorem table_sensible : Cls.all.all (fun c => (classDef c).fields.all fun f => sensible f.ty) = true := by decide +kernel

theorem wellMade_typed {root : V} {t : Str} (h : ∃ v, JsonType t v) : WellMade root (.dict (typed t)) := by
  obtain ⟨v, h⟩ := h
  refine wellMade_of (by simp [typed]) ?_
  simp only [typed, List.forall_mem_singleton]
  exact .inr (.inr (.inl ⟨rfl, t, v, rfl, h⟩))

theorem jt_string : ∃ v, JsonType p!"string" v := ⟨.str [], .string⟩
theorem jt_integer : ∃ v, JsonType p!"integer" v := ⟨.int 0, .integer⟩
theorem jt_object : ∃ v, JsonType p!"object" v := ⟨.dict [], .object⟩

variable {root : V} {S : List Cls}

theorem wellMade_lit {vs : List Lit} (hv : vs ≠ []) : WellMade root (.dict (litSchema vs)) := by
  have hm : vs.map litValue ≠ [] := by simpa using hv
  have ht : ∀ t, (∃ v, JsonType t v) → WellMade root (.dict ([(p!"enum", .list (vs.map litValue))] ++ typed t)) ∧
      ∀ x, WellMade root (.dict ([(p!"const", x)] ++ typed t)) := by
    rintro t ⟨v, h⟩
    constructor
    · refine wellMade_of (by simp [typed]) ?_
      simp only [typed, List.cons_append, List.nil_append, List.forall_mem_cons, List.not_mem_nil, false_implies, implies_true, and_true]
      exact ⟨.inr (.inr (.inr (.inl ⟨rfl, _, rfl, hm⟩))), .inr (.inr (.inl ⟨rfl, t, v, rfl, h⟩))⟩
    · intro x
      refine wellMade_of (by simp [typed]) ?_
      simp only [typed, List.cons_append, List.nil_append, List.forall_mem_cons, List.not_mem_nil, false_implies, implies_true, and_true]
      exact ⟨.inr (.inr (.inr (.inr (.inl rfl)))), .inr (.inr (.inl ⟨rfl, t, v, rfl, h⟩))⟩
  unfold litSchema
  split
  · split
    · exact (ht _ jt_string).2 _
    · split
      · exact (ht _ jt_integer).2 _
      · refine wellMade_of (by simp) ?_
        simp only [List.append_nil, List.forall_mem_singleton]
        exact .inr (.inr (.inr (.inr (.inl rfl))))
  · split
    · exact (ht _ jt_string).1
    · split
      · exact (ht _ jt_integer).1
      · refine wellMade_of (by simp) ?_
        simp only [List.append_nil, List.forall_mem_singleton]
        exact .inr (.inr (.inr (.inl ⟨rfl, _, rfl, hm⟩)))

theorem wellMade_map {t : V} (h : WellMade root t) : WellMade root (.dict ([(p!"additionalProperties", t)] ++ typed p!"object")) := by
  refine wellMade_of (by simp [typed]) ?_
  simp only [typed, List.cons_append, List.nil_append, List.forall_mem_cons, List.not_mem_nil, false_implies, implies_true, and_true]
  exact ⟨.inr (.inr (.inr (.inr (.inr (.inr (.inr (.inr (.inr (.inr (.inr (.inl ⟨rfl, h⟩))))))))))),
    .inr (.inr (.inl ⟨rfl, _, .dict [], rfl, .object⟩))⟩

theorem wellMade_anyOf {l : List V} (hl : l ≠ []) (h : ∀ s ∈ l, WellMade root s) : WellMade root (.dict [(p!"anyOf", .list l)]) := by
  refine wellMade_of (by simp) ?_
  simp only [List.forall_mem_singleton]
  exact .inr (.inl ⟨rfl, l, rfl, hl, h⟩)

theorem wellMade_limited {m : Nat} : WellMade root (limited m .str) := by
  refine wellMade_of (by simp [typed]) ?_
  simp only [typed, List.cons_append, List.nil_append, List.forall_mem_cons, List.not_mem_nil, false_implies, implies_true, and_true]
  exact ⟨.inr (.inr (.inr (.inr (.inr (.inr (.inr (.inl ⟨rfl, m, rfl⟩))))))), .inr (.inr (.inl ⟨rfl, _, .str [], rfl, .string⟩))⟩

theorem wellMade_nothing : WellMade root (.dict []) := wellMade_of (by simp) (by simp)

theorem wellMade_ty (hS : ∀ c ∈ S, ∃ s, DefinedAs root (p!"#/$defs/" ++ className c) s) (t : Ty Cls) :
    sensible t = true → (∀ c ∈ refsOf t, c ∈ S) → WellMade root (tySchema t) := by
  induction t using Ty.rec (motive_2 := fun ts => sensibleAll ts = true → (∀ c ∈ refsOfAll ts, c ∈ S) → ∀ s ∈ tySchemas ts, WellMade root s) with
  | any => intro _ _; rw [tySchema]; exact wellMade_nothing
  | none => intro _ _; rw [tySchema]; exact wellMade_typed ⟨.none, .null⟩
  | str => intro _ _; rw [tySchema]; exact wellMade_typed jt_string
  | int => intro _ _; rw [tySchema]; exact wellMade_typed jt_integer
  | bool => intro _ _; rw [tySchema]; exact wellMade_typed ⟨.bool true, .boolean⟩
  | anyUrl =>
    intro _ _; rw [tySchema]
    refine wellMade_of (by simp [typed]) ?_
    simp only [typed, List.cons_append, List.nil_append, List.forall_mem_cons, List.not_mem_nil, false_implies, implies_true, and_true]
    exact ⟨.inr (.inr (.inr (.inr (.inr (.inl rfl))))), .inr (.inr (.inr (.inr (.inr (.inr (.inl ⟨rfl, 1, rfl⟩)))))),
      .inr (.inr (.inl ⟨rfl, _, .str [], rfl, .string⟩))⟩
  | httpUrl =>
    intro _ _; rw [tySchema]
    refine wellMade_of (by simp [typed]) ?_
    simp only [typed, List.cons_append, List.nil_append, List.forall_mem_cons, List.not_mem_nil, false_implies, implies_true, and_true]
    exact ⟨.inr (.inr (.inr (.inr (.inr (.inl rfl))))), .inr (.inr (.inr (.inr (.inr (.inr (.inr (.inl ⟨rfl, 2083, rfl⟩))))))),
      .inr (.inr (.inr (.inr (.inr (.inr (.inl ⟨rfl, 1, rfl⟩)))))), .inr (.inr (.inl ⟨rfl, _, .str [], rfl, .string⟩))⟩
  | email =>
    intro _ _; rw [tySchema]
    refine wellMade_of (by simp [typed]) ?_
    simp only [typed, List.cons_append, List.nil_append, List.forall_mem_cons, List.not_mem_nil, false_implies, implies_true, and_true]
    exact ⟨.inr (.inr (.inl ⟨rfl, _, .str [], rfl, .string⟩)), .inr (.inr (.inr (.inr (.inr (.inl rfl)))))⟩
  | processors => intro _ _; rw [tySchema]; exact .bool
  | lit vs =>
    intro h _
    rw [tySchema]
    refine wellMade_lit ?_
    rintro rfl
    cases h
  | list t ih =>
    intro h1 h2
    rw [sensible] at h1
    simp only [refsOf] at h2
    rw [tySchema]
    refine wellMade_of (by simp [typed]) ?_
    simp only [typed, List.cons_append, List.nil_append, List.forall_mem_cons, List.not_mem_nil, false_implies, implies_true, and_true]
    exact ⟨.inr (.inr (.inr (.inr (.inr (.inr (.inr (.inr (.inl ⟨rfl, ih h1 h2⟩)))))))), .inr (.inr (.inl ⟨rfl, _, .list [], rfl, .array⟩))⟩
  | dict t ih =>
    intro h1 h2
    rw [sensible] at h1
    simp only [refsOf] at h2
    by_cases h : t = .any
    · subst h
      rw [show tySchema (.dict .any) = .dict ([(p!"additionalProperties", .bool true)] ++ typed p!"object") by rw [tySchema]]
      exact wellMade_map .bool
    · rw [tySchema]
      · exact wellMade_map (ih h1 h2)
      · exact h
  | model c =>
    intro _ h2
    obtain ⟨s, hs⟩ := hS c (h2 c (by simp [refsOf]))
    rw [tySchema]
    refine wellMade_of (by simp [refTo]) ?_
    simp only [refTo, List.forall_mem_singleton]
    exact .inl ⟨rfl, _, s, rfl, hs⟩
  | union ts ih =>
    intro h1 h2
    rw [sensible, Bool.and_eq_true] at h1
    simp only [refsOf] at h2
    rw [tySchema]
    refine wellMade_anyOf ?_ (ih h1.2 h2)
    cases ts with
    | nil => cases h1.1
    | cons t ts => simp [tySchemas]
  | nil => rename_i _ s hs; exact absurd hs (by simp [tySchemas])
  | cons t ts h1 h2 =>
    rename_i a b s hs
    rw [sensibleAll, Bool.and_eq_true] at a
    simp only [refsOfAll, List.mem_append] at b
    rw [tySchemas] at hs
    rcases List.mem_cons.1 hs with rfl | hs
    · exact h1 a.1 fun c hc => b c (.inl hc)
    · exact h2 a.2 (fun c hc => b c (.inr hc)) s hs

theorem wellMade_field {c : Cls} {f : FieldDef Cls} (hf : f ∈ (classDef c).fields) (h : WellMade root (tySchema f.ty)) :
    WellMade root (fieldSchema f) := by
  unfold fieldSchema
  cases hm : f.maxLen with
  | none => exact h
  | some m =>
    rcases (field_fine hf).2.2 m hm with e | e
    · rw [e]; exact wellMade_limited
    · rw [e]
      refine wellMade_anyOf (by simp) ?_
      simp only [List.map_cons, List.map_nil, List.forall_mem_cons, List.not_mem_nil, false_implies, implies_true, and_true]
      exact ⟨wellMade_limited, by simp only [limited, tySchema]; exact wellMade_typed ⟨.none, .null⟩⟩

theorem wellMade_class (hS : ∀ c ∈ S, ∃ s, DefinedAs root (p!"#/$defs/" ++ className c) s) {c : Cls}
    (hu : ∀ c' ∈ usesOf .validation c, c' ∈ S) : WellMade root (.dict (classSchema .validation c)) := by
  have hty : ∀ f ∈ (classDef c).fields, f.exclude = false → WellMade root (tySchema f.ty) := by
    intro f hf he
    refine wellMade_ty hS f.ty (List.all_eq_true.1 (List.all_eq_true.1 table_sensible c (Cls.mem_all c)) f hf) ?_
    intro c' hc'
    exact hu c' (List.mem_flatMap.2 ⟨f, mem_shown.2 ⟨hf, he⟩, hc'⟩)
  by_cases hk : (classDef c).kind = .patterned
  · obtain ⟨t, ht⟩ := patterned_root c hk
    have hmem : (⟨p!"root", none, .dict t, .required, false, false, none⟩ : FieldDef Cls) ∈ (classDef c).fields := by
      rw [ht]; exact List.mem_singleton_self _
    rw [patterned_schema hk ht]
    exact hty _ hmem rfl
  · obtain ⟨req, l, h, hl, e⟩ := classSchema_eq (mode := .validation) hk
    rw [e]
    have hps : ∀ p ∈ ((shown .validation c).map fun f => (f.alias.getD f.name, fieldSchema f)), WellMade root p.2 := by
      intro p hp
      obtain ⟨f, hf, rfl⟩ := List.mem_map.1 hp
      obtain ⟨hf, he⟩ := mem_shown.1 hf
      exact wellMade_field hf (hty f hf he)
    have hnd : (((shown .validation c).map fun f => (f.alias.getD f.name, fieldSchema f)).map (·.1)).Nodup := by
      rw [List.map_map]
      exact shown_nodup .validation c
    have hreq : ∃ l' : List Str, l = l'.map .str ∧ l'.Nodup := by
      refine ⟨((shown .validation c).filter (isRequired .validation)).map jsonName, ?_, ?_⟩
      · rw [hl, List.map_map]; rfl
      · exact (shown_nodup .validation c).sublist (List.filter_sublist.map _)
    refine wellMade_of ?_ ?_
    · rcases h with ⟨rfl, -⟩ | rfl <;> simp [objectSchema, typed]
    · rcases h with ⟨rfl, -⟩ | rfl
      · simp only [objectSchema, typed, List.cons_append, List.nil_append, List.forall_mem_cons, List.not_mem_nil, false_implies, implies_true, and_true]
        exact ⟨.inr (.inr (.inr (.inr (.inr (.inr (.inr (.inr (.inr (.inr (.inr (.inl ⟨rfl, .bool⟩))))))))))),
          .inr (.inr (.inr (.inr (.inr (.inr (.inr (.inr (.inr (.inr (.inl ⟨rfl, _, rfl, hnd, hps⟩)))))))))),
          .inr (.inr (.inl ⟨rfl, _, .dict [], rfl, .object⟩))⟩
      · simp only [objectSchema, typed, List.cons_append, List.nil_append, List.forall_mem_cons, List.not_mem_nil, false_implies, implies_true, and_true]
        obtain ⟨l', rfl, hl'⟩ := hreq
        exact ⟨.inr (.inr (.inr (.inr (.inr (.inr (.inr (.inr (.inr (.inr (.inr (.inl ⟨rfl, .bool⟩))))))))))),
          .inr (.inr (.inr (.inr (.inr (.inr (.inr (.inr (.inr (.inr (.inl ⟨rfl, _, rfl, hnd, hps⟩)))))))))),
          .inr (.inr (.inr (.inr (.inr (.inr (.inr (.inr (.inr (.inl ⟨rfl, l', rfl, hl'⟩))))))))),
          .inr (.inr (.inl ⟨rfl, _, .dict [], rfl, .object⟩))⟩

/-- Adding definitions. -/
theorem wellMade_defs {kw ds : List (Str × V)} (h : WellMade root (.dict kw)) (hno : lookup p!"$defs" kw = none)
    (hn : (ds.map (·.1)).Nodup) (hd : ∀ p ∈ ds, WellMade root p.2) : WellMade root (.dict ([(p!"$defs", .dict ds)] ++ kw)) := by
  have e : ∀ k, k ≠ p!"$defs" → lookup k ([(p!"$defs", .dict ds)] ++ kw) = lookup k kw := by
    intro k hk
    simp [lookup, hk.symm]
  have e0 : lookup p!"$defs" ([(p!"$defs", .dict ds)] ++ kw) = some (.dict ds) := by simp [lookup]
  cases h with
  | keywords h1 h2 h3 h4 h5 h6 h7 h8 h9 h10 h11 h12 h13 h14 h15 h16 =>
    refine .keywords ?_ ?_ ?_ ?_ ?_ ?_ ?_ ?_ ?_ ?_ ?_ ?_ ?_ ?_ ?_ ?_
    · simp only [List.cons_append, List.nil_append, List.map_cons, List.nodup_cons]
      refine ⟨fun hm => ?_, h1⟩
      obtain ⟨p, hp, e⟩ := List.mem_map.1 hm
      exact lookup_none.1 hno p.2 (e ▸ hp)
    · intro p hp
      rcases List.mem_cons.1 hp with rfl | hp
      · show p!"$defs" ∈ knownKeywords
        decide
      · exact h2 p hp
    · rw [e _ (by decide)]; exact h3
    · rw [e _ (by decide)]; exact h4
    · rw [e _ (by decide)]; exact h5
    · rw [e _ (by decide)]; exact h6
    · rw [e _ (by decide)]; exact h7
    · rw [e _ (by decide)]; exact h8
    · rw [e _ (by decide)]; exact h9
    · rw [e _ (by decide)]; exact h10
    · rw [e _ (by decide)]; exact h11
    · rw [e _ (by decide)]; exact h12
    · rw [e _ (by decide)]; exact h13
    · rw [e _ (by decide)]; exact h14
    · rw [e0]; rintro x ⟨⟩; exact ⟨ds, rfl, hn⟩
    · rw [e0]; rintro x ⟨⟩; exact hd

theorem no_defs (c : Cls) : lookup p!"$defs" (classSchema .validation c) = none := by
  by_cases hk : (classDef c).kind = .patterned
  · obtain ⟨t, ht⟩ := patterned_root c hk
    have := patterned_schema (mode := .validation) hk ht
    by_cases h : t = .any
    · subst h
      rw [show tySchema (.dict .any) = .dict ([(p!"additionalProperties", .bool true)] ++ typed p!"object") by rw [tySchema]] at this
      rw [V.dict.inj this]; simp [lookup, typed]
    · rw [tySchema] at this
      · rw [V.dict.inj this]; simp [lookup, typed]
      · exact h
  · obtain ⟨req, l, h, hl, e⟩ := classSchema_eq (mode := .validation) hk
    rw [e]
    rcases h with ⟨rfl, -⟩ | rfl <;> simp [objectSchema, lookup, typed]

theorem wellMade_root (c : Cls) : WellMade (modelJsonSchema .validation c) (modelJsonSchema .validation c) := by
  have hS : ∀ c' ∈ defsOf .validation c, ∃ s, DefinedAs (modelJsonSchema .validation c) (p!"#/$defs/" ++ className c') s :=
    fun c' h => ⟨_, defined_as h⟩
  have h := wellMade_class (S := defsOf .validation c) hS (schema_fine c).2.2.1
  have hd : ∀ c' ∈ defsOf .validation c, WellMade (modelJsonSchema .validation c) (.dict (classSchema .validation c')) :=
    fun c' hc' => wellMade_class (S := defsOf .validation c) hS ((schema_fine c).2.2.2 c' hc')
  have key : ∀ {root : V}, WellMade root (.dict (classSchema .validation c)) →
      (∀ c' ∈ defsOf .validation c, WellMade root (.dict (classSchema .validation c'))) →
      WellMade root (.dict (definitions .validation (defsOf .validation c) ++ classSchema .validation c)) := by
    intro root h hd
    unfold definitions
    split
    · exact h
    · exact wellMade_defs h (no_defs c) (by rw [List.map_map]; exact (schema_fine c).2.1) (by
        intro p hp
        obtain ⟨c', hc', rfl⟩ := List.mem_map.1 hp
        exact hd c' hc')
  have := key h hd
  rw [← modelJsonSchema_eq] at this
  exact this

end Verif.JsonSchema
