import Verif.Spec.Rename
import Verif.Lemmas.Complaint
import Verif.Lemmas.Extract
import Verif.Lemmas.Resolve
/-!
# Lemmas about renaming entries
-/
namespace Verif.Props
open Verif Verif.Gen Verif.Spec Verif.Pyd

variable {U : Uni} {limit : Option Nat} {K : List LocStep → Str → Str} {r : Str → Str}

theorem recast_items {loc : List LocStep} {i : Nat} {l : List V} {j : Nat} :
    (recastItems K r loc i l)[j]? = l[j]?.map (recast K r (loc ++ [.index (i + j)])) := by
  induction l generalizing i j with
  | nil => simp [recastItems]
  | cons v l ih =>
    cases j with
    | zero => simp [recastItems]
    | succ j => simp only [recastItems, List.getElem?_cons_succ, ih]; rw [show i + 1 + j = i + (j + 1) by omega]

theorem recast_entries {loc : List LocStep} {d : List (Str × V)} {e : Str × V} :
    e ∈ recastEntries K r loc d ↔ ∃ k v, (k, v) ∈ d ∧ e = (K loc k, recast K r (loc ++ [.key k]) v) := by
  induction d with
  | nil => simp [recastEntries]
  | cons a d ih =>
    obtain ⟨k, v⟩ := a
    simp only [recastEntries, List.mem_cons, ih]
    constructor
    · rintro (rfl | ⟨k, v, h, rfl⟩)
      · exact ⟨k, v, .inl rfl, rfl⟩
      · exact ⟨k, v, .inr h, rfl⟩
    · rintro ⟨k', v', h | h, rfl⟩
      · cases h; exact .inl rfl
      · exact .inr ⟨k', v', h, rfl⟩

theorem recast_fields {loc : List LocStep} {d : List (Str × V)} {e : Str × V} :
    e ∈ recastFields K r loc d ↔ ∃ k v, (k, v) ∈ d ∧ e = (k, recast K r (loc ++ [.field k]) v) := by
  induction d with
  | nil => simp [recastFields]
  | cons a d ih =>
    obtain ⟨k, v⟩ := a
    simp only [recastFields, List.mem_cons, ih]
    constructor
    · rintro (rfl | ⟨k, v, h, rfl⟩)
      · exact ⟨k, v, .inl rfl, rfl⟩
      · exact ⟨k, v, .inr h, rfl⟩
    · rintro ⟨k', v', h | h, rfl⟩
      · cases h; exact .inl rfl
      · exact .inr ⟨k', v', h, rfl⟩

theorem recast_none {loc : List LocStep} {v : V} (h : recast K r loc v = .none) : v = .none := by
  cases v <;> simp_all [recast]

theorem recast_dict {loc : List LocStep} {v : V} {d} (h : recast K r loc v = .dict d) : ∃ d', v = .dict d' := by
  cases v <;> simp_all [recast]

theorem recast_list {loc : List LocStep} {v : V} {l} (h : recast K r loc v = .list l) : ∃ l', v = .list l' := by
  cases v <;> simp_all [recast]

theorem recast_inst {loc : List LocStep} {v : V} {c fs ex set} (h : recast K r loc v = .inst c fs ex set) : ∃ fs', v = .inst c fs' ex set := by
  cases v <;> simp_all [recast]

theorem onRef_fst (e : Str × V) : (onRef r e).1 = e.1 := by
  obtain ⟨k, v⟩ := e
  cases v <;> rfl

/-- No new dict in a field `root`. -/
theorem recast_no_root {loc : List LocStep} {c fs ex set} (hc : c ≠ .Reference) (h : ∀ d, ¬ TRoot (.inst c fs ex set) d) (d : List (Str × V)) :
    ¬ TRoot (recast K r loc (.inst c fs ex set)) d := by
  rintro ⟨c', fs', ex', set', e, hr⟩
  simp only [recast, hc, if_false, V.inst.injEq] at e
  obtain ⟨rfl, rfl, rfl, rfl⟩ := e
  rcases hr with hr | ⟨hn, hr⟩
  · obtain ⟨k, v, hm, e⟩ := recast_fields.1 hr
    obtain ⟨rfl, e⟩ := Prod.mk.inj e
    obtain ⟨d', rfl⟩ := recast_dict e.symm
    exact h d' ⟨_, _, _, _, rfl, .inl hm⟩
  · exact h d ⟨_, _, _, _, rfl, .inr ⟨fun w hw => hn _ (recast_fields.2 ⟨_, _, hw, rfl⟩), hr⟩⟩

theorem ref_of_inst {fs ex set} (hs : Sound U limit (.inst .Reference fs ex set)) : ∃ s, TRef (.inst .Reference fs ex set) s := by
  have hv := sound_inst hs
  have hmem : p!"ref" ∈ fs.map (·.1) := by rw [valid_names hv]; decide
  obtain ⟨⟨k, v⟩, hm, rfl⟩ := List.mem_map.1 hmem
  have hf : (⟨p!"ref", some p!"$ref", .str, .required, false, false, none⟩ : FieldDef Cls) ∈ (classDef .Reference).fields := by
    simp [classDef, defReference]
  cases valid_field hv hf hm with
  | str => exact ⟨_, _, _, _, rfl, hm⟩

theorem reference_no_root {fs ex set} (hs : Sound U limit (.inst .Reference fs ex set)) {w} : (p!"root", w) ∉ fs := by
  intro h
  have : p!"root" ∈ fs.map (·.1) := List.mem_map.2 ⟨_, h, rfl⟩
  rw [valid_names (sound_inst hs)] at this
  revert this
  simp [classDef, defReference]

theorem extraRoot_within {v u : V} (h : NoExtraRoot v) (hw : Within u v) : NoExtraRoot u :=
  fun c fs ex set h1 => h c fs ex set (within_trans h1 hw)

/-- Paths lead to the same objects, with their new names. -/
theorem walk_recast {path : List Str} : ∀ {loc : List LocStep} {v w : V}, Sound U limit v → NoExtraRoot v → TWalk v path w →
    (∃ c fs ex set, w = .inst c fs ex set) →
    ∃ path' loc', Follows K loc v path path' ∧ TWalk (recast K r loc v) path' (recast K r loc' w) := by
  induction path with
  | nil =>
    intro loc v w _ _ h _
    cases h
    exact ⟨[], loc, .nil, .nil⟩
  | cons k ks ih =>
    intro loc v w hs hn h hw
    have hall := h
    cases h with
    | @cons _ _ u _ _ h1 h2 =>
      have hsu := sound_within hs (tstep_within h1)
      have hnu := extraRoot_within hn (tstep_within h1)
      cases h1 with
      | @root _ d _ _ hr hm =>
        obtain ⟨c, fs, ex, set, rfl, hr⟩ := hr
        rcases hr with hr | ⟨_, hr⟩
        · have hc : c ≠ .Reference := by rintro rfl; exact reference_no_root hs hr
          obtain ⟨path', loc', h3, h4⟩ := ih (loc := loc ++ [.field p!"root"] ++ [.key k]) hsu hnu h2 hw
          refine ⟨_, loc', .root hr (.entry hm h3), .cons ?_ h4⟩
          refine .root (d := recastEntries K r (loc ++ [.field p!"root"]) d) ⟨c, recastFields K r loc fs, ex, set, ?_, .inl ?_⟩ ?_
          · simp only [recast, hc, if_false]
          · exact recast_fields.2 ⟨_, _, hr, by simp only [recast]⟩
          · exact recast_entries.2 ⟨_, _, hm, rfl⟩
        · exact absurd hr (hn _ _ _ _ .refl d)
      | dict hm =>
        obtain ⟨path', loc', h3, h4⟩ := ih (loc := loc ++ [.key k]) hsu hnu h2 hw
        exact ⟨_, loc', .entry hm h3, .cons (.dict (recast_entries.2 ⟨_, _, hm, rfl⟩)) h4⟩
      | @field c fs ex set f _ _ hnr hf hk hm hne =>
        by_cases hc : c = .Reference
        · subst hc
          obtain ⟨s, hr⟩ := ref_of_inst hs
          have := ref_walk hs hr hall
          obtain ⟨_, _, _, _, rfl⟩ := hw
          cases this
        · obtain ⟨path', loc', h3, h4⟩ := ih (loc := loc ++ [.field f.name]) hsu hnu h2 hw
          refine ⟨_, loc', .field hnr hf hk hm hne h3, .cons ?_ h4⟩
          have := recast_no_root (K := K) (r := r) (loc := loc) hc hnr
          simp only [recast, hc, if_false] at this ⊢
          exact .field this hf hk (recast_fields.2 ⟨_, _, hm, rfl⟩) fun e => hne (recast_none e)

theorem ref_recast {loc : List LocStep} {v : V} {s : Str} (h : TRef v s) : TRef (recast K r loc v) (r s) := by
  obtain ⟨fs, ex, set, rfl, hm⟩ := h
  refine ⟨fs.map (onRef r), ex, set, by simp only [recast, if_true], List.mem_map.2 ⟨_, hm, rfl⟩⟩

theorem ref_recast_back {loc : List LocStep} {v : V} {s : Str} (h : TRef (recast K r loc v) s) : ∃ t, TRef v t ∧ s = r t := by
  obtain ⟨fs, ex, set, e, hm⟩ := h
  obtain ⟨fs', rfl⟩ := recast_inst e
  simp only [recast, if_true, V.inst.injEq, true_and, and_true] at e
  subst e
  obtain ⟨⟨k, v⟩, hm', e⟩ := List.mem_map.1 hm
  cases v with
  | str t =>
    simp only [onRef, Prod.mk.injEq] at e
    obtain ⟨rfl, e⟩ := e
    simp only [if_true, V.str.injEq] at e
    exact ⟨t, ⟨fs', ex, set, rfl, hm'⟩, e.symm⟩
  | _ => simp [onRef] at e

theorem ref_inst {v : V} {s : Str} (h : TRef v s) : ∃ c fs ex set, v = .inst c fs ex set := by
  obtain ⟨fs, ex, set, rfl, _⟩ := h
  exact ⟨_, _, _, _, rfl⟩

variable {doc : V}

theorem denotes_recast (hs : Sound U limit doc) (hn : NoExtraRoot doc) (hr : Rightly K r doc) {s : Str} (hh : HasRef doc s) {v : V}
    (h : TDenotes doc s v) (hv : ∃ c fs ex set, v = .inst c fs ex set) : ∃ loc, TDenotes (recast K r [] doc) (r s) (recast K r loc v) := by
  obtain ⟨he, segs, hsp, hw⟩ := h
  obtain ⟨path', loc', h1, h2⟩ := walk_recast (K := K) (r := r) (loc := []) hs hn hw hv
  have h3 := (hr s hh).2 segs path' hsp h1
  exact ⟨loc', Resolve.spells_not_external h3, path', h3, h2⟩

theorem hop_recast (hs : Sound U limit doc) (hn : NoExtraRoot doc) (hr : Rightly K r doc) {s t : Str} (hh : HasRef doc s)
    (h : THop doc s t) : THop (recast K r [] doc) (r s) (r t) := by
  obtain ⟨v, hd, hv⟩ := h
  obtain ⟨loc, h1⟩ := denotes_recast hs hn hr hh hd (ref_inst hv)
  exact ⟨_, h1, ref_recast hv⟩

theorem hop_has {s t : Str} (h : THop doc s t) : HasRef doc t := by
  obtain ⟨v, hd, hv⟩ := h
  exact ⟨v, tdenotes_within hd, hv⟩

theorem hops_recast (hs : Sound U limit doc) (hn : NoExtraRoot doc) (hr : Rightly K r doc) {s t : Str} (hh : HasRef doc s)
    (h : THops doc s t) : THops (recast K r [] doc) (r s) (r t) ∧ HasRef doc t := by
  induction h with
  | refl => exact ⟨.refl, hh⟩
  | tail _ h1 ih => exact ⟨ih.1.tail (hop_recast hs hn hr ih.2 h1), hop_has h1⟩

/-- A Reference that is right is right with its new string. -/
theorem refOk_recast (hs : Sound U limit doc) (hn : NoExtraRoot doc) (hr : Rightly K r doc) {s : Str} (hh : HasRef doc s) {e}
    (h : TRefOk doc e s) : TRefOk (recast K r [] doc) e (r s) := by
  rcases h with ⟨t, h1, h2⟩ | ⟨t, c, fs, ex, set, cs, h1, h2, hc, he, hm⟩
  · obtain ⟨h3, h4⟩ := hops_recast hs hn hr hh h1
    exact .inl ⟨r t, h3, by rw [(hr t h4).1 h2]; exact h2⟩
  · obtain ⟨h3, h4⟩ := hops_recast hs hn hr hh h1
    obtain ⟨loc, h5⟩ := denotes_recast hs hn hr h4 h2 ⟨_, _, _, _, rfl⟩
    exact .inr ⟨r t, c, _, ex, set, cs, h3, by simpa only [recast] using h5, hc, he, hm⟩

/-- What stands in the renamed document, stood in the original. -/
theorem at_recast {steps' : List LocStep} : ∀ {loc : List LocStep} {v w' : V} {s' : Str}, Sound U limit v →
    TAt (recast K r loc v) steps' w' → TRef w' s' →
    ∃ steps w s, TAt v steps w ∧ TRef w s ∧ s' = r s ∧ steps' = newLoc K loc steps := by
  induction steps' with
  | nil =>
    intro loc v w' s' hs h hr
    cases h
    obtain ⟨s, h1, h2⟩ := ref_recast_back hr
    exact ⟨[], v, s, .nil, h1, h2, rfl⟩
  | cons st steps' ih =>
    intro loc v w' s' hs h hr
    cases h with
    | cons h1 h2 =>
      generalize hv : recast K r loc v = v' at h1
      cases h1 with
      | item hi =>
        obtain ⟨l, rfl⟩ := recast_list hv
        simp only [recast, V.list.injEq] at hv
        subst hv
        rw [recast_items, Option.map_eq_some_iff] at hi
        obtain ⟨x, hx, rfl⟩ := hi
        obtain ⟨steps, w, s, h3, h4, h5, h6⟩ := ih (sound_within hs (tchild_within (.item hx))) h2 hr
        rw [Nat.zero_add] at h6
        exact ⟨_, w, s, .cons (.item hx) h3, h4, h5, by rw [h6]; rfl⟩
      | entry hm =>
        obtain ⟨d, rfl⟩ := recast_dict hv
        simp only [recast, V.dict.injEq] at hv
        subst hv
        obtain ⟨k, x, hx, e⟩ := recast_entries.1 hm
        obtain ⟨rfl, rfl⟩ := Prod.mk.inj e
        obtain ⟨steps, w, s, h3, h4, h5, h6⟩ := ih (sound_within hs (tchild_within (.entry hx))) h2 hr
        exact ⟨.key k :: steps, w, s, .cons (.entry hx) h3, h4, h5, by rw [h6]; rfl⟩
      | @field c fs ex set f w hf he hm hne =>
        obtain ⟨fs', rfl⟩ := recast_inst hv
        simp only [recast, V.inst.injEq, true_and, and_true] at hv
        by_cases hc : c = .Reference
        · subst hc
          have hfn : f.name = p!"ref" := by
            simp [classDef, defReference] at hf; rw [hf]
          exfalso
          simp only [if_true] at hv
          subst hv
          obtain ⟨s, fs2, ex2, set2, e2, href⟩ := ref_of_inst hs
          cases e2
          obtain ⟨⟨k, x⟩, hx, e⟩ := List.mem_map.1 hm
          have hk : k = p!"ref" := by have := congrArg Prod.fst e; rw [onRef_fst] at this; exact this.trans hfn
          subst hk
          cases dict_unique (inst_nodup hs) hx href
          simp only [onRef, if_true, Prod.mk.injEq] at e
          obtain ⟨_, rfl⟩ := e
          cases h2 with
          | nil => obtain ⟨_, _, _, e, _⟩ := hr; cases e
          | cons h _ => cases h
        · simp only [hc, if_false] at hv
          subst hv
          obtain ⟨k, x, hx, e⟩ := recast_fields.1 hm
          obtain ⟨rfl, rfl⟩ := Prod.mk.inj e
          have hch : TChild (.inst c fs' ex set) (.field f.name) x := .field hf he hx fun e => hne (by rw [e]; simp only [recast])
          obtain ⟨steps, w, s, h3, h4, h5, h6⟩ := ih (sound_within hs (tchild_within hch)) h2 hr
          exact ⟨.field f.name :: steps, w, s, .cons hch h3, h4, h5, by rw [h6]; rfl⟩

end Verif.Props
