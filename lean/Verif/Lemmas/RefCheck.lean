import Verif.Lemmas.RefPlaces
/-! What the two validators check of one reference string. -/
namespace Verif.RefV
open Verif Verif.Spec Verif.Gen Verif.Resolve
variable {n : Nat} {D : Doc Cls n}

/-- The check as a function of the description and the string. -/
def checkStr (D : Doc Cls n) (F pre context s : Str) : Out :=
  if Str.startsWith s p!"#" then
    if Str.startsWith s pre then whenKeyExists D F (Str.replace s pre []) context
    else .fail (.pointsElsewhere context s)
  else ⟨[(context, s)], .ok ()⟩

theorem validateRef_eq (W : WF table D) (F pre context : Str) (v : Val n) (s : Str)
    (h : IsReference table D v s) : validateRef D F pre context v = checkStr D F pre context s := by
  simp only [validateRef, attr, isReference_getattr W h, checkStr]

theorem deleted_iff {pre : Str} (hp : pre ≠ []) (s r : Str) :
    Deleted pre s r ↔ Str.replace s pre [] = r := by
  have skip : ∀ (k : Nat) (l : Str), Str.replaceAux pre [] k l = Str.replaceAux pre [] 0 (l.drop k) := by
    intro k l
    induction l generalizing k with
    | nil => simp [Str.replaceAux]
    | cons c cs ih =>
      cases k with
      | zero => simp
      | succ k => simp only [Str.replaceAux, List.drop_succ_cons]; exact ih k
  have hit : ∀ s, Str.replaceAux pre [] 0 (pre ++ s) = Str.replaceAux pre [] 0 s := by
    intro s
    cases pre with
    | nil => exact absurd rfl hp
    | cons c cs =>
      simp only [List.cons_append, Str.replaceAux]
      rw [if_pos (by rw [List.isPrefixOf_iff_prefix]; exact ⟨s, by simp⟩)]
      rw [skip]; simp
  unfold Str.replace
  constructor
  · intro h
    induction h with
    | nil => rfl
    | hit _ ih => rw [hit]; exact ih
    | miss h1 _ ih =>
      simp only [Str.replaceAux]
      rw [if_neg (by rw [List.isPrefixOf_iff_prefix]; exact h1), ih]
  · generalize hm : s.length = m
    induction m using Nat.strongRecOn generalizing s r with
    | ind m ih =>
    intro h
    by_cases hpre : pre <+: s
    · obtain ⟨t, rfl⟩ := hpre
      rw [hit] at h
      have : 0 < pre.length := List.length_pos_of_ne_nil hp
      exact .hit (ih t.length (by simp at hm; omega) t r rfl h)
    · cases s with
      | nil => simp [Str.replaceAux] at h; subst h; exact .nil
      | cons c cs =>
        simp only [Str.replaceAux] at h
        rw [if_neg (by rw [List.isPrefixOf_iff_prefix]; exact hpre)] at h
        subst h
        exact .miss hpre (ih cs.length (by simp at hm; omega) cs _ rfl rfl)

theorem replace_hit {pre : Str} (hp : pre ≠ []) (s : Str) :
    Str.replace (pre ++ s) pre [] = Str.replace s pre [] :=
  (deleted_iff hp _ _).1 (.hit ((deleted_iff hp _ _).2 rfl))

theorem startsWith_iff (s pre : Str) : Str.startsWith s pre = true ↔ ∃ t, s = pre ++ t := by
  unfold Str.startsWith
  rw [List.isPrefixOf_iff_prefix]
  constructor
  · rintro ⟨t, h⟩; exact ⟨t, h.symm⟩
  · rintro ⟨t, h⟩; exact ⟨t, h.symm⟩

theorem startsWith_hash (s : Str) : Str.startsWith s p!"#" = true ↔ ¬ NotHash s := by
  rw [startsWith_iff]
  simp [NotHash]

/-! ### The component lookup -/

/-- One step to a declared field. -/
theorem descends_field (T : Typed D) {c : Cls} {a b : Fin n} {fs ex} (h : D.node a = .model c fs ex)
    (hc : c ≠ .Reference) {i : Nat} {fd : FieldDef Cls} (hf : (classDef c).fields[i]? = some fd)
    (hx : fd.exclude = false) {v : Val n} (hv : (fd.name, v) ∈ fs) (rest : List LocStep) :
    Descends table D a (.field fd.name :: rest) b ↔ ∃ a', v = .ptr a' ∧ Descends table D a' rest b := by
  have hm : fd ∈ (classDef c).fields := List.mem_of_getElem? hf
  constructor
  · intro hd
    generalize hst : LocStep.field fd.name :: rest = steps at hd
    cases hd with
    | nil => cases hst
    | cons h1 h2 h3 =>
      cases hst
      generalize hst' : LocStep.field fd.name = st at h2
      generalize hw : Val.ptr _ = w at h2
      cases h2 with
      | item => cases hst'
      | entry => cases hst'
      | field e1 e2 e3 e4 e5 =>
        cases e1.symm.trans h
        injection hst' with hst'
        rw [← hst'] at e4
        have e1 := (lookup_iff (T.wf.fieldKeys _ _ _ _ h)).2 e4
        have e2 := (lookup_iff (T.wf.fieldKeys _ _ _ _ h)).2 hv
        rw [e1] at e2; cases e2
        exact ⟨_, hw.symm, h3⟩
  · rintro ⟨a', rfl, hd⟩
    refine .cons ?_ (.field (f := ⟨fd.name, fd.alias, fd.exclude⟩) h
      (List.mem_map.2 ⟨fd, hm, rfl⟩) hx hv (by simp)) hd
    rintro r ⟨a', c', fs', ex', e, h', hs, _⟩
    cases e; cases h'.symm.trans h
    exact hc (by simpa [table] using hs)

/-- `F` is a collection of the components. -/
structure IsColl (F : Str) (i : Nat) (coll : Cls) (t : Ty Cls) : Prop where
  field : ∃ al, (classDef .Components).fields[i]? = some ⟨F, al, .union [.model coll, .none], .null, false, true, none⟩
  root : (classDef coll).fields[0]? = some ⟨p!"root", none, .dict t, .required, false, false, none⟩
  kind : (classDef coll).kind = .patterned

theorem fits_opt {c : Cls} {v : Val n} (h : Fits D (.union [.model c, .none]) v) :
    v = .none ∨ ∃ a fs ex, v = .ptr a ∧ D.node a = .model c fs ex := by
  cases h with
  | scalar h => exact h.elim
  | union hm hf =>
    simp only [List.mem_cons, List.not_mem_nil, or_false] at hm
    rcases hm with rfl | rfl
    · cases hf with
      | scalar h => exact h.elim
      | model hn => exact .inr ⟨_, _, _, rfl, hn⟩
    · cases hf with
      | scalar h => exact h.elim
      | none => exact .inl rfl

open Classical in
theorem whenKeyExists_eq (T : Typed D) {F : Str} {i coll t} (C : IsColl F i coll t) (key context : Str) :
    whenKeyExists D F key context = if ComponentKey D F key then .ok else .fail (.missing context key) := by
  obtain ⟨fs, ex, hs⟩ := T.root
  obtain ⟨al, hF⟩ := C.field
  obtain ⟨hcr, _⟩ := patterned_fields _ C.kind
  obtain ⟨v, hv, hfit, hget⟩ := field_value T hs (i := 7) (fd := ⟨p!"components", none,
    .union [.model .Components, .none], .null, false, true, none⟩) rfl
  have hstep := fun b rest => descends_field T hs (by decide) (i := 7) (b := b) (fd := ⟨p!"components", none,
    .union [.model .Components, .none], .null, false, true, none⟩) rfl rfl hv rest
  simp only at hget hstep hv hfit
  simp only [whenKeyExists, attr, hget]
  rcases fits_opt hfit with rfl | ⟨a, fs1, ex1, rfl, hn1⟩
  · have hnk : ¬ ComponentKey D F key := by
      rintro ⟨_, b, hd, _⟩
      obtain ⟨a', e, _⟩ := (hstep _ _).1 hd
      cases e
    rw [if_neg hnk]; simp [truthy]
  have ht1 : truthy D (.ptr a) = true := by
    simp only [truthy, hn1]
    rw [if_neg (by decide)]
  obtain ⟨v2, hv2, hfit2, hget2⟩ := field_value T hn1 hF
  have hstep2 := fun b rest => descends_field T hn1 (by decide) (b := b) hF rfl hv2 rest
  simp only at hget2 hstep2 hv2 hfit2
  simp only [ht1, if_true, hget2]
  rcases fits_opt hfit2 with rfl | ⟨a2, fs2, ex2, rfl, hn2⟩
  · have hnk : ¬ ComponentKey D F key := by
      rintro ⟨_, b, hd, _⟩
      obtain ⟨a', e, hd⟩ := (hstep _ _).1 hd
      cases e
      obtain ⟨a', e, _⟩ := (hstep2 _ _).1 hd
      cases e
    rw [if_neg hnk]; simp [truthy]
  obtain ⟨v3, hv3, hfit3, hget3⟩ := field_value T hn2 C.root
  have hstep3 := fun b rest => descends_field T hn2 hcr (b := b) C.root rfl hv3 rest
  simp only at hget3 hstep3 hv3 hfit3
  cases hfit3 with
  | scalar h => exact h.elim
  | @dict _ a3 kvs hn3 hx =>
  have hkey : ComponentKey D F key ↔ ∃ w, (key, w) ∈ kvs := by
    constructor
    · rintro ⟨w, b, hd, hch⟩
      obtain ⟨a', e, hd⟩ := (hstep _ _).1 hd
      cases e
      obtain ⟨a', e, hd⟩ := (hstep2 _ _).1 hd
      cases e
      obtain ⟨a', e, hd⟩ := (hstep3 _ _).1 hd
      cases e
      cases hd
      cases hch with
      | entry h1 h2 => rw [hn3] at h1; cases h1; exact ⟨w, h2⟩
    · rintro ⟨w, hw⟩
      exact ⟨w, a3, (hstep _ _).2 ⟨a, rfl, (hstep2 _ _).2 ⟨a2, rfl, (hstep3 _ _).2 ⟨a3, rfl, .nil⟩⟩⟩,
        .entry hn3 hw⟩
  have hlook : (lookup key kvs).isSome = true ↔ ∃ w, (key, w) ∈ kvs := by
    rw [Option.isSome_iff_exists]
    constructor
    · rintro ⟨w, hw⟩; exact ⟨w, lookup_some_mem hw⟩
    · rintro ⟨w, hw⟩; exact ⟨w, (lookup_iff (T.wf.dictKeys _ _ hn3)).2 hw⟩
  have hroot : lookup p!"root" fs2 = some (.ptr a3) := (lookup_iff (T.wf.fieldKeys _ _ _ _ hn2)).2 hv3
  have hd3 : D.asDict (.ptr a3) = some kvs := by simp [Doc.asDict, hn3]
  by_cases hne : kvs = []
  · subst hne
    have : truthy D (.ptr a2) = false := by
      simp [truthy, hn2, C.kind, hroot, hd3]
    rw [if_neg (by rw [this]; decide), if_neg (by rw [hkey]; simp)]
  · have : truthy D (.ptr a2) = true := by
      simp [truthy, hn2, C.kind, hroot, hd3, hne]
    rw [if_pos this, hget3]
    simp only [hd3, hlook, hkey]

theorem isColl_tags : IsColl p!"tags" 12 .ComponentsTags (.union [.model .Tag, .model .Reference]) :=
  ⟨⟨_, rfl⟩, rfl, rfl⟩

theorem isColl_docs : IsColl p!"external_docs" 11 .ExternalDocs
    (.union [.model .ExternalDocumentation, .model .Reference]) :=
  ⟨⟨_, rfl⟩, rfl, rfl⟩

/-- The error raised for a string that does not pass: it starts with `#` but not with `pre`, or what is left of it when
`pre` is deleted is reported missing. -/
def Blames (pre context s : Str) (e : Err) : Prop :=
  ((∀ rest, s ≠ pre ++ rest) ∧ e = .pointsElsewhere context s) ∨
    ∃ rest key, s = pre ++ rest ∧ Deleted pre rest key ∧ e = .missing context key

theorem checkStr_cases (T : Typed D) {F pre : Str} {i coll t} (C : IsColl F i coll t) {p : Str} (hp : pre = '#' :: p)
    (context s : Str) :
    (NotHash s ∧ checkStr D F pre context s = ⟨[(context, s)], .ok ()⟩) ∨
    (¬ NotHash s ∧ Checked D F pre s ∧ checkStr D F pre context s = .ok) ∨
    (¬ NotHash s ∧ ¬ Checked D F pre s ∧ ∃ e, checkStr D F pre context s = .fail e ∧ Blames pre context s e) := by
  have hpre : pre ≠ [] := by rw [hp]; simp
  unfold checkStr
  by_cases h : NotHash s
  · left; refine ⟨h, ?_⟩
    rw [if_neg (by rw [startsWith_hash]; simpa using h)]
  · rw [if_pos ((startsWith_hash s).2 h)]
    right
    by_cases h2 : ∃ t, s = pre ++ t
    · rw [if_pos ((startsWith_iff _ _).2 h2)]
      obtain ⟨rest, rfl⟩ := h2
      rw [replace_hit hpre, whenKeyExists_eq T C]
      by_cases hk : ComponentKey D F (Str.replace rest pre [])
      · left; exact ⟨h, .inr ⟨rest, _, rfl, (deleted_iff hpre _ _).2 rfl, hk⟩, if_pos hk⟩
      · right
        refine ⟨h, ?_, _, if_neg hk, .inr ⟨rest, _, rfl, (deleted_iff hpre _ _).2 rfl, rfl⟩⟩
        rintro (h' | ⟨rest', key, e, hd, hck⟩)
        · exact h h'
        · obtain rfl := List.append_cancel_left e
          rw [(deleted_iff hpre _ _).1 hd] at hk
          exact hk hck
    · right
      rw [if_neg (by rw [startsWith_iff]; exact h2)]
      refine ⟨h, ?_, _, rfl, .inl ⟨fun t e => h2 ⟨t, e⟩, rfl⟩⟩
      rintro (h' | ⟨rest', key, e, _⟩)
      · exact h h'
      · exact h2 ⟨_, e⟩

open Classical in
/-- The outcome of checking a list of references. -/
theorem run_list (T : Typed D) {F pre : Str} {i coll t} (C : IsColl F i coll t) {p : Str} (hp : pre = '#' :: p)
    (ctx : List LocStep → Str) (L : List (List LocStep × Str)) {o : Out}
    (h : Runs (fun steps => checkStr D F pre (ctx steps)) o L) :
    (o.res = .ok () ↔ ∀ x ∈ L, Checked D F pre x.2) ∧
    (∀ e, o.res = .error e → ∃ x ∈ L, ¬ Checked D F pre x.2 ∧ Blames pre (ctx x.1) x.2 e) ∧
    o.warn = ((L.takeWhile fun x => decide (Checked D F pre x.2)).filter fun x => decide (NotHash x.2)).map
      fun x => (ctx x.1, x.2) := by
  unfold Runs at h
  subst h
  induction L with
  | nil => simp [seqAll, Out.ok]
  | cons x xs ih =>
    obtain ⟨ih1, ih2, ih3⟩ := ih
    simp only [List.map_cons, seqAll, List.mem_cons, forall_eq_or_imp, exists_eq_or_imp]
    rcases checkStr_cases T C hp (ctx x.1) x.2 with ⟨h1, h2⟩ | ⟨h1, h2, h3⟩ | ⟨h1, h2, e, h3, h4⟩
    · have hck : Checked D F pre x.2 := .inl h1
      simp only [h2, Out.andThen, hck, true_and, not_true, false_and, false_or]
      exact ⟨ih1, ih2, by simp [h1, hck, ih3]⟩
    · simp only [h3, andThen_ok, h2, true_and, not_true, false_and, false_or]
      exact ⟨ih1, ih2, by simp [h1, h2, ih3]⟩
    · simp only [h3, Out.fail, Out.andThen, h2, false_and, iff_false, not_false_eq_true, true_and]
      refine ⟨by simp, ?_, by simp [h2]⟩
      intro e' he'
      cases he'
      exact .inl h4

end Verif.RefV
