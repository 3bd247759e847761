import Verif.Lemmas.Str
import Verif.Model.Resolve
import Verif.Spec.Resolve
import Mathlib.Data.List.Nodup
import Mathlib.Data.List.Perm.Subperm
/-! Lemmas connecting `Verif.Resolve` with `Verif.Spec`. -/
namespace Verif
open Verif.Spec

variable {C : Type} {n : Nat}

theorem lookup_some_mem {β : Type} {k : Str} {l : List (Str × β)} {v : β}
    (h : lookup k l = some v) : (k, v) ∈ l := by
  induction l with
  | nil => simp [lookup] at h
  | cons p ps ih =>
    obtain ⟨k', v'⟩ := p
    simp only [lookup] at h
    split at h
    · rename_i e; subst e; cases h; simp
    · exact List.mem_cons_of_mem _ (ih h)

theorem lookup_none {β : Type} {k : Str} {l : List (Str × β)} :
    lookup k l = none ↔ ∀ v, (k, v) ∉ l := by
  induction l with
  | nil => simp [lookup]
  | cons p ps ih =>
    obtain ⟨k', v'⟩ := p
    simp only [lookup]
    split
    · rename_i e; subst e
      simp only [reduceCtorEq, false_iff, not_forall, not_not]
      exact ⟨v', by simp⟩
    · rename_i e
      rw [ih]
      simp only [List.mem_cons, Prod.mk.injEq, not_or, not_and]
      exact ⟨fun h v => ⟨fun e' => absurd e'.symm e, h v⟩, fun h v => (h v).2⟩

theorem lookup_iff {β : Type} {k : Str} {l : List (Str × β)} {v : β}
    (hn : (l.map Prod.fst).Nodup) : lookup k l = some v ↔ (k, v) ∈ l := by
  refine ⟨lookup_some_mem, fun h => ?_⟩
  induction l with
  | nil => simp at h
  | cons p ps ih =>
    obtain ⟨k', v'⟩ := p
    simp only [List.map_cons, List.nodup_cons] at hn
    simp only [lookup]
    rcases List.mem_cons.1 h with e | h'
    · cases e; simp
    · split
      · rename_i e; subst e
        exact absurd (List.mem_map.2 ⟨_, h', rfl⟩) hn.1
      · exact ih hn.2 h'

namespace Resolve

theorem isExternal_iff (ref : Str) : isExternal ref = true ↔ External ref := by
  simp only [isExternal, External, Str.startsWith, Bool.or_eq_true, List.isPrefixOf_iff_prefix]
  constructor
  · rintro (⟨t, h⟩ | ⟨t, h⟩)
    · exact .inl ⟨t, h.symm⟩
    · exact .inr ⟨t, h.symm⟩
  · rintro (⟨t, h⟩ | ⟨t, h⟩)
    · exact .inl ⟨t, h.symm⟩
    · exact .inr ⟨t, h.symm⟩

/-- The path spelled by a reference string. -/
def segsOf (ref : Str) : List Str := Str.pieces '/' (ref.drop 1)

theorem spells_iff (ref : Str) (segs : List Str) :
    Spells ref segs ↔ ref.startsWith p!"#" = true ∧ segs = segsOf ref ∧ segs ≠ [] := by
  constructor
  · rintro ⟨ps, rfl, hs, rfl, hne⟩
    refine ⟨by simp [Str.startsWith], ?_, hne⟩
    have : ps ≠ [] := by rintro rfl; simp at hne
    simp [segsOf, Str.pieces, Str.split_join this hs]
  · rintro ⟨h1, rfl, hne⟩
    refine ⟨Str.split '/' (ref.drop 1), ?_, Str.split_no_sep _ _, rfl, hne⟩
    rw [Str.join_split]
    cases ref with
    | nil => simp [Str.startsWith] at h1
    | cons x xs => simp [Str.startsWith] at h1; simp [← h1]

theorem spells_unique {ref : Str} {s t : List Str} (h1 : Spells ref s) (h2 : Spells ref t) :
    s = t := by
  rw [spells_iff] at h1 h2; rw [h1.2.1, h2.2.1]

theorem spells_not_external {ref : Str} {segs} (h : Spells ref segs) : ¬ External ref := by
  obtain ⟨ps, rfl, -⟩ := h
  rintro (⟨s, h⟩ | ⟨s, h⟩) <;> simp at h

theorem startsWith_hash (ref : Str) : ref.startsWith p!"#" = true ↔ ∃ rest, ref = '#' :: rest := by
  cases ref with
  | nil => simp [Str.startsWith]
  | cons x xs =>
    simp only [Str.startsWith, List.isPrefixOf_iff_prefix]
    constructor
    · rintro ⟨t, h⟩; exact ⟨t, h.symm⟩
    · rintro ⟨t, h⟩; exact ⟨t, h.symm⟩

/-- Outcome of parsing. -/
theorem parsePath_spec (ref : Str) :
    (∃ parts, parsePath ref = .ok parts ∧
        Spells ref (parts.filter (fun p => decide (p ≠ [])))) ∨
    ((∀ segs, ¬ Spells ref segs) ∧
      (parsePath ref = .error (.valueError (.unsupported ref)) ∧ ¬ ref.startsWith p!"#" = true ∨
       parsePath ref = .error (.valueError (.invalidPath ref)) ∧ ∃ rest, ref = '#' :: rest ∧ ∀ c ∈ rest, c = '/')) := by
  unfold parsePath
  by_cases h : ref.startsWith p!"#" = true
  · simp only [h, Bool.not_true, Bool.false_eq_true, if_false]
    have hiff := Str.strip_split_nil_iff '/' (ref.drop 1)
    by_cases hp : Str.pieces '/' (ref.drop 1) = []
    · right
      rw [if_pos (hiff.2 hp)]
      obtain ⟨rest, rfl⟩ := (startsWith_hash ref).1 h
      refine ⟨?_, .inr ⟨rfl, rest, rfl, Str.pieces_nil (by simpa using hp)⟩⟩
      intro segs hs
      rw [spells_iff] at hs
      exact hs.2.2 (by rw [hs.2.1]; exact hp)
    · left
      rw [if_neg (fun h => hp (hiff.1 h))]
      refine ⟨_, rfl, ?_⟩
      have e : (Str.split '/' (Str.strip '/' (ref.drop 1))).filter (fun p => decide (p ≠ []))
        = segsOf ref := by
        have := Str.pieces_strip '/' (ref.drop 1)
        simpa [Str.pieces, segsOf] using this
      rw [e, spells_iff]
      exact ⟨h, rfl, hp⟩
  · right
    simp only [Bool.not_eq_true] at h
    simp only [h, Bool.not_false, if_true]
    refine ⟨?_, by simp⟩
    intro segs hs
    rw [spells_iff, h] at hs
    simp at hs

theorem findField_some {part : Str} {fs : List FieldInfo} {name : Str}
    (h : findField part fs = some name) :
    ∃ f ∈ fs, f.name = name ∧ (f.name = part ∨ f.alias = some part) := by
  induction fs with
  | nil => simp [findField] at h
  | cons f rest ih =>
    simp only [findField] at h
    split at h
    · rename_i e; cases h; exact ⟨f, by simp, rfl, .inl e⟩
    · split at h
      · rename_i e; cases h; exact ⟨f, by simp, rfl, .inr e⟩
      · obtain ⟨g, hg, h'⟩ := ih h
        exact ⟨g, by simp [hg], h'⟩

theorem findField_none {part : Str} {fs : List FieldInfo} :
    findField part fs = none ↔ ∀ f ∈ fs, ¬ (f.name = part ∨ f.alias = some part) := by
  induction fs with
  | nil => simp [findField]
  | cons f rest ih =>
    simp only [findField]
    split
    · rename_i e; simp [e]
    · split
      · rename_i e; simp [e]
      · rename_i e1 e2; simp [e1, e2, ih]

section wf
variable {T : ClassTable C} {D : Doc C n} (W : WF T D)
include W

theorem getattr_field {a : Fin n} {c fs ex k v} (h : D.node a = .model c fs ex)
    (hm : (k, v) ∈ fs) : D.getattr (.ptr a) k = some v := by
  simp only [Doc.getattr, h]
  rw [(lookup_iff (W.fieldKeys a c fs ex h)).2 hm]

omit W in
theorem getattr_cases {a : Fin n} {c fs ex k v} (h : D.node a = .model c fs ex)
    (hg : D.getattr (.ptr a) k = some v) :
    (k, v) ∈ fs ∨ ((∀ w, (k, w) ∉ fs) ∧ (k, v) ∈ ex) := by
  simp only [Doc.getattr, h] at hg
  split at hg
  · cases hg; exact .inl (lookup_some_mem (by assumption))
  · exact .inr ⟨lookup_none.1 (by assumption), lookup_some_mem hg⟩

theorem getattr_iff {a : Fin n} {c fs ex k v} (h : D.node a = .model c fs ex) :
    D.getattr (.ptr a) k = some v ↔
    (k, v) ∈ fs ∨ ((∀ w, (k, w) ∉ fs) ∧ (k, v) ∈ ex) := by
  refine ⟨getattr_cases h, ?_⟩
  rintro (hm | ⟨hn, hm⟩)
  · exact getattr_field W h hm
  · simp only [Doc.getattr, h, lookup_none.2 hn]
    exact (lookup_iff (W.extraKeys a c fs ex h)).2 hm

theorem rootMapping_iff (a : Fin n) (kvs) :
    rootMapping D (.ptr a) = some kvs ↔ RootDict D a kvs := by
  cases hn : D.node a with
  | list _ => simp [rootMapping, Doc.getattr, hn, RootDict]
  | dict _ => simp [rootMapping, Doc.getattr, hn, RootDict]
  | model c fs ex =>
    constructor
    · intro h
      unfold rootMapping at h
      split at h
      · rename_i r hr
        have := getattr_cases hn hr
        cases r with
        | ptr b =>
          simp only [Doc.asDict] at h
          split at h
          · rename_i kvs' hb; cases h; exact ⟨c, fs, ex, b, hn, hb, this⟩
          · simp at h
        | _ => simp [Doc.asDict] at h
      · simp at h
    · rintro ⟨c', fs', ex', b, h1, h2, h3⟩
      rw [hn] at h1; cases h1
      simp [rootMapping, (getattr_iff W hn).2 h3, Doc.asDict, h2]

omit W in
theorem rootMapping_nonptr {v : Val n} (h : ∀ a, v ≠ .ptr a) : rootMapping D v = none := by
  cases v <;> first | rfl | exact absurd rfl (h _)

theorem rootMapping_none (a : Fin n) :
    rootMapping D (.ptr a) = none ↔ ∀ kvs, ¬ RootDict D a kvs := by
  constructor
  · intro h kvs hr
    rw [(rootMapping_iff W a kvs).2 hr] at h; cases h
  · intro h
    cases hr : rootMapping D (.ptr a) with
    | none => rfl
    | some kvs => exact absurd ((rootMapping_iff W a kvs).1 hr) (h kvs)

theorem rootDict_nodup {a : Fin n} {kvs} (h : RootDict D a kvs) : (kvs.map Prod.fst).Nodup := by
  obtain ⟨_, _, _, b, _, h2, _⟩ := h
  exact W.dictKeys b kvs h2

theorem rootDict_unique {a : Fin n} {kvs kvs'} (h : RootDict D a kvs) (h' : RootDict D a kvs') :
    kvs = kvs' := by
  rw [← rootMapping_iff W] at h h'
  rw [h] at h'; cases h'; rfl

/-- `resolvePart` succeeds exactly along `Step`. -/
theorem resolvePart_ok (U : Unambiguous T) (v : Val n) (part path : Str) (w : Val n)
    (ty : PyType C) :
    resolvePart T D v part path = .ok (w, ty) ↔
    (∃ a, v = .ptr a ∧ Step T D a part w) ∧ ty = D.typeOf w := by
  have dictCase : ∀ kvs : List (Str × Val n), (kvs.map Prod.fst).Nodup →
      (resolveFromDict D kvs part path = .ok (w, ty) ↔ (part, w) ∈ kvs ∧ ty = D.typeOf w) := by
    intro kvs hnd
    unfold resolveFromDict
    rw [← lookup_iff hnd]
    split
    · rename_i h; simp [h]
    · rename_i u h
      simp only [h, Except.ok.injEq, Prod.mk.injEq, Option.some.injEq]
      constructor
      · rintro ⟨rfl, rfl⟩; exact ⟨rfl, rfl⟩
      · rintro ⟨rfl, rfl⟩; exact ⟨rfl, rfl⟩
  cases v with
  | ptr a =>
    simp only [Val.ptr.injEq, exists_eq_left']
    unfold resolvePart
    cases hr : rootMapping D (.ptr a) with
    | some kvs =>
      have hR := (rootMapping_iff W a kvs).1 hr
      simp only
      rw [dictCase kvs (rootDict_nodup W hR)]
      refine and_congr_left fun _ => ⟨fun h => .root hR h, fun h => ?_⟩
      cases h with
      | root h1 h2 => rwa [rootDict_unique W h1 hR] at h2
      | dict h1 _ => obtain ⟨_, _, _, _, h, _⟩ := hR; rw [h] at h1; cases h1
      | field _ h2 => exact absurd hR (h2 _)
    | none =>
      have hR := (rootMapping_none W a).1 hr
      simp only
      cases hn : D.node a with
      | list _ =>
        simp only [Doc.asModel, Doc.asDict, hn]
        constructor
        · intro h; cases h
        · rintro ⟨h, -⟩
          cases h with
          | root h1 _ => exact absurd h1 (hR _)
          | dict h1 _ => rw [hn] at h1; cases h1
          | field h1 _ => rw [hn] at h1; cases h1
      | dict kvs =>
        simp only [Doc.asModel, Doc.asDict, hn]
        rw [dictCase kvs (W.dictKeys a kvs hn)]
        refine and_congr_left fun _ => ⟨fun h => .dict hn h, fun h => ?_⟩
        cases h with
        | root h1 _ => exact absurd h1 (hR _)
        | dict h1 h2 => rw [hn] at h1; cases h1; exact h2
        | field h1 _ => rw [hn] at h1; cases h1
      | model c fs ex =>
        simp only [Doc.asModel, hn]
        unfold resolveFromModel
        cases hf : findField part (T.fields c) with
        | none =>
          simp only
          constructor
          · intro h; cases h
          · rintro ⟨h, -⟩
            cases h with
            | root h1 _ => exact absurd h1 (hR _)
            | dict h1 _ => rw [hn] at h1; cases h1
            | field h1 _ h3 h4 =>
              rw [hn] at h1; cases h1
              exact absurd h4 (findField_none.1 hf _ h3)
        | some name =>
          obtain ⟨f, hfm, rfl, hname⟩ := findField_some hf
          obtain ⟨u, hu⟩ := W.declared a c fs ex hn f hfm
          simp only [getattr_field W hn hu]
          have uniq : ∀ {w'}, (f.name, w') ∈ fs → w' = u := by
            intro w' hw'
            rw [← lookup_iff (W.fieldKeys a c fs ex hn)] at hw' hu
            rw [hw'] at hu; cases hu; rfl
          have stepIff : Step T D a part w ↔ u ≠ .none ∧ w = u := by
            constructor
            · intro h
              cases h with
              | root h1 _ => exact absurd h1 (hR _)
              | dict h1 _ => rw [hn] at h1; cases h1
              | field h1 _ h3 h4 h5 h6 =>
                rw [hn] at h1; cases h1
                have := U _ _ h3 _ hfm part h4 hname
                subst this
                have := uniq h5
                subst this
                exact ⟨h6, rfl⟩
            · rintro ⟨h, rfl⟩
              exact .field hn hR hfm hname hu h
          rw [stepIff]
          split
          · rename_i e; subst e; simp
          · rename_i e
            simp only [Except.ok.injEq, Prod.mk.injEq, ne_eq, e, not_false_eq_true, true_and]
            constructor
            · rintro ⟨rfl, rfl⟩; exact ⟨rfl, rfl⟩
            · rintro ⟨rfl, rfl⟩; exact ⟨rfl, rfl⟩
  | _ =>
    simp [resolvePart, rootMapping_nonptr, Doc.asModel, Doc.asDict]

/-- Why there is no step `part` from `v`, and what the message says. -/
inductive Stuck (T : ClassTable C) (D : Doc C n) (part path : Str) : Val n → Msg → Prop
  | root {a kvs} : RootDict D a kvs → (∀ w, (part, w) ∉ kvs) → Stuck T D part path (.ptr a) (.keyNotFound part path)
  | dict {a kvs} : D.node a = .dict kvs → (∀ w, (part, w) ∉ kvs) → Stuck T D part path (.ptr a) (.keyNotFound part path)
  | field {a c fs ex} : D.node a = .model c fs ex → (∀ kvs, ¬ RootDict D a kvs) →
      (∀ f ∈ T.fields c, ¬ (f.name = part ∨ f.alias = some part)) → Stuck T D part path (.ptr a) (.fieldNotFound part path)
  | null {a c fs ex f} : D.node a = .model c fs ex → (∀ kvs, ¬ RootDict D a kvs) → f ∈ T.fields c →
      (f.name = part ∨ f.alias = some part) → (f.name, .none) ∈ fs → Stuck T D part path (.ptr a) (.isNone path)
  | other {v} : D.asModel v = none → D.asDict v = none → Stuck T D part path v (.cannotNavigate part path)

omit W in
theorem stuck_not_circular {part path : Str} {v : Val n} {m : Msg} (h : Stuck T D part path v m) : ∀ r, m ≠ .circular r := by
  intro r; cases h <;> simp

theorem resolvePart_stuck (v : Val n) (part path : Str) (e : Exc)
    (h : resolvePart T D v part path = .error e) : ∃ m, e = .valueError m ∧ Stuck T D part path v m := by
  have dictCase : ∀ kvs : List (Str × Val n),
      resolveFromDict D kvs part path = .error e → e = .valueError (.keyNotFound part path) ∧ ∀ w, (part, w) ∉ kvs := by
    intro kvs h
    unfold resolveFromDict at h
    split at h <;> cases h
    rename_i hl
    exact ⟨rfl, fun w hw => lookup_none.1 hl w hw⟩
  unfold resolvePart at h
  cases hr : rootMapping D v with
  | some kvs =>
    rw [hr] at h
    obtain ⟨rfl, hk⟩ := dictCase _ h
    cases v with
    | ptr a => exact ⟨_, rfl, .root ((rootMapping_iff W a kvs).1 hr) hk⟩
    | _ => rw [rootMapping_nonptr (by simp)] at hr; cases hr
  | none =>
    rw [hr] at h
    simp only at h
    cases hc : D.asModel v with
    | some c =>
      rw [hc] at h
      simp only at h
      cases v with
      | ptr a =>
        have hR := (rootMapping_none W a).1 hr
        simp only [Doc.asModel] at hc
        split at hc
        · rename_i c' fs ex hn
          cases hc
          unfold resolveFromModel at h
          split at h
          · rename_i hf
            cases h
            exact ⟨_, rfl, .field hn hR (findField_none.1 hf)⟩
          · rename_i name hf
            obtain ⟨f, hfm, rfl, hname⟩ := findField_some hf
            obtain ⟨u, hu⟩ := W.declared a _ fs ex hn f hfm
            rw [getattr_field W hn hu] at h
            simp only at h
            split at h
            · rename_i hu'
              cases h
              exact ⟨_, rfl, .null hn hR hfm hname (hu' ▸ hu)⟩
            · cases h
        · cases hc
      | _ => simp [Doc.asModel] at hc
    | none =>
      rw [hc] at h
      simp only at h
      cases hd : D.asDict v with
      | some kvs =>
        rw [hd] at h
        obtain ⟨rfl, hk⟩ := dictCase _ h
        cases v with
        | ptr a =>
          simp only [Doc.asDict] at hd
          split at hd
          · rename_i hn; cases hd; exact ⟨_, rfl, .dict hn hk⟩
          · cases hd
        | _ => simp [Doc.asDict] at hd
      | none =>
        rw [hd] at h
        cases h
        exact ⟨_, rfl, .other hc hd⟩

theorem resolvePart_err (v : Val n) (part path : Str) (e : Exc)
    (h : resolvePart T D v part path = .error e) : ∃ m, e = .valueError m ∧ ∀ r, m ≠ .circular r := by
  obtain ⟨m, rfl, hm⟩ := resolvePart_stuck W v part path e h
  exact ⟨m, rfl, stuck_not_circular hm⟩

omit W in
theorem resolveLoop_filter (parts : List Str) (v : Val n) (ty : PyType C) (path : Str) :
    resolveLoop T D parts v ty path =
      resolveLoop T D (parts.filter (fun p => decide (p ≠ []))) v ty path := by
  induction parts generalizing v ty path with
  | nil => rfl
  | cons p ps ih =>
    by_cases hp : p = []
    · subst hp; simpa [resolveLoop] using ih v ty path
    · simp only [ne_eq, hp, not_false_eq_true, decide_true, List.filter_cons_of_pos,
        resolveLoop, if_false]
      split
      · rfl
      · exact ih _ _ _

theorem step_deterministic (U : Unambiguous T) {a : Fin n} {part v w}
    (h1 : Step T D a part v) (h2 : Step T D a part w) : v = w := by
  have e1 := (resolvePart_ok W U (.ptr a) part [] v (D.typeOf v)).2 ⟨⟨a, rfl, h1⟩, rfl⟩
  have e2 := (resolvePart_ok W U (.ptr a) part [] w (D.typeOf w)).2 ⟨⟨a, rfl, h2⟩, rfl⟩
  rw [e1] at e2; cases e2; rfl

/-- Path text recorded by the loop. -/
def pathText (path : Str) (segs : List Str) : Str :=
  segs.foldl (fun p s => p ++ '.' :: s) path

theorem resolveLoop_ok (U : Unambiguous T) {parts : List Str} (hne : ∀ p ∈ parts, p ≠ [])
    (v : Val n) (path : Str) (w : Val n) (tw : PyType C) (pw : Str) :
    resolveLoop T D parts v (D.typeOf v) path = .ok (w, tw, pw) ↔
      Walk T D v parts w ∧ tw = D.typeOf w ∧ pw = pathText path parts := by
  induction parts generalizing v path with
  | nil =>
    simp only [resolveLoop, pathText, List.foldl_nil, Except.ok.injEq, Prod.mk.injEq]
    constructor
    · rintro ⟨rfl, rfl, rfl⟩; exact ⟨.nil, rfl, rfl⟩
    · rintro ⟨h, rfl, rfl⟩; cases h; exact ⟨rfl, rfl, rfl⟩
  | cons p ps ih =>
    have hp : p ≠ [] := hne p (by simp)
    have ih := ih (fun q hq => hne q (by simp [hq]))
    simp only [resolveLoop, hp, if_false]
    cases hr : resolvePart T D v p (path ++ '.' :: p) with
    | error e =>
      simp only
      constructor
      · intro h; cases h
      · rintro ⟨h, -⟩
        cases h with
        | cons h1 h2 =>
          rw [(resolvePart_ok W U _ p _ _ _).2 ⟨⟨_, rfl, h1⟩, rfl⟩] at hr; cases hr
    | ok r =>
      obtain ⟨u, tu⟩ := r
      obtain ⟨⟨a, rfl, hs⟩, rfl⟩ := (resolvePart_ok W U v p _ u tu).1 hr
      simp only
      rw [ih]
      simp only [pathText, List.foldl_cons]
      refine and_congr_left fun _ => ⟨fun h => .cons hs h, fun h => ?_⟩
      cases h with
      | cons h1 h2 =>
        rwa [step_deterministic W U h1 hs] at h2

theorem resolveLoop_err (parts : List Str)
    (v : Val n) (ty : PyType C) (path : Str) (e : Exc)
    (h : resolveLoop T D parts v ty path = .error e) :
    ∃ m, e = .valueError m ∧ ∀ r, m ≠ .circular r := by
  induction parts generalizing v ty path with
  | nil => simp [resolveLoop] at h
  | cons p ps ih =>
    simp only [resolveLoop] at h
    split at h
    · exact ih _ _ _ h
    · split at h
      · rename_i hr; cases h; exact resolvePart_err W _ _ _ _ hr
      · exact ih _ _ _ h

/-- Where the loop stops. -/
theorem resolveLoop_stuck (U : Unambiguous T) {parts : List Str} (hne : ∀ p ∈ parts, p ≠ [])
    (v : Val n) (ty : PyType C) (path : Str) (e : Exc) (h : resolveLoop T D parts v ty path = .error e) :
    ∃ m pre part post w, e = .valueError m ∧ parts = pre ++ part :: post ∧ Walk T D v pre w ∧
      Stuck T D part (pathText path (pre ++ [part])) w m := by
  induction parts generalizing v ty path with
  | nil => simp [resolveLoop] at h
  | cons p ps ih =>
    have hp : p ≠ [] := hne p (by simp)
    simp only [resolveLoop, hp, if_false] at h
    cases hr : resolvePart T D v p (path ++ '.' :: p) with
    | error e' =>
      rw [hr] at h
      cases h
      obtain ⟨m, rfl, hm⟩ := resolvePart_stuck W _ _ _ _ hr
      exact ⟨m, [], p, ps, v, rfl, rfl, .nil, hm⟩
    | ok r =>
      obtain ⟨u, tu⟩ := r
      obtain ⟨⟨a, rfl, hs⟩, rfl⟩ := (resolvePart_ok W U v p _ u tu).1 hr
      rw [hr] at h
      obtain ⟨m, pre, part, post, w, rfl, rfl, hw, hm⟩ := ih (fun q hq => hne q (by simp [hq])) _ _ _ h
      exact ⟨m, p :: pre, part, post, w, rfl, rfl, .cons hs hw, hm⟩

omit W in
theorem walk_deterministic (W : WF T D) (U : Unambiguous T) {v parts w w'}
    (h : Walk T D v parts w) (h' : Walk T D v parts w') : w = w' := by
  induction h with
  | nil => cases h'; rfl
  | cons h1 _ ih =>
    cases h' with
    | cons h1' h2' =>
      rw [step_deterministic W U h1' h1] at h2'
      exact ih h2'

theorem denotes_unique (U : Unambiguous T) {ref v w} (h : Denotes T D ref v)
    (h' : Denotes T D ref w) : v = w := by
  obtain ⟨_, s, hs, hw⟩ := h
  obtain ⟨_, s', hs', hw'⟩ := h'
  cases spells_unique hs hs'
  exact walk_deterministic W U hw hw'

theorem isRef_iff (v : Val n) : D.isRef T v = true ↔ ∃ s, IsReference T D v s := by
  cases v with
  | ptr a =>
    cases hn : D.node a with
    | model c fs ex =>
      simp only [Doc.isRef, Doc.asModel, hn]
      constructor
      · intro h
        obtain ⟨s, hs⟩ := W.refField a c fs ex hn h
        exact ⟨s, a, c, fs, ex, rfl, hn, h, hs⟩
      · rintro ⟨s, a', c', fs', ex', e, hn', h, _⟩
        cases e; rw [hn] at hn'; cases hn'; exact h
    | _ =>
      simp only [Doc.isRef, Doc.asModel, hn]
      constructor
      · intro h; cases h
      · rintro ⟨s, a', c', fs', ex', e, hn', h, _⟩
        cases e; rw [hn] at hn'; cases hn'
  | _ =>
    simp only [Doc.isRef, Doc.asModel]
    constructor
    · intro h; cases h
    · rintro ⟨s, a', c', fs', ex', e, _⟩; cases e

theorem isReference_getattr {v : Val n} {s} (h : IsReference T D v s) :
    D.getattr v p!"ref" = some (.str s) := by
  obtain ⟨a, c, fs, ex, rfl, hn, _, hs⟩ := h
  exact getattr_field W hn hs

theorem isReference_unique {v : Val n} {s t} (h : IsReference T D v s) (h' : IsReference T D v t) :
    s = t := by
  have := isReference_getattr W h
  rw [isReference_getattr W h'] at this; cases this; rfl

theorem hop_unique (U : Unambiguous T) {r s t} (h : Hop T D r s) (h' : Hop T D r t) : s = t := by
  obtain ⟨v, h1, h2⟩ := h
  obtain ⟨w, h1', h2'⟩ := h'
  cases denotes_unique W U h1 h1'
  exact isReference_unique W h2 h2'

theorem hop_not_lands (U : Unambiguous T) {r s v} (h : Hop T D r s) (h' : Lands T D r v) : False := by
  obtain ⟨w, h1, h2⟩ := h
  cases denotes_unique W U h1 h'.1
  exact h'.2 _ h2

omit W in
theorem hop_not_external {r s} (h : Hop T D r s) : ¬ External r := by
  obtain ⟨w, h1, h2⟩ := h; exact h1.1

/-- Why the internal reference `ref` leads nowhere, and what the message says. -/
inductive Explains (T : ClassTable C) (D : Doc C n) (ref : Str) : Msg → Prop
  | unsupported : (∀ s, ref ≠ '#' :: s) → Explains T D ref (.unsupported ref)
  | empty {rest} : ref = '#' :: rest → (∀ c ∈ rest, c = '/') → Explains T D ref (.invalidPath ref)
  | stuck {pre part post v m} : Spells ref (pre ++ part :: post) → Walk T D (.ptr D.spec) pre v →
      Stuck T D part (pathText p!"spec" (pre ++ [part])) v m → Explains T D ref m

/-- What one activation of `resolve_reference` does, in terms of the specification. -/
inductive Outcome (T : ClassTable C) (D : Doc C n) (ref : Str) :
    Option (Except Exc (Option (Result C n))) → Prop
  | external : External ref → Outcome T D ref (some (.ok none))
  | broken {m} : (∀ v, ¬ Denotes T D ref v) → ¬ External ref → (∀ r, m ≠ Msg.circular r) → Explains T D ref m →
      Outcome T D ref (some (.error (.valueError m)))
  | lands {v segs} : Lands T D ref v → Spells ref segs →
      Outcome T D ref (some (.ok (some ⟨v, D.typeOf v, pathText p!"spec" segs⟩)))

theorem resolveFuel_succ (U : Unambiguous T) (k : Nat) (visited : List Str) (ref : Str) :
    (ref ∈ visited ∧
      resolveFuel T D (k+1) visited ref = some (.error (.valueError (.circular ref)))) ∨
    (ref ∉ visited ∧ ((∃ out, Outcome T D ref out ∧ ∀ k', resolveFuel T D (k'+1) visited ref = out)
     ∨ ∃ next, Hop T D ref next ∧
        resolveFuel T D (k+1) visited ref = resolveFuel T D k (ref :: visited) next)) := by
  by_cases hv : ref ∈ visited
  · left; exact ⟨hv, by simp [resolveFuel, hv]⟩
  right
  refine ⟨hv, ?_⟩
  by_cases hx : isExternal ref = true
  · left
    exact ⟨_, .external ((isExternal_iff _).1 hx), fun k' => by simp [resolveFuel, hv, hx]⟩
  have hx' : ¬ External ref := fun h => hx ((isExternal_iff _).2 h)
  rcases parsePath_spec ref with ⟨parts, hp, hs⟩ | ⟨hns, hp⟩
  · -- parsed
    have hne : ∀ p ∈ parts.filter (fun p => decide (p ≠ [])), p ≠ [] := by
      intro p hp; simpa using (List.mem_filter.1 hp).2
    have hloop : resolveParts T D parts = resolveLoop T D (parts.filter (fun p => decide (p ≠ [])))
        (.ptr D.spec) (D.typeOf (.ptr D.spec)) p!"spec" := resolveLoop_filter _ _ _ _
    cases hr : resolveParts T D parts with
    | error e =>
      obtain ⟨m, rfl, hm⟩ := resolveLoop_err W _ _ _ _ _ (hloop ▸ hr)
      left
      have hex : Explains T D ref m := by
        obtain ⟨m', pre, part, post, w, hm', he, hw, hst⟩ := resolveLoop_stuck W U hne _ _ _ _ (hloop ▸ hr)
        cases hm'
        exact .stuck (he ▸ hs) hw hst
      refine ⟨_, .broken (m := m) ?_ hx' hm hex, fun k' => by
        simp [resolveFuel, hv, hx, hp, hr, wrapAttr]⟩
      rintro v ⟨_, segs, hs', hw⟩
      cases spells_unique hs hs'
      have := (resolveLoop_ok W U hne (.ptr D.spec) p!"spec" v _ _).2 ⟨hw, rfl, rfl⟩
      rw [← hloop, hr] at this; cases this
    | ok r =>
      obtain ⟨v, ty, path⟩ := r
      obtain ⟨hw, rfl, rfl⟩ := (resolveLoop_ok W U hne (.ptr D.spec) p!"spec" v ty path).1 (hloop ▸ hr)
      have hden : Denotes T D ref v := ⟨hx', _, hs, hw⟩
      by_cases hR : D.isRef T v = true
      · right
        obtain ⟨s, hs⟩ := (isRef_iff W v).1 hR
        refine ⟨s, ⟨v, hden, hs⟩, ?_⟩
        simp [resolveFuel, hv, hx, hp, hr, wrapAttr, hR, isReference_getattr W hs]
      · left
        refine ⟨_, .lands (v := v) ⟨hden, ?_⟩ hs, fun k' => ?_⟩
        · intro s hs; exact hR ((isRef_iff W v).2 ⟨s, hs⟩)
        · simp [resolveFuel, hv, hx, hp, hr, wrapAttr, hR]
  · left
    have hnd : ∀ v, ¬ Denotes T D ref v := by
      rintro v ⟨_, segs, hs', _⟩; exact hns _ hs'
    rcases hp with ⟨hp, hh⟩ | ⟨hp, rest, hrest, hall⟩
    · exact ⟨_, .broken hnd hx' (m := .unsupported ref) (by simp)
        (.unsupported fun s hs => hh ((startsWith_hash ref).2 ⟨s, hs⟩)), fun k' => by
        simp [resolveFuel, hv, hx, hp]⟩
    · exact ⟨_, .broken hnd hx' (m := .invalidPath ref) (by simp) (.empty hrest hall), fun k' => by
        simp [resolveFuel, hv, hx, hp]⟩

theorem hop_mem_refStrings {r s} (h : Hop T D r s) : s ∈ refStrings T D := by
  obtain ⟨v, _, hv⟩ := h
  have h1 := (isRef_iff W v).2 ⟨s, hv⟩
  have h2 := isReference_getattr W hv
  obtain ⟨a, c, fs, ex, rfl, -⟩ := hv
  rw [refStrings, List.mem_eraseDups]
  exact List.mem_filterMap.2 ⟨a, List.mem_finRange a, by simp [refAt, h1, h2]⟩

omit W in
theorem outcome_terminal {r out} (U : Unambiguous T) (W : WF T D) (h : Outcome T D r out) :
    ∀ s, ¬ Hop T D r s := by
  intro s hs
  cases h with
  | external h => exact hop_not_external hs h
  | broken h => obtain ⟨v, hv, _⟩ := hs; exact h v hv
  | lands h => exact hop_not_lands W U hs h

omit W in
/-- Soundness of the recursion for an arbitrary visited set. -/
theorem resolveFuel_sound (W : WF T D) (U : Unambiguous T) (k : Nat) (visited : List Str) (ref : Str)
    (hinv : ∀ s ∈ visited, Relation.TransGen (Hop T D) s ref) {out}
    (h : resolveFuel T D k visited ref = some out) :
    (∃ r, Hops T D ref r ∧ Outcome T D r (some out)) ∨
    (∃ r, out = .error (.valueError (.circular r)) ∧ Hops T D ref r ∧
      Relation.TransGen (Hop T D) r r) := by
  induction k generalizing visited ref with
  | zero => simp [resolveFuel] at h
  | succ k ih =>
    rcases resolveFuel_succ W U k visited ref with ⟨hv, he⟩ | ⟨hv, ⟨o, ho, hk⟩ | ⟨next, hn, he⟩⟩
    · rw [he] at h; cases h
      exact .inr ⟨ref, rfl, .refl, hinv ref hv⟩
    · rw [hk k] at h; subst h
      exact .inl ⟨ref, .refl, ho⟩
    · rw [he] at h
      have := ih (ref :: visited) next (by
        intro s hs
        rcases List.mem_cons.1 hs with rfl | hs
        · exact .single hn
        · exact (hinv s hs).tail hn) h
      rcases this with ⟨r, h1, h2⟩ | ⟨r, h1, h2, h3⟩
      · exact .inl ⟨r, h1.head hn, h2⟩
      · exact .inr ⟨r, h1, h2.head hn, h3⟩

omit W in
/-- In a deterministic relation, everything reached from a cycle is on the cycle. -/
theorem cycle_stays {α : Type} {R : α → α → Prop} (hu : ∀ a b c, R a b → R a c → b = c) {a b : α}
    (h : Relation.TransGen R a a) (hab : Relation.ReflTransGen R a b) : Relation.TransGen R b b := by
  induction hab with
  | refl => exact h
  | tail _ hbc ih =>
    rename_i b c
    obtain ⟨d, hbd, hdb⟩ := Relation.TransGen.head'_iff.1 ih
    cases hu _ _ _ hbc hbd
    exact Relation.TransGen.tail' hdb hbc

omit W in
theorem terminal_not_cyclic (W : WF T D) (U : Unambiguous T) {ref r r' : Str}
    (h1 : Hops T D ref r) (ht : ∀ s, ¬ Hop T D r s)
    (h2 : Hops T D ref r') (hc : Relation.TransGen (Hop T D) r' r') : False := by
  have hu : ∀ a b c, Hop T D a b → Hop T D a c → b = c := fun a b c => hop_unique W U
  have : Relation.TransGen (Hop T D) r r ∨ r = r' := by
    rcases Relation.ReflTransGen.total_of_right_unique (fun a b c => hu a b c) h1 h2 with h | h
    · rcases Relation.ReflTransGen.cases_head h with rfl | ⟨s, hs, _⟩
      · exact .inr rfl
      · exact absurd hs (ht s)
    · exact .inl (cycle_stays hu hc h)
  have hc' : Relation.TransGen (Hop T D) r r := by
    rcases this with h | rfl
    · exact h
    · exact hc
  obtain ⟨d, hd, _⟩ := Relation.TransGen.head'_iff.1 hc'
  exact ht d hd

omit W in
theorem terminal_unique (W : WF T D) (U : Unambiguous T) {ref r r' : Str}
    (h1 : Hops T D ref r) (ht : ∀ s, ¬ Hop T D r s)
    (h2 : Hops T D ref r') (ht' : ∀ s, ¬ Hop T D r' s) : r = r' := by
  have hu : ∀ a b c, Hop T D a b → Hop T D a c → b = c := fun a b c => hop_unique W U
  rcases Relation.ReflTransGen.total_of_right_unique (fun a b c => hu a b c) h1 h2 with h | h
  · rcases Relation.ReflTransGen.cases_head h with rfl | ⟨s, hs, _⟩
    · rfl
    · exact absurd hs (ht s)
  · rcases Relation.ReflTransGen.cases_head h with rfl | ⟨s, hs, _⟩
    · rfl
    · exact absurd hs (ht' s)

end wf

theorem nodup_eraseDups (l : List Str) : l.eraseDups.Nodup := by
  induction hn : l.length using Nat.strongRecOn generalizing l with
  | ind k ih =>
    cases l with
    | nil => simp
    | cons a as =>
      rw [List.eraseDups_cons, List.nodup_cons]
      constructor
      · rw [List.mem_eraseDups]; simp
      · refine ih _ ?_ _ rfl
        have := List.length_filter_le (fun b => !b == a) as
        simp at hn; omega

/-! ### Termination, without any hypothesis on the document -/

theorem step_or_done (T : ClassTable C) (D : Doc C n) (visited : List Str) (ref : Str) :
    (∃ out, ∀ k, resolveFuel T D (k+1) visited ref = some out) ∨
    (ref ∉ visited ∧ ∃ a next, D.isRef T (.ptr a) = true ∧
      D.getattr (.ptr a) p!"ref" = some (.str next) ∧
      ∀ k, resolveFuel T D (k+1) visited ref = resolveFuel T D k (ref :: visited) next) := by
  by_cases hv : ref ∈ visited
  · exact .inl ⟨_, fun k => by simp [resolveFuel, hv]; rfl⟩
  by_cases hx : isExternal ref = true
  · exact .inl ⟨_, fun k => by simp [resolveFuel, hv, hx]; rfl⟩
  cases hp : parsePath ref with
  | error e => exact .inl ⟨_, fun k => by simp [resolveFuel, hv, hx, hp]; rfl⟩
  | ok parts =>
    cases hr : wrapAttr ref (resolveParts T D parts) with
    | error e => exact .inl ⟨_, fun k => by simp [resolveFuel, hv, hx, hp, hr]; rfl⟩
    | ok r =>
      obtain ⟨v, ty, path⟩ := r
      by_cases hR : D.isRef T v = true
      · cases hg : D.getattr v p!"ref" with
        | none => exact .inl ⟨_, fun k => by simp [resolveFuel, hv, hx, hp, hr, hR, hg]; rfl⟩
        | some w =>
          cases w with
          | str next =>
            right
            refine ⟨hv, ?_⟩
            cases v with
            | ptr a =>
              exact ⟨a, next, hR, hg, fun k => by simp [resolveFuel, hv, hx, hp, hr, hR, hg]⟩
            | _ => simp [Doc.isRef, Doc.asModel] at hR
          | _ => exact .inl ⟨_, fun k => by simp [resolveFuel, hv, hx, hp, hr, hR, hg]; rfl⟩
      · exact .inl ⟨_, fun k => by simp [resolveFuel, hv, hx, hp, hr, hR]; rfl⟩

theorem terminates_aux (T : ClassTable C) (D : Doc C n) (L : List Str)
    (hL : ∀ a s, D.isRef T (.ptr a) = true → D.getattr (.ptr a) p!"ref" = some (.str s) → s ∈ L)
    (m : Nat) (visited : List Str) (ref : Str) (hnd : visited.Nodup)
    (hsub : ∀ s ∈ visited.dropLast, s ∈ L) (href : visited = [] ∨ ref ∈ L)
    (hm : L.length + 2 ≤ m + visited.length) :
    ∃ out, ∀ k, resolveFuel T D (m + k) visited ref = some out := by
  induction m generalizing visited ref with
  | zero =>
    exfalso
    have hd : visited.dropLast.Nodup := hnd.sublist (List.dropLast_sublist _)
    have := (List.subperm_of_subset hd hsub).length_le
    simp at this; omega
  | succ m ih =>
    rcases step_or_done T D visited ref with ⟨out, ho⟩ | ⟨hv, a, next, h1, h2, h3⟩
    · exact ⟨out, fun k => by rw [Nat.add_right_comm]; exact ho _⟩
    · obtain ⟨out, ho⟩ := ih (ref :: visited) next (List.nodup_cons.2 ⟨hv, hnd⟩) (by
        intro s hs
        cases visited with
        | nil => simp at hs
        | cons x xs =>
          rw [List.dropLast_cons_of_ne_nil (by simp)] at hs
          rcases List.mem_cons.1 hs with rfl | hs
          · rcases href with h | h
            · cases h
            · exact h
          · exact hsub s hs) (.inr (hL a next h1 h2)) (by simp; omega)
      exact ⟨out, fun k => by rw [Nat.add_right_comm, h3]; exact ho k⟩

theorem resolve_some (T : ClassTable C) (D : Doc C n) (ref : Str) :
    ∃ out, resolve T D ref = some out := by
  obtain ⟨out, h⟩ := terminates_aux T D (refStrings T D) (by
    intro a s h1 h2
    rw [refStrings, List.mem_eraseDups]
    exact List.mem_filterMap.2 ⟨a, List.mem_finRange a, by simp [refAt, h1, h2]⟩)
    ((refStrings T D).length + 2) [] ref (by simp) (by simp) (.inl rfl) (by simp)
  exact ⟨out, h 0⟩

/-- Complete description of `resolve`. -/
theorem resolve_cases {T : ClassTable C} {D : Doc C n} (W : WF T D) (U : Unambiguous T) (ref : Str) :
    (∃ r, Hops T D ref r ∧ Outcome T D r (resolve T D ref)) ∨
    (∃ r, resolve T D ref = some (.error (.valueError (.circular r))) ∧ Hops T D ref r ∧
      Relation.TransGen (Hop T D) r r) := by
  obtain ⟨out, h⟩ := resolve_some T D ref
  rcases resolveFuel_sound W U _ [] ref (by simp) h with ⟨r, h1, h2⟩ | ⟨r, h1, h2, h3⟩
  · exact .inl ⟨r, h1, by rw [h]; exact h2⟩
  · exact .inr ⟨r, by rw [h, h1], h2, h3⟩

end Resolve
end Verif
