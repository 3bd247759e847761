import Verif.Model.RefValidators
import Verif.Spec.Refs
import Verif.Lemmas.Resolve
import Verif.Lemmas.WFCheck
/-! Which references the validators of `Model/RefValidators.lean` visit. -/
namespace Verif.RefV
open Verif Verif.Spec Verif.Gen Verif.Resolve
variable {n : Nat} {D : Doc Cls n}

/-! ### Sequencing -/

@[simp] theorem andThen_ok (b : Out) : Out.ok.andThen b = b := by
  cases b; rfl

@[simp] theorem andThen_ok' (b : Out) : b.andThen .ok = b := by
  rcases b with ⟨w, _ | _⟩ <;> simp [Out.andThen, Out.ok]

theorem andThen_assoc (a b c : Out) : (a.andThen b).andThen c = a.andThen (b.andThen c) := by
  rcases a with ⟨w, _ | _⟩ <;> rcases b with ⟨w', _ | _⟩ <;> simp [Out.andThen]

theorem seqAll_append (l m : List Out) : seqAll (l ++ m) = (seqAll l).andThen (seqAll m) := by
  induction l with
  | nil => simp [seqAll]
  | cons x xs ih => simp [seqAll, ih, andThen_assoc]

/-! ### Visitors -/

/-- A reference with string `s`, `steps` below the value. -/
def Below (D : Doc Cls n) (v : Val n) (steps : List LocStep) (s : Str) : Prop :=
  ∃ a b, v = .ptr a ∧ Descends table D a steps b ∧ IsReference table D (.ptr b) s

/-- `o` is the check of the references in `L`, in this order; `chk` is given the location and the string. -/
def Runs (chk : List LocStep → Str → Out) (o : Out) (L : List (List LocStep × Str)) : Prop :=
  o = seqAll (L.map fun p => chk p.1 p.2)

/-- On every value satisfying `P`, `k` checks each reference at places of the given shape
below the value exactly once, and nothing else. -/
def Visits (D : Doc Cls n) (chk : List LocStep → Str → Out) (P : Val n → Prop) (k : Val n → Out)
    (place : List PStep) : Prop :=
  ∀ v, P v → ∃ L : List (List LocStep × Str), Runs chk (k v) L ∧ L.Nodup ∧
    ∀ steps s, (steps, s) ∈ L ↔ steps.map LocStep.shape = place ∧ Below D v steps s

variable {chk : List LocStep → Str → Out} {P Q : Val n → Prop} {k : Val n → Out} {place : List PStep}

theorem Visits.mono (h : Visits D chk P k place) (hq : ∀ v, Q v → P v) : Visits D chk Q k place :=
  fun v hv => h v (hq v hv)

theorem visits_none {v : Val n} (h : ∀ steps s, steps.map LocStep.shape = place → ¬ Below D v steps s) :
    ∃ L : List (List LocStep × Str), Runs chk .ok L ∧ L.Nodup ∧
    ∀ steps s, (steps, s) ∈ L ↔ steps.map LocStep.shape = place ∧ Below D v steps s :=
  ⟨[], rfl, .nil, fun steps s => by
    simp only [List.not_mem_nil, false_iff, not_and]; exact h steps s⟩

/-- A value that is not an object has nothing below. -/
theorem below_ptr {v : Val n} {steps s} (h : Below D v steps s) : ∃ a, v = .ptr a := by
  obtain ⟨a, _, rfl, _⟩ := h; exact ⟨a, rfl⟩

theorem below_nil {v : Val n} {s} : Below D v [] s ↔ IsReference table D v s := by
  constructor
  · rintro ⟨a, b, rfl, h, hr⟩; cases h; exact hr
  · intro h
    obtain ⟨a, _, _, _, rfl, _⟩ := id h
    exact ⟨a, a, rfl, .nil, h⟩

theorem below_cons {v : Val n} {st steps s} : Below D v (st :: steps) s ↔
    ∃ a w, v = .ptr a ∧ (∀ r, ¬ IsReference table D v r) ∧ Child table D a st w ∧ Below D w steps s := by
  constructor
  · rintro ⟨a, b, rfl, h, hr⟩
    cases h with
    | cons h1 h2 h3 => exact ⟨a, _, rfl, h1, h2, _, b, rfl, h3, hr⟩
  · rintro ⟨a, w, rfl, h1, h2, c, b, rfl, h3, hr⟩
    exact ⟨a, b, rfl, .cons h1 h2 h3, hr⟩

/-! ### The base case -/

theorem visits_ref (T : Typed D) {c : Val n → Out}
    (hc : ∀ v s, IsReference table D v s → c v = chk [] s) :
    Visits D chk (fun _ => True) (fun v => ifRef D v c) [] := by
  intro v _
  simp only [ifRef]
  split
  · rename_i h
    obtain ⟨s, hs⟩ := (isRef_iff T.wf v).1 h
    refine ⟨[([], s)], ?_, by simp, ?_⟩
    · simp [Runs, seqAll, hc v s hs]
    · intro steps s'
      simp only [List.mem_singleton, Prod.mk.injEq, List.map_eq_nil_iff]
      constructor
      · rintro ⟨rfl, rfl⟩; exact ⟨rfl, below_nil.2 hs⟩
      · rintro ⟨rfl, h'⟩; exact ⟨rfl, (isReference_unique T.wf (below_nil.1 h') hs)⟩
  · rename_i h
    apply visits_none
    intro steps s hst hb
    simp only [List.map_eq_nil_iff] at hst; subst hst
    exact h ((isRef_iff T.wf v).2 ⟨s, below_nil.1 hb⟩)

/-! ### Attributes -/

/-- The field at position `i` of class `c`. -/
theorem field_value (T : Typed D) {c : Cls} {a : Fin n} {fs ex} (h : D.node a = .model c fs ex)
    {i : Nat} {fd : FieldDef Cls} (hf : (classDef c).fields[i]? = some fd) :
    ∃ v, (fd.name, v) ∈ fs ∧ Fits D fd.ty v ∧ D.getattr (.ptr a) fd.name = some v := by
  have hm : fd ∈ (classDef c).fields := List.mem_of_getElem? hf
  obtain ⟨v, hv⟩ := T.wf.declared a c fs ex h ⟨fd.name, fd.alias, fd.exclude⟩
    (List.mem_map.2 ⟨fd, hm, rfl⟩)
  exact ⟨v, hv, T.fields a c fs ex h fd hm v hv, getattr_field T.wf h hv⟩

theorem below_field (T : Typed D) {c : Cls} {a : Fin n} {fs ex} (h : D.node a = .model c fs ex)
    (hc : c ≠ .Reference) {i : Nat} {fd : FieldDef Cls} (hf : (classDef c).fields[i]? = some fd)
    (hx : fd.exclude = false) {v : Val n} (hv : (fd.name, v) ∈ fs) (st : LocStep)
    (hst : st.shape = .field fd.name) (steps s) :
    Below D (.ptr a) (st :: steps) s ↔ Below D v steps s := by
  have hm : fd ∈ (classDef c).fields := List.mem_of_getElem? hf
  obtain rfl : st = .field fd.name := by
    cases st <;> simp [LocStep.shape] at hst; rw [hst]
  rw [below_cons]
  constructor
  · rintro ⟨a', w, e, _, hch, hb⟩
    cases e
    generalize hst' : LocStep.field fd.name = st at hch
    cases hch with
    | item => cases hst'
    | entry => cases hst'
    | field h1 h2 h3 h4 h5 =>
      cases h1.symm.trans h
      injection hst' with hst'
      rw [← hst'] at h4
      have e1 := (lookup_iff (T.wf.fieldKeys _ _ _ _ h)).2 h4
      have e2 := (lookup_iff (T.wf.fieldKeys _ _ _ _ h)).2 hv
      rw [e1] at e2; cases e2
      exact hb
  · intro hb
    refine ⟨a, v, rfl, ?_, ?_, hb⟩
    · rintro r ⟨a', c', fs', ex', e, h', hs, _⟩
      cases e; cases h'.symm.trans h
      exact hc (by simpa [table] using hs)
    · obtain ⟨b, rfl⟩ := below_ptr hb
      exact .field (f := ⟨fd.name, fd.alias, fd.exclude⟩) h (List.mem_map.2 ⟨fd, hm, rfl⟩) hx hv (by simp)

/-- Prepend a step. -/
def pre (st : LocStep) (L : List (List LocStep × Str)) : List (List LocStep × Str) :=
  L.map fun p => (st :: p.1, p.2)

theorem mem_pre {st L steps s} : (steps, s) ∈ pre st L ↔ ∃ rest, steps = st :: rest ∧ (rest, s) ∈ L := by
  simp only [pre, List.mem_map, Prod.mk.injEq, Prod.exists]
  constructor
  · rintro ⟨a, b, h, rfl, rfl⟩; exact ⟨a, rfl, h⟩
  · rintro ⟨rest, rfl, h⟩; exact ⟨rest, s, h, rfl, rfl⟩

theorem pre_nodup {st L} (h : L.Nodup) : (pre st L).Nodup := by
  refine h.map ?_
  rintro ⟨a, b⟩ ⟨c, d⟩ e
  simpa using e

theorem pre_runs {o st L} (h : Runs (fun rest => chk (st :: rest)) o L) : Runs chk o (pre st L) := by
  simpa [Runs, pre, Function.comp_def] using h

theorem visits_attr (T : Typed D) {c : Cls} (hc : c ≠ .Reference) (i : Nat) {fd : FieldDef Cls}
    (hf : (classDef c).fields[i]? = some fd) (hx : fd.exclude = false)
    (hk : Visits D (fun rest => chk (.field fd.name :: rest)) (Fits D fd.ty) k place) :
    Visits D chk (Fits D (.model c)) (fun v => attr D v fd.name k) (.field fd.name :: place) := by
  intro v hv
  cases hv with
  | scalar h => exact h.elim
  | @model _ a fs ex h =>
  obtain ⟨w, hw, hfit, hget⟩ := field_value T h hf
  obtain ⟨L, h1, h2, h3⟩ := hk w hfit
  refine ⟨pre (.field fd.name) L, ?_, pre_nodup h2, ?_⟩
  · simp only [attr, hget]; exact pre_runs h1
  · intro steps s
    rw [mem_pre]
    constructor
    · rintro ⟨rest, rfl, hm⟩
      obtain ⟨h4, h5⟩ := (h3 rest s).1 hm
      exact ⟨by simp [LocStep.shape, h4], (below_field T h hc hf hx hw _ rfl rest s).2 h5⟩
    · rintro ⟨hs, hb⟩
      cases steps with
      | nil => simp at hs
      | cons st rest =>
        simp only [List.map_cons, List.cons.injEq] at hs
        obtain rfl : st = .field fd.name := by
          cases st <;> simp [LocStep.shape] at hs; rw [hs.1]
        exact ⟨rest, rfl, (h3 rest s).2 ⟨hs.2, (below_field T h hc hf hx hw _ rfl rest s).1 hb⟩⟩

/-! ### Truthiness -/

theorem patterned_fields : ∀ c, (classDef c).kind = .patterned →
    c ≠ .Reference ∧ ∃ t, (classDef c).fields = [⟨p!"root", none, .dict t, .required, false, false, none⟩] := by
  intro c h
  cases c <;> first | exact ⟨by decide, _, rfl⟩ | exact absurd h (by decide)

theorem falsy_below (T : Typed D) {v : Val n} (h : truthy D v = false) (steps s) : ¬ Below D v steps s := by
  rintro hb
  obtain ⟨a, rfl⟩ := below_ptr hb
  simp only [truthy] at h
  cases hn : D.node a with
  | list xs =>
    rw [hn] at h; simp at h; subst h
    cases steps with
    | nil => obtain ⟨a', _, _, _, e, h', _⟩ := below_nil.1 hb; cases e; rw [hn] at h'; cases h'
    | cons st rest =>
      obtain ⟨a', w, e, _, hc, _⟩ := below_cons.1 hb
      cases e
      cases hc with
      | item h1 h2 => rw [hn] at h1; cases h1; simp at h2
      | entry h1 => rw [hn] at h1; cases h1
      | field h1 => rw [hn] at h1; cases h1
  | dict kvs =>
    rw [hn] at h; simp at h; subst h
    cases steps with
    | nil => obtain ⟨a', _, _, _, e, h', _⟩ := below_nil.1 hb; cases e; rw [hn] at h'; cases h'
    | cons st rest =>
      obtain ⟨a', w, e, _, hc, _⟩ := below_cons.1 hb
      cases e
      cases hc with
      | item h1 => rw [hn] at h1; cases h1
      | entry h1 h2 => rw [hn] at h1; cases h1; simp at h2
      | field h1 => rw [hn] at h1; cases h1
  | model c fs ex =>
    rw [hn] at h
    simp only at h
    split at h
    · rename_i hk
      obtain ⟨hcr, t, hfs⟩ := patterned_fields c hk
      split at h
      · rename_i r hr
        split at h
        · rename_i kvs hd
          simp at h; subst h
          cases steps with
          | nil =>
            obtain ⟨a', _, _, _, e, h', hsub, _⟩ := below_nil.1 hb
            cases e; cases h'.symm.trans hn
            exact hcr (by simpa [table] using hsub)
          | cons st rest =>
            obtain ⟨a', w, e, _, hc, hb'⟩ := below_cons.1 hb
            cases e
            cases hc with
            | item h1 => rw [hn] at h1; cases h1
            | entry h1 => rw [hn] at h1; cases h1
            | field h1 h2 h3 h4 h5 =>
              cases h1.symm.trans hn
              simp only [table, hfs, List.map_cons, List.map_nil, List.mem_singleton] at h2
              subst h2
              have e1 := (lookup_iff (T.wf.fieldKeys _ _ _ _ hn)).2 h4
              rw [hr] at e1; cases e1
              obtain ⟨b, rfl⟩ := below_ptr hb'
              simp only [Doc.asDict] at hd
              split at hd <;> cases hd
              rename_i hnb
              cases rest with
              | nil => obtain ⟨a', _, _, _, e, h', _⟩ := below_nil.1 hb'; cases e; rw [hnb] at h'; cases h'
              | cons st' rest' =>
                obtain ⟨a', w, e, _, hc, _⟩ := below_cons.1 hb'
                cases e
                cases hc with
                | item h1 => rw [hnb] at h1; cases h1
                | entry h1 h2 => rw [hnb] at h1; cases h1; simp at h2
                | field h1 => rw [hnb] at h1; cases h1
        · cases h
      · cases h
    · cases h

theorem visits_truthy (T : Typed D) (hk : Visits D chk (fun v => P v ∧ truthy D v = true) k place) :
    Visits D chk P (fun v => ifTruthy D v k) place := by
  intro v hv
  simp only [ifTruthy]
  split
  · rename_i h; exact hk v ⟨hv, h⟩
  · rename_i h
    exact visits_none fun steps s _ => falsy_below T (by simpa using h) steps s

/-- An optional value: `None` is falsy. -/
theorem visits_opt (T : Typed D) {t : Ty Cls} (hk : Visits D chk (Fits D t) k place) :
    Visits D chk (Fits D (.union [t, .none])) (fun v => ifTruthy D v k) place := by
  apply visits_truthy T
  apply hk.mono
  rintro v ⟨hv, ht⟩
  cases hv with
  | scalar h => exact h.elim
  | union hm hf =>
    simp only [List.mem_cons, List.not_mem_nil, or_false] at hm
    rcases hm with rfl | rfl
    · exact hf
    · cases hf with
      | none => simp [truthy] at ht
      | scalar h => exact h.elim

/-! ### Loops -/

theorem visits_many (items : List (LocStep × Val n)) (hnd : (items.map Prod.fst).Nodup)
    (h : ∀ p ∈ items, P p.2) {o : LocStep × Val n → Out}
    (hk : ∀ p ∈ items, ∃ k', o p = k' p.2 ∧ Visits D (fun rest => chk (p.1 :: rest)) P k' place) :
    ∃ L : List (List LocStep × Str), Runs chk (seqAll (items.map o)) L ∧ L.Nodup ∧
      ∀ steps s, (steps, s) ∈ L ↔ ∃ st rest v, steps = st :: rest ∧ (st, v) ∈ items ∧
        rest.map LocStep.shape = place ∧ Below D v rest s := by
  induction items with
  | nil => exact ⟨[], rfl, .nil, by simp⟩
  | cons p items ih =>
    simp only [List.map_cons, List.nodup_cons] at hnd
    obtain ⟨L, h1, h2, h3⟩ := ih hnd.2 (fun q hq => h q (by simp [hq])) (fun q hq => hk q (by simp [hq]))
    obtain ⟨k', ho, hk'⟩ := hk p (by simp)
    obtain ⟨M, m1, m2, m3⟩ := hk' p.2 (h p (by simp))
    rw [← ho] at m1
    refine ⟨pre p.1 M ++ L, ?_, ?_, ?_⟩
    · have := pre_runs (st := p.1) m1
      simp only [Runs] at this h1 ⊢
      simp only [List.map_append, seqAll_append, ← h1, ← this]
      simp [seqAll]
    · rw [List.nodup_append]
      refine ⟨pre_nodup m2, h2, ?_⟩
      rintro ⟨steps, s⟩ hm1 ⟨steps', s'⟩ hm2 e
      cases e
      obtain ⟨rest, rfl, _⟩ := mem_pre.1 hm1
      obtain ⟨st, rest', v, e, hm, _⟩ := (h3 _ _).1 hm2
      cases e
      exact hnd.1 (List.mem_map.2 ⟨_, hm, rfl⟩)
    · intro steps s
      rw [List.mem_append, mem_pre, h3]
      constructor
      · rintro (⟨rest, rfl, hm⟩ | ⟨st, rest, v, rfl, hm, hr⟩)
        · exact ⟨p.1, rest, p.2, rfl, by simp, (m3 _ _).1 hm⟩
        · exact ⟨st, rest, v, rfl, by simp [hm], hr⟩
      · rintro ⟨st, rest, v, rfl, hm, hr⟩
        rcases List.mem_cons.1 hm with e | hm
        · left; cases e; exact ⟨rest, rfl, (m3 _ _).2 hr⟩
        · right; exact ⟨st, rest, v, rfl, hm, hr⟩

theorem visits_list (_T : Typed D) {t : Ty Cls} {k : Nat → Val n → Out}
    (hk : ∀ i, Visits D (fun rest => chk (.index i :: rest)) (Fits D t) (k i) place) :
    Visits D chk (Fits D (.list t)) (fun v => forList D v k) (.anyIndex :: place) := by
  intro v hv
  cases hv with
  | scalar h => exact h.elim
  | @list _ a xs hn hx =>
  have key := visits_many (D := D) (xs.zipIdx.map fun p => (LocStep.index p.2, p.1)) (by
      have : (xs.zipIdx.map fun p => (LocStep.index p.2, p.1)).map Prod.fst =
          (List.range' 0 xs.length).map LocStep.index := by
        rw [← List.zipIdx_map_snd, List.map_map, List.map_map]; rfl
      rw [this]
      exact (List.nodup_range').map (fun a b e => by simpa using e)) (by
      intro p hp
      obtain ⟨q, hq, rfl⟩ := List.mem_map.1 hp
      have := List.mem_zipIdx_iff_getElem?.1 hq
      exact hx _ (List.mem_of_getElem? this)) (chk := chk) (place := place)
      (o := fun p => match p.1 with | .index i => k i p.2 | _ => .ok) (by
      intro p hp
      obtain ⟨q, hq, rfl⟩ := List.mem_map.1 hp
      exact ⟨k q.2, rfl, hk q.2⟩)
  obtain ⟨L, h1, h2, h3⟩ := key
  refine ⟨L, ?_, h2, ?_⟩
  · rw [List.map_map] at h1
    simpa [forList, hn, Function.comp_def] using h1
  · intro steps s
    rw [h3]
    constructor
    · rintro ⟨st, rest, w, rfl, hm, hr, hb⟩
      obtain ⟨q, hq, e⟩ := List.mem_map.1 hm
      cases e
      refine ⟨by simp [LocStep.shape, hr], below_cons.2 ⟨a, _, rfl, ?_, ?_, hb⟩⟩
      · rintro r ⟨a', _, _, _, e, h', _⟩; cases e; rw [hn] at h'; cases h'
      · exact .item hn (List.mem_zipIdx_iff_getElem?.1 hq)
    · rintro ⟨hs, hb⟩
      cases steps with
      | nil => simp at hs
      | cons st rest =>
        simp only [List.map_cons, List.cons.injEq] at hs
        obtain ⟨a', w, e, _, hc, hb'⟩ := below_cons.1 hb
        cases e
        cases hc with
        | entry h1 => rw [hn] at h1; cases h1
        | field h1 => rw [hn] at h1; cases h1
        | @item xs' i _ e1 e2 =>
          rw [hn] at e1; cases e1
          refine ⟨_, rest, _, rfl, ?_, hs.2, hb'⟩
          exact List.mem_map.2 ⟨(_, i), List.mem_zipIdx_iff_getElem?.2 e2, rfl⟩

theorem visits_dict (T : Typed D) {t : Ty Cls} {k : Str → Val n → Out}
    (hk : ∀ nm, Visits D (fun rest => chk (.key nm :: rest)) (Fits D t) (k nm) place) :
    Visits D chk (Fits D (.dict t)) (fun r => match D.asDict r with
      | some kvs => seqAll (kvs.map fun p => k p.1 p.2)
      | none => .fail .typeError) (.anyKey :: place) := by
  intro v hv
  cases hv with
  | scalar h => exact h.elim
  | @dict _ a kvs hn hx =>
  have key := visits_many (D := D) (kvs.map fun p => (LocStep.key p.1, p.2)) (by
      rw [List.map_map]
      have := (T.wf.dictKeys a kvs hn).map (f := LocStep.key) (fun a b e => by simpa using e)
      simpa [Function.comp_def] using this) (by
      intro p hp
      obtain ⟨q, hq, rfl⟩ := List.mem_map.1 hp
      exact hx _ hq) (chk := chk) (place := place)
      (o := fun p => match p.1 with | .key nm => k nm p.2 | _ => .ok) (by
      intro p hp
      obtain ⟨q, hq, rfl⟩ := List.mem_map.1 hp
      exact ⟨k q.1, rfl, hk q.1⟩)
  obtain ⟨L, h1, h2, h3⟩ := key
  refine ⟨L, ?_, h2, ?_⟩
  · simpa [Doc.asDict, hn, List.map_map, Function.comp_def] using h1
  · intro steps s
    rw [h3]
    constructor
    · rintro ⟨st, rest, w, rfl, hm, hr, hb⟩
      obtain ⟨q, hq, e⟩ := List.mem_map.1 hm
      cases e
      refine ⟨by simp [LocStep.shape, hr], below_cons.2 ⟨a, _, rfl, ?_, ?_, hb⟩⟩
      · rintro r ⟨a', _, _, _, e, h', _⟩; cases e; rw [hn] at h'; cases h'
      · exact .entry hn hq
    · rintro ⟨hs, hb⟩
      cases steps with
      | nil => simp at hs
      | cons st rest =>
        simp only [List.map_cons, List.cons.injEq] at hs
        obtain ⟨a', w, e, _, hc, hb'⟩ := below_cons.1 hb
        cases e
        cases hc with
        | item h1 => rw [hn] at h1; cases h1
        | field h1 => rw [hn] at h1; cases h1
        | @entry kvs' key' _ e1 e2 =>
          rw [hn] at e1; cases e1
          refine ⟨_, rest, _, rfl, ?_, hs.2, hb'⟩
          exact List.mem_map.2 ⟨(key', _), e2, rfl⟩

/-- Iterating over a patterned object. -/
theorem visits_items (T : Typed D) {c : Cls} {t : Ty Cls}
    (hc : (classDef c).fields[0]? = some ⟨p!"root", none, .dict t, .required, false, false, none⟩)
    (hr : c ≠ .Reference) {k : Str → Val n → Out}
    (hk : ∀ nm, Visits D (fun rest => chk (.field p!"root" :: .key nm :: rest)) (Fits D t) (k nm) place) :
    Visits D chk (Fits D (.model c)) (fun v => forItems D v k) (.field p!"root" :: .anyKey :: place) :=
  visits_attr T hr 0 hc rfl (visits_dict T hk)

/-! ### References in the way -/

theorem visits_unlessRef (T : Typed D) {t : Ty Cls} {p : PStep}
    (hk : Visits D chk (Fits D t) k (p :: place)) :
    Visits D chk (Fits D (.union [t, .model .Reference])) (fun v => unlessRef D v k) (p :: place) := by
  intro v hv
  simp only [unlessRef]
  split
  · rename_i h
    obtain ⟨s, hs⟩ := (isRef_iff T.wf v).1 h
    apply visits_none
    intro steps s' hst hb
    cases steps with
    | nil => simp at hst
    | cons st rest =>
      obtain ⟨a, w, rfl, hn, _⟩ := below_cons.1 hb
      exact hn s hs
  · rename_i h
    apply hk
    cases hv with
    | scalar h => exact h.elim
    | union hm hf =>
      simp only [List.mem_cons, List.not_mem_nil, or_false] at hm
      rcases hm with rfl | rfl
      · exact hf
      · exfalso
        cases hf with
        | scalar h => exact h.elim
        | model hn => exact h (by simp [Doc.isRef, Doc.asModel, hn, table])

/-- The value is a model instance. -/
def IsInst (D : Doc Cls n) (v : Val n) : Prop := ∃ a c fs ex, v = .ptr a ∧ D.node a = .model c fs ex

theorem fits_inst {c : Cls} {v : Val n} (h : Fits D (.model c) v) : IsInst D v := by
  cases h with
  | scalar h => exact h.elim
  | model hn => exact ⟨_, _, _, _, rfl, hn⟩

/-- `external_docs` is nowhere excluded. -/
theorem docs_not_excluded : ∀ c, ∀ f ∈ (table).fields c, f.name = p!"external_docs" → f.exclude = false := by
  intro c
  have : Cls.all.all (fun c => (table.fields c).all fun f =>
    !decide (f.name = p!"external_docs") || !f.exclude) = true := by decide +kernel
  have := List.all_eq_true.1 (List.all_eq_true.1 this c (Cls.mem_all c))
  intro f hf e
  simpa [e] using this f hf

/-- `_validate_ref_field`. -/
theorem visits_refField (T : Typed D) {context : Str}
    (hc : ∀ v s, IsReference table D v s → validateDocRef D context v = chk [.field p!"external_docs"] s) :
    Visits D chk (IsInst D) (refField D context) [.field p!"external_docs"] := by
  rintro v ⟨a, c, fs, ex, rfl, hn⟩
  have notRef : (∃ w, (p!"external_docs", w) ∈ fs ∧ ∃ f ∈ table.fields c, f.name = p!"external_docs") →
      ∀ r, ¬ IsReference table D (.ptr a) r := by
    rintro ⟨w, hw, f, hf, he⟩ r ⟨a', c', fs', ex', e, h', hs, _⟩
    cases e; cases h'.symm.trans hn
    have : c = .Reference := by simpa [table] using hs
    subst this
    simp [table, classDef, defReference] at hf
    subst hf; simp at he
  -- what is below
  have hbelow : ∀ steps s, steps.map LocStep.shape = [.field p!"external_docs"] →
      (Below D (.ptr a) steps s ↔ steps = [.field p!"external_docs"] ∧ ∃ w, (p!"external_docs", w) ∈ fs ∧
        (∃ f ∈ table.fields c, f.name = p!"external_docs") ∧ IsReference table D w s) := by
    intro steps s hst
    obtain rfl : steps = [.field p!"external_docs"] := by
      match steps, hst with
      | [st], hst =>
        cases st <;> simp [LocStep.shape] at hst
        rw [hst]
      | [], hst => simp at hst
      | _ :: _ :: _, hst => simp at hst
    rw [below_cons]
    constructor
    · rintro ⟨a', w, e, _, hch, hb⟩
      cases e
      generalize hst' : LocStep.field p!"external_docs" = st at hch
      cases hch with
      | item => cases hst'
      | entry => cases hst'
      | field h1 h2 h3 h4 h5 =>
        cases h1.symm.trans hn
        injection hst' with hst'
        rw [← hst'] at h4
        exact ⟨rfl, w, h4, ⟨_, h2, hst'.symm⟩, below_nil.1 hb⟩
    · rintro ⟨_, w, hw, ⟨f, hf, he⟩, hr⟩
      refine ⟨a, w, rfl, notRef ⟨w, hw, f, hf, he⟩, ?_, below_nil.2 hr⟩
      have := Child.field (T := table) (D := D) (a := a) (v := w) hn hf
        (docs_not_excluded c f hf he) (by rw [he]; exact hw) (by rintro rfl; obtain ⟨_, _, _, _, e, _⟩ := hr; cases e)
      rwa [he] at this
  by_cases hdecl : ∃ f ∈ table.fields c, f.name = p!"external_docs"
  · obtain ⟨f, hf, he⟩ := hdecl
    obtain ⟨w, hw⟩ := T.wf.declared a c fs ex hn f hf
    rw [he] at hw
    have hg : D.getattr (.ptr a) p!"external_docs" = some w := getattr_field T.wf hn hw
    have hsame : ∀ w', (p!"external_docs", w') ∈ fs → w' = w := by
      intro w' hw'
      have e1 := (lookup_iff (T.wf.fieldKeys _ _ _ _ hn)).2 hw
      have e2 := (lookup_iff (T.wf.fieldKeys _ _ _ _ hn)).2 hw'
      rw [e1] at e2; cases e2; rfl
    simp only [refField, hg]
    have base := visits_truthy (D := D) T (P := fun _ => True) ((visits_ref T (chk := fun rest => chk (.field p!"external_docs" :: rest)) hc).mono (Q := fun v => True ∧ truthy D v = true) (fun _ _ => trivial)) w trivial
    obtain ⟨L, h1, h2, h3⟩ := base
    refine ⟨pre (.field p!"external_docs") L, ?_, pre_nodup h2, ?_⟩
    · simp only [ifTruthy] at h1; exact pre_runs h1
    · intro steps s
      rw [mem_pre]
      constructor
      · rintro ⟨rest, rfl, hm⟩
        obtain ⟨h4, h5⟩ := (h3 rest s).1 hm
        simp only [List.map_eq_nil_iff] at h4; subst h4
        exact ⟨rfl, (hbelow _ s rfl).2 ⟨rfl, w, hw, ⟨f, hf, he⟩, below_nil.1 h5⟩⟩
      · rintro ⟨hs, hb⟩
        obtain ⟨rfl, w', hw', _, hr⟩ := (hbelow _ s hs).1 hb
        rw [hsame w' hw'] at hr
        exact ⟨[], rfl, (h3 [] s).2 ⟨rfl, below_nil.2 hr⟩⟩
  · have hok : refField D context (.ptr a) = .ok := by
      unfold refField
      cases hg : D.getattr (.ptr a) p!"external_docs" with
      | none => rfl
      | some w =>
        simp only
        have hwr : D.isRef table w = false := by
          rw [Bool.eq_false_iff]
          intro hr
          obtain ⟨s, hs⟩ := (isRef_iff T.wf w).1 hr
          rcases (getattr_iff T.wf hn).1 hg with hm | ⟨_, hm⟩
          · -- stored but not declared: not possible for a field name
            obtain ⟨f, hf, he⟩ := T.onlyDeclared a c fs ex hn _ _ hm
            exact hdecl ⟨_, List.mem_map.2 ⟨f, hf, rfl⟩, he⟩
          · exact T.extraPlain a c fs ex hn _ _ hm s hs
        simp [ifRef, hwr]
    rw [hok]
    apply visits_none
    intro steps s hst hb
    obtain ⟨_, _, _, hd, _⟩ := (hbelow steps s hst).1 hb
    exact hdecl hd

/-! ### Whole calls -/

/-- Several visitors of the document, at different places. -/
theorem visits_all {v : Val n} (os : List (Out × List PStep)) (hnd : (os.map Prod.snd).Nodup)
    (h : ∀ o ∈ os, ∃ L : List (List LocStep × Str), Runs chk o.1 L ∧ L.Nodup ∧
      ∀ steps s, (steps, s) ∈ L ↔ steps.map LocStep.shape = o.2 ∧ Below D v steps s) :
    ∃ L : List (List LocStep × Str), Runs chk (seqAll (os.map Prod.fst)) L ∧ L.Nodup ∧
      ∀ steps s, (steps, s) ∈ L ↔ steps.map LocStep.shape ∈ os.map Prod.snd ∧ Below D v steps s := by
  induction os with
  | nil => exact ⟨[], rfl, .nil, by simp⟩
  | cons o os ih =>
    simp only [List.map_cons, List.nodup_cons] at hnd
    obtain ⟨L, h1, h2, h3⟩ := ih hnd.2 fun q hq => h q (by simp [hq])
    obtain ⟨M, m1, m2, m3⟩ := h o (by simp)
    refine ⟨M ++ L, ?_, ?_, ?_⟩
    · simp only [Runs] at m1 h1 ⊢
      simp only [List.map_append, seqAll_append, ← h1, ← m1, List.map_cons, seqAll]
    · rw [List.nodup_append]
      refine ⟨m2, h2, ?_⟩
      rintro ⟨steps, s⟩ hm1 ⟨steps', s'⟩ hm2 e
      cases e
      exact hnd.1 (by rw [← ((m3 _ _).1 hm1).1]; exact ((h3 _ _).1 hm2).1)
    · intro steps s
      rw [List.mem_append, m3, h3]
      simp only [List.map_cons, List.mem_cons]
      constructor
      · rintro (⟨a, b⟩ | ⟨a, b⟩)
        · exact ⟨.inl a, b⟩
        · exact ⟨.inr a, b⟩
      · rintro ⟨a | a, b⟩
        · exact .inl ⟨a, b⟩
        · exact .inr ⟨a, b⟩

end Verif.RefV
