import Verif.Lemmas.Render
import Verif.Spec.Slots
/-! Enumeration of the reference slots, for C15 and C16. -/
namespace Verif.Slots
open Verif Verif.Spec Verif.Path Verif.Gen

/-- A path segment: a fixed name or an ordinary key, of which only is known whether
it ends in `_bindings`. -/
inductive ASeg where
  | lit (s : Str)
  | key (b : Bool)
  deriving DecidableEq

def isB (k : Str) : Bool := segMatches p!"*_bindings" k

/-- The table, with split patterns: the reversed tail after `**`, the score, the type. -/
def rows : List (List Str × (Nat × Nat × Nat × Nat) × List Cls) :=
  mappings.map fun e => ((splitPath e.1).tail.reverse, specificity e.1, e.2)

def segA (p : Str) : ASeg → Bool
  | .lit s => decide (p = p!"*") || decide (p = s) || (decide (p = p!"*_bindings") && isB s)
  | .key b => decide (p = p!"*") || (decide (p = p!"*_bindings") && b)

def matchA : List Str → List ASeg → Bool
  | [], _ => true
  | _ :: _, [] => false
  | p :: ps, s :: ss => segA p s && matchA ps ss

def bestA (segs : List ASeg) : List (List Str × (Nat × Nat × Nat × Nat) × List Cls) →
    Option (List Cls × (Nat × Nat × Nat × Nat)) → Option (List Cls × (Nat × Nat × Nat × Nat))
  | [], best => best
  | (pat, sc, ty) :: rest, best =>
    if !matchA pat segs then bestA segs rest best
    else match best with
      | none => bestA segs rest (some (ty, sc))
      | some (bt, bs) =>
        if scoreLt bs sc then bestA segs rest (some (ty, sc)) else bestA segs rest (some (bt, bs))

/-! ### Concrete and abstract lookup agree -/

/-- Table words and names. -/
theorem table_shape : ∀ e ∈ mappings, (splitPath e.1).head? = some p!"**" ∧
    p!"**" ∉ (splitPath e.1).tail ∧
    (∀ w ∈ (splitPath e.1).tail, '*' ∈ w → w = p!"*" ∨ w = p!"*_bindings") ∧
    splitPath e.1 = Str.split '.' e.1 := by decide +kernel

/-- `n` is what the abstract segment stands for. -/
inductive Stands : Str → ASeg → Prop
  | lit {n} : Stands n (.lit n)
  | key {n} : ¬ Reserved n → Stands n (.key (isB n))

theorem segA_eq {e} (he : e ∈ mappings) {w : Str} (hw : w ∈ (splitPath e.1).tail) {n a}
    (h : Stands n a) : segMatches w n = segA w a := by
  obtain ⟨h1, h2, h3, h4⟩ := table_shape e he
  by_cases hs : '*' ∈ w
  · rcases h3 w hw hs with rfl | rfl
    · cases h <;> simp [segMatches, segA]
    · cases h with
      | lit =>
        by_cases hn : p!"*_bindings" = n
        · subst hn; decide
        · simp [segA, hn, isB]
      | key => simp [segA, isB]
  · have w1 : w ≠ p!"*" := by rintro rfl; exact hs (by decide)
    have w2 : w ≠ p!"*_bindings" := by rintro rfl; exact hs (by decide)
    cases h with
    | lit => simp [segMatches, segA, w1, w2, hs]
    | key hr =>
      have : w ≠ n := by
        rintro rfl
        refine hr (.inr ⟨e, he, ?_⟩)
        rw [← h4]; exact List.mem_of_mem_tail hw
      simp [segMatches, segA, w1, w2, hs, this]

theorem matchA_iff (ps : List Str) (ss : List ASeg) :
    matchA ps ss = true ↔ ∃ u v, ss = u ++ v ∧ List.Forall₂ (fun p s => segA p s = true) ps u := by
  induction ps generalizing ss with
  | nil => simp only [matchA, true_iff]; exact ⟨[], ss, rfl, .nil⟩
  | cons p ps ih =>
    cases ss with
    | nil =>
      simp only [matchA, Bool.false_eq_true, false_iff]
      rintro ⟨u, v, h1, h2⟩
      cases h2; simp at h1
    | cons s ss =>
      simp only [matchA, Bool.and_eq_true, ih]
      constructor
      · rintro ⟨h1, u, v, rfl, h2⟩; exact ⟨s :: u, v, rfl, .cons h1 h2⟩
      · rintro ⟨u, v, h1, h2⟩
        cases h2 with
        | cons h3 h4 =>
          simp only [List.cons_append, List.cons.injEq] at h1
          obtain ⟨rfl, rfl⟩ := h1
          exact ⟨h3, _, _, rfl, h4⟩

theorem forall_seg {ws ns : List Str} {ds} (h1 : List.Forall₂ SegAligns ws ns)
    (h2 : List.Forall₂ Stands ns ds)
    (h3 : ∀ w ∈ ws, ∀ n a, Stands n a → (SegAligns w n ↔ segA w a = true)) :
    List.Forall₂ (fun p s => segA p s = true) ws ds := by
  induction h1 generalizing ds with
  | nil => cases h2; exact .nil
  | cons h _ ih =>
    cases h2 with
    | cons h4 h5 => exact .cons ((h3 _ (by simp) _ _ h4).1 h) (ih h5 fun w hw => h3 w (by simp [hw]))

theorem matches_abs {e} (he : e ∈ mappings) {names : List Str} {segs : List ASeg}
    (h : List.Forall₂ Stands names segs) :
    matchParts (splitPath e.1) names = matchA (splitPath e.1).tail.reverse segs.reverse := by
  obtain ⟨h1, h2, -, -⟩ := table_shape e he
  have hse : ∀ w ∈ (splitPath e.1).tail, ∀ n a, Stands n a → (SegAligns w n ↔ segA w a = true) := by
    intro w hw n a hs
    rw [← segMatches_iff, segA_eq he hw hs]
  generalize splitPath e.1 = pat at h1 h2 hse
  cases pat with
  | nil => simp at h1
  | cons p tail =>
    simp only [List.head?_cons, Option.some.injEq] at h1
    subst h1
    simp only [List.tail_cons] at h2 hse ⊢
    rw [Bool.eq_iff_iff, matchParts_iff, matchA_iff]
    constructor
    · intro hal
      cases hal with
      | seg h => rename_i hne _ _; exact absurd rfl hne
      | @dstar _ ss ts hal =>
        have hf := aligns_tail h2 hal
        refine ⟨(segs.drop ss.length).reverse, (segs.take ss.length).reverse, ?_, ?_⟩
        · rw [← List.reverse_append, List.take_append_drop]
        · rw [List.forall₂_reverse_iff]
          have hd : List.Forall₂ Stands ts (segs.drop ss.length) := by
            have := List.forall₂_drop ss.length h
            simpa using this
          exact forall_seg hf hd hse
    · rintro ⟨u, v, h3, h4⟩
      have e1 : segs = v.reverse ++ u.reverse := by
        rw [← List.reverse_append, ← h3, List.reverse_reverse]
      subst e1
      have h5 : List.Forall₂ (fun p s => segA p s = true) tail u.reverse := by
        have := List.forall₂_reverse_iff.2 h4
        simpa using this
      obtain ⟨n1, n2, a1, a2, rfl⟩ : ∃ n1 n2, List.Forall₂ Stands n1 v.reverse ∧
          List.Forall₂ Stands n2 u.reverse ∧ names = n1 ++ n2 := by
        refine ⟨names.take v.length, names.drop v.length, ?_, ?_, (List.take_append_drop _ _).symm⟩
        · have := List.forall₂_take v.length h; simpa using this
        · have := List.forall₂_drop v.length h; simpa using this
      refine .dstar ?_
      clear h h3 h4 a1
      have key : ∀ {ws ns : List Str} {ds}, List.Forall₂ (fun p s => segA p s = true) ws ds →
          List.Forall₂ Stands ns ds → p!"**" ∉ ws →
          (∀ w ∈ ws, ∀ n a, Stands n a → (SegAligns w n ↔ segA w a = true)) → Aligns ws ns := by
        intro ws ns ds h1 h2 hnd h3
        induction h1 generalizing ns with
        | nil => cases h2; exact .nil
        | cons h _ ih =>
          cases h2 with
          | cons h4 h5 =>
            exact .seg (fun he => hnd (by simp [he])) ((h3 _ (by simp) _ _ h4).2 h)
              (ih h5 (fun hm => hnd (by simp [hm])) fun w hw => h3 w (by simp [hw]))
      exact key h5 a2 h2 hse

theorem bestA_eq {path : Str} {segs : List ASeg}
    (h : List.Forall₂ Stands (splitPath path) segs) (M : List (Str × List Cls))
    (hM : ∀ e ∈ M, e ∈ mappings) (best) :
    bestLoop path M best =
      bestA segs.reverse (M.map fun e => ((splitPath e.1).tail.reverse, specificity e.1, e.2)) best := by
  induction M generalizing best with
  | nil => rfl
  | cons e es ih =>
    have ih' := ih fun e he => hM e (by simp [he])
    have hm := matches_abs (hM e (by simp)) h
    obtain ⟨pat, ty⟩ := e
    simp only [bestLoop, List.map_cons, bestA, pathMatches, hm, ih']
    cases best <;> rfl

theorem expectedType_abs (U : Uni) {steps : List LocStep} (hg : Good steps) {segs : List ASeg}
    (h : List.Forall₂ Stands (names steps) segs) :
    expectedType U mappings (render steps) = (bestA (segs.reverse ++ [.lit p!"spec"]) rows none).map Prod.fst := by
  have h' : List.Forall₂ Stands (splitPath (normalize U (render steps))) (.lit p!"spec" :: segs) := by
    rw [split_normalize U hg]; exact .cons .lit h
  rw [expectedType, bestA_eq h' mappings (fun _ h => h), rows, List.reverse_cons]

/-! ### Abstract steps -/

/-- The abstract segment of a step. -/
def absStep : LocStep → Option ASeg
  | .field f => if f = p!"root" then none else some (.lit f)
  | .key k => some (.key (isB k))
  | .index _ => none

theorem filterMap_index (i : Nat) (ss : List LocStep) :
    (LocStep.index i :: ss).filterMap absStep = ss.filterMap absStep := rfl

theorem stands_names {steps : List LocStep} (h : ∀ k, .key k ∈ steps → ¬ Reserved k) :
    List.Forall₂ Stands (names steps) (steps.filterMap absStep) := by
  induction steps with
  | nil => exact .nil
  | cons s ss ih =>
    have ih' := ih fun k hk => h k (by simp [hk])
    cases s with
    | index i => rw [filterMap_index]; simpa [names, dropRoot] using ih'
    | key k =>
      have := List.Forall₂.cons (Stands.key (h k (by simp))) ih'
      simpa [names, dropRoot, absStep] using this
    | field f =>
      by_cases hf : f = p!"root"
      · subst hf; simpa [names, dropRoot, absStep] using ih'
      · have := List.Forall₂.cons (Stands.lit (n := f)) ih'
        simpa [names, dropRoot, absStep, hf] using this

/-! ### Good locations -/

theorem _root_.Verif.Path.Good.snoc_index {l : List LocStep} (h : Good l) (i : Nat) : Good (l ++ [.index i]) := by
  induction h with
  | nil => exact .index .nil
  | index _ ih => exact .index ih
  | key h1 h2 _ ih => exact .key h1 h2 ih
  | field h1 h2 _ ih => exact .field h1 h2 ih
  | root h1 h2 _ ih => exact .root h1 h2 ih

theorem _root_.Verif.Path.Good.snoc_key {l : List LocStep} (h : Good l) {k} (hk : Tame k) (hn : k ≠ p!"root") :
    Good (l ++ [.key k]) := by
  induction h with
  | nil => exact .key hk hn .nil
  | index _ ih => exact .index ih
  | key h1 h2 _ ih => exact .key h1 h2 ih
  | field h1 h2 _ ih => exact .field h1 h2 ih
  | root h1 h2 _ ih => exact .root h1 h2 ih

theorem _root_.Verif.Path.Good.snoc_field {l : List LocStep} (h : Good l) {k} (hk : Tame k) (hn : k ≠ p!"root") :
    Good (l ++ [.field k]) := by
  induction h with
  | nil => exact .field hk hn .nil
  | index _ ih => exact .index ih
  | key h1 h2 _ ih => exact .key h1 h2 ih
  | field h1 h2 _ ih => exact .field h1 h2 ih
  | root h1 h2 _ ih => exact .root h1 h2 ih

theorem _root_.Verif.Path.Good.snoc_root {l : List LocStep} (h : Good l) {k} (hk : Tame k) (hn : k ≠ p!"root") :
    Good (l ++ [.field p!"root"] ++ [.key k]) := by
  rw [List.append_assoc]
  induction h with
  | nil => exact .root hk hn .nil
  | index _ ih => exact .index ih
  | key h1 h2 _ ih => exact .key h1 h2 ih
  | field h1 h2 _ ih => exact .field h1 h2 ih
  | root h1 h2 _ ih => exact .root h1 h2 ih

def isDict : Ty Cls → Bool
  | .dict _ => true
  | _ => false

def fieldOk (f : FieldDef Cls) : Bool :=
  (f.name.all fun c => c ≠ '.' && c ≠ '\\' && c ≠ '[') && (decide (f.name ≠ p!"root") || isDict f.ty)

theorem fields_ok' : Cls.all.all (fun c => (classDef c).fields.all fieldOk) = true := by decide +kernel

theorem fields_ok {c : Cls} {f} (hf : f ∈ (classDef c).fields) :
    Tame f.name ∧ (f.name = p!"root" → isDict f.ty = true) := by
  have h1 := List.all_eq_true.1 fields_ok' c (Cls.mem_all c)
  have h2 := List.all_eq_true.1 h1 f hf
  simp only [fieldOk, Bool.and_eq_true, List.all_eq_true, Bool.or_eq_true, decide_eq_true_eq] at h2
  refine ⟨fun ch hc => ?_, fun hr => ?_⟩
  · have := h2.1 ch hc
    exact ⟨this.1.1, this.1.2, this.2⟩
  · rcases h2.2 with h | h
    · exact absurd hr h
    · exact h

theorem declared_good {l o t} (h : Declared l o t) (hk : OrdinaryKeys l) :
    Good l ∨ ∃ l', l = l' ++ [.field p!"root"] ∧ Good l' ∧ isDict t = true := by
  induction h with
  | spec => exact .inl .nil
  | @item l o t u i _ hm ih =>
    rcases ih (fun k hk' => hk k (by simp [hk'])) with h | ⟨l', _, _, h3⟩
    · exact .inl (h.snoc_index i)
    · cases t <;> simp_all [isDict, members]
  | @entry l o t u k _ hm ih =>
    obtain ⟨h1, h2⟩ := hk k (by simp)
    have hn : k ≠ p!"root" := fun h => h2 (.inl h)
    rcases ih (fun k hk' => hk k (by simp [hk'])) with h | ⟨l', rfl, hg, h3⟩
    · exact .inl (h.snoc_key h1 hn)
    · exact .inl (hg.snoc_root h1 hn)
  | @field l o t c f _ hm hf _ ih =>
    rcases ih (fun k hk' => hk k (by simp [hk'])) with h | ⟨l', _, _, h3⟩
    · obtain ⟨h1, h2⟩ := fields_ok hf
      by_cases hr : f.name = p!"root"
      · exact .inr ⟨l, by rw [hr], h, h2 hr⟩
      · exact .inl (h.snoc_field h1 hr)
    · cases t <;> simp_all [isDict, members]

/-! ### Enumeration -/

def isReference : Ty Cls → Bool
  | .model .Reference => true
  | _ => false

/-- Decides a check at all slots at and below a position. -/
def checkAll (test : List ASeg → Cls × Str → Ty Cls → Bool) : Nat → List ASeg → Cls × Str → Ty Cls → Bool
  | 0, _, _, _ => false
  | n + 1, r, o, t =>
    (!(members t).any isReference || test r o t) &&
    (members t).all fun m => match m with
      | .list u => checkAll test n r o u
      | .dict u => checkAll test n (.key false :: r) o u && checkAll test n (.key true :: r) o u
      | .model c => (classDef c).fields.all fun f => f.exclude ||
          checkAll test n (if f.name = p!"root" then r else .lit f.name :: r) (c, f.name) f.ty
      | _ => true

theorem checkAll_sound {test N} (h : checkAll test N [] (.AsyncAPI3, []) (.model .AsyncAPI3) = true)
    {l o t} (hd : Declared l o t) :
    ∃ n, checkAll test n (l.filterMap absStep).reverse o t = true := by
  induction hd with
  | spec => exact ⟨N, h⟩
  | @item l o t u i _ hm ih =>
    obtain ⟨n, hn⟩ := ih
    cases n with
    | zero => cases hn
    | succ n =>
      simp only [checkAll, Bool.and_eq_true] at hn
      have := List.all_eq_true.1 hn.2 _ hm
      exact ⟨n, by rw [List.filterMap_append, filterMap_index]; simpa using this⟩
  | @entry l o t u k _ hm ih =>
    obtain ⟨n, hn⟩ := ih
    cases n with
    | zero => cases hn
    | succ n =>
      simp only [checkAll, Bool.and_eq_true] at hn
      have := List.all_eq_true.1 hn.2 _ hm
      simp only [Bool.and_eq_true] at this
      refine ⟨n, ?_⟩
      cases hb : isB k with
      | false => simpa [absStep, hb] using this.1
      | true => simpa [absStep, hb] using this.2
  | @field l o t c f _ hm hf he ih =>
    obtain ⟨n, hn⟩ := ih
    cases n with
    | zero => cases hn
    | succ n =>
      simp only [checkAll, Bool.and_eq_true] at hn
      have := List.all_eq_true.1 hn.2 _ hm
      have := List.all_eq_true.1 this _ hf
      simp only [he, Bool.false_or] at this
      refine ⟨n, ?_⟩
      by_cases hr : f.name = p!"root"
      · simpa [absStep, hr] using this
      · simpa [absStep, hr] using this

/-- The targets of a slot, as in `Spec.Slot`. -/
def targets (o : Cls × Str) (t : Ty Cls) : List Cls :=
  if classesOf t ≠ [] then classesOf t
  else if o = (.Channel, p!"servers") then [.Server]
  else if o = (.Operation, p!"channel") ∨ o = (.OperationReply, p!"channel") then [.Channel]
  else if o = (.Operation, p!"messages") ∨ o = (.OperationReply, p!"messages") then [.Message]
  else []

def brokenA (r : List ASeg) (o : Cls × Str) : Bool :=
  decide (.lit p!"traits" ∈ r) &&
    decide (o ∈ [(.OperationTrait, p!"tags"), (.OperationTrait, p!"security"), (.OperationTrait, p!"external_docs"),
      (.MessageTrait, p!"tags"), (.MessageTrait, p!"correlation_id"), (.MessageTrait, p!"external_docs")])

def slotTest (R : List (List Str × (Nat × Nat × Nat × Nat) × List Cls)) (r : List ASeg) (o : Cls × Str) (t : Ty Cls) : Bool :=
  decide ((bestA (r ++ [.lit p!"spec"]) R none).map Prod.fst =
    some (if brokenA r o then [o.1] else targets o t))

end Verif.Slots
