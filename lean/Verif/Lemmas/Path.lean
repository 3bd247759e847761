import Mathlib.Data.List.Forall2
import Verif.Model.Path
import Verif.Spec.Unified
import Verif.Lemmas.Str
import Verif.Gen.Mappings
/-! Lemmas about path escaping, splitting and matching. -/
namespace Verif.Path
open Verif Verif.Spec

theorem replaceAux_single (c : Char) (new : Str) (s : Str) :
    Str.replaceAux [c] new 0 s = s.flatMap fun x => if x = c then new else [x] := by
  induction s with
  | nil => rfl
  | cons x xs ih =>
    simp only [Str.replaceAux, List.isPrefixOf, List.flatMap_cons]
    by_cases h : x = c
    · subst h; simp [ih]
    · have : (c == x) = false := by simp; exact fun e => h e.symm
      simp [this, h, ih]

theorem escape_eq (k : Str) : escape k = escapeSpec k := by
  simp only [escape, Str.replace, replaceAux_single, escapeSpec]
  induction k with
  | nil => rfl
  | cons c cs ih =>
    simp only [List.flatMap_cons, List.flatMap_append, ih]
    congr 1
    by_cases h1 : c = '\\'
    · subst h1; simp
    · by_cases h2 : c = '.'
      · subst h2; simp
      · simp [h1, h2]

theorem splitAux_escape (cur k rest : Str) :
    splitAux false cur (escapeSpec k ++ rest) = splitAux false (cur ++ k) rest := by
  induction k generalizing cur with
  | nil => simp [escapeSpec]
  | cons c cs ih =>
    have e : escapeSpec (c :: cs) = (if c = '.' ∨ c = '\\' then ['\\', c] else [c]) ++ escapeSpec cs := by
      simp [escapeSpec]
    rw [e]
    by_cases h : c = '.' ∨ c = '\\'
    · rw [if_pos h]
      simp only [List.cons_append, List.nil_append]
      rw [splitAux, if_pos rfl, splitAux, ih]
      simp
    · rw [if_neg h]
      rw [not_or] at h
      simp only [List.cons_append, List.nil_append]
      rw [splitAux, if_neg h.2, if_neg h.1, ih]
      simp

theorem splitPath_join (segs : List Str) (h : segs ≠ []) :
    splitPath (Str.join '.' (segs.map escapeSpec)) = segs := by
  induction segs with
  | nil => exact absurd rfl h
  | cons s ss ih =>
    cases ss with
    | nil =>
      have := splitAux_escape [] s []
      simpa [splitPath, Str.join, splitAux] using this
    | cons t ts =>
      rw [List.map_cons, Str.join_cons _ _ (by simp), splitPath, splitAux_escape, splitAux]
      simp only [Char.reduceEq, if_false, if_true, List.nil_append]
      rw [← splitPath, ih (by simp)]

/-- Plain segments need no escaping. -/
def Plain (s : Str) : Prop := ∀ c ∈ s, c ≠ '.' ∧ c ≠ '\\'

theorem escapeSpec_plain {s : Str} (h : Plain s) : escapeSpec s = s := by
  induction s with
  | nil => rfl
  | cons c cs ih =>
    have := h c (by simp)
    simp [escapeSpec, this]
    exact ih (fun d hd => h d (by simp [hd]))

theorem splitPath_join_plain (segs : List Str) (h : segs ≠ []) (hp : ∀ s ∈ segs, Plain s) :
    splitPath (Str.join '.' segs) = segs := by
  have e : segs.map escapeSpec = segs := by
    have := List.map_congr_left (f := escapeSpec) (g := id)
      (fun s hs => escapeSpec_plain (hp s hs)) (l := segs)
    simpa using this
  have := splitPath_join segs h
  rwa [e] at this

/-! ### Matching -/

theorem anyTail_iff (f : Str → Bool) (s : Str) : anyTail f s = true ↔ ∃ u t, s = u ++ t ∧ f t = true := by
  induction s with
  | nil =>
    simp only [anyTail]
    constructor
    · intro h; exact ⟨[], [], rfl, h⟩
    · rintro ⟨u, t, h, ht⟩
      have := List.append_eq_nil_iff.1 h.symm
      rw [this.2] at ht; exact ht
  | cons c cs ih =>
    simp only [anyTail, Bool.or_eq_true, ih]
    constructor
    · rintro (h | ⟨u, t, rfl, h⟩)
      · exact ⟨[], _, rfl, h⟩
      · exact ⟨c :: u, t, rfl, h⟩
    · rintro ⟨u, t, h, ht⟩
      cases u with
      | nil => left; simp at h; rw [h]; exact ht
      | cons x xs => simp at h; exact .inr ⟨xs, t, h.2, ht⟩

theorem globMatch_iff (p s : Str) : globMatch p s = true ↔ Glob p s := by
  induction p generalizing s with
  | nil =>
    simp only [globMatch, List.isEmpty_iff]
    constructor
    · rintro rfl; exact .nil
    · intro h; cases h; rfl
  | cons x p ih =>
    simp only [globMatch]
    split
    · rename_i h; subst h
      rw [anyTail_iff]
      constructor
      · rintro ⟨u, t, rfl, h⟩; exact .star ((ih t).1 h)
      · intro h
        cases h with
        | star h => exact ⟨_, _, rfl, (ih _).2 h⟩
        | char h => exact absurd rfl h
    · rename_i hx
      cases s with
      | nil => constructor
               · intro h; cases h
               · intro h
                 generalize hs : ([] : Str) = s0 at h
                 cases h <;> simp_all
      | cons c cs =>
        simp only [Bool.and_eq_true, Bool.or_eq_true, decide_eq_true_eq, ih]
        constructor
        · rintro ⟨h, hg⟩
          by_cases hq : x = '?'
          · subst hq; exact .any hg
          · rcases h with h | rfl
            · exact absurd h hq
            · exact .char hx hq hg
        · intro h
          generalize hs : c :: cs = s0 at h
          cases h with
          | star => exact absurd rfl hx
          | any hg => cases hs; exact ⟨.inl rfl, hg⟩
          | char _ _ hg => cases hs; exact ⟨.inr rfl, hg⟩

theorem segMatches_iff (p s : Str) : segMatches p s = true ↔ SegAligns p s := by
  unfold segMatches
  split
  · rename_i h; subst h; simp; exact .star
  · rename_i h
    split
    · rename_i h2
      rw [globMatch_iff]
      constructor
      · exact .glob h2 h
      · intro h'
        cases h' with
        | star => exact absurd rfl h
        | glob _ _ h => exact h
        | lit h3 => exact absurd h2 h3
    · rename_i h2
      simp only [decide_eq_true_eq]
      constructor
      · rintro rfl; exact .lit h2
      · intro h'
        cases h' with
        | star => exact absurd rfl h
        | glob h3 => exact absurd h3 h2
        | lit => rfl

theorem anySuffix_iff (f : List Str → Bool) (s : List Str) :
    anySuffix f s = true ↔ ∃ u t, s = u ++ t ∧ f t = true := by
  induction s with
  | nil =>
    simp only [anySuffix]
    constructor
    · intro h; exact ⟨[], [], rfl, h⟩
    · rintro ⟨u, t, h, ht⟩
      have := List.append_eq_nil_iff.1 h.symm
      rw [this.2] at ht; exact ht
  | cons c cs ih =>
    simp only [anySuffix, Bool.or_eq_true, ih]
    constructor
    · rintro (h | ⟨u, t, rfl, h⟩)
      · exact ⟨[], _, rfl, h⟩
      · exact ⟨c :: u, t, rfl, h⟩
    · rintro ⟨u, t, h, ht⟩
      cases u with
      | nil => left; simp at h; rw [h]; exact ht
      | cons x xs => simp at h; exact .inr ⟨xs, t, h.2, ht⟩

theorem matchParts_iff (ps ss : List Str) : matchParts ps ss = true ↔ Aligns ps ss := by
  induction ps generalizing ss with
  | nil =>
    simp only [matchParts, List.isEmpty_iff]
    constructor
    · rintro rfl; exact .nil
    · intro h; cases h; rfl
  | cons p ps ih =>
    simp only [matchParts]
    split
    · rename_i h; subst h
      split
      · rename_i h; subst h
        simp only [true_iff]
        have := Aligns.dstar (ss := ss) Aligns.nil
        simpa using this
      · rw [anySuffix_iff]
        constructor
        · rintro ⟨u, t, rfl, h⟩; exact .dstar ((ih t).1 h)
        · intro h
          cases h with
          | dstar h => exact ⟨_, _, rfl, (ih _).2 h⟩
          | seg h => exact absurd rfl h
    · rename_i hp
      cases ss with
      | nil =>
        constructor
        · intro h; cases h
        · intro h
          generalize hs : ([] : List Str) = s0 at h
          cases h <;> simp_all
      | cons s ss =>
        simp only [Bool.and_eq_true, ih, segMatches_iff]
        constructor
        · rintro ⟨h1, h2⟩; exact .seg hp h1 h2
        · intro h
          generalize hs : s :: ss = s0 at h
          cases h with
          | dstar => exact absurd rfl hp
          | seg _ h1 h2 => cases hs; exact ⟨h1, h2⟩

/-! ### Best match -/

theorem scoreLt_irrefl (a) : scoreLt a a = false := by simp [scoreLt]

theorem scoreLt_trans {a b c} (h1 : scoreLt a b = true) (h2 : scoreLt b c = true) :
    scoreLt a c = true := by
  simp only [scoreLt, decide_eq_true_eq] at *; omega

theorem scoreLt_total {a b} (h1 : scoreLt a b = false) (h2 : scoreLt b a = false) : a = b := by
  obtain ⟨a1, a2, a3, a4⟩ := a
  obtain ⟨b1, b2, b3, b4⟩ := b
  simp only [scoreLt, decide_eq_false_iff_not] at *
  simp only [Prod.mk.injEq]; omega

theorem scoreLt_of_not {a b} (h : scoreLt a b = false) : scoreLt b a = true ∨ a = b := by
  cases h2 : scoreLt b a with
  | true => exact .inl rfl
  | false => exact .inr (scoreLt_total h h2)

/-- Characterisation of the loop. -/
theorem bestLoop_spec {τ : Type} (path : Str) (M : List (Str × τ))
    (best : Option (τ × (Nat × Nat × Nat × Nat))) :
    (bestLoop path M best = none ↔ best = none ∧ ∀ e ∈ M, pathMatches e.1 path = false) ∧
    (∀ t sc, bestLoop path M best = some (t, sc) →
      (best = some (t, sc) ∨ ∃ e ∈ M, pathMatches e.1 path = true ∧ e.2 = t ∧ specificity e.1 = sc) ∧
      (∀ e ∈ M, pathMatches e.1 path = true → scoreLt sc (specificity e.1) = false) ∧
      (∀ b bs, best = some (b, bs) → scoreLt sc bs = false)) := by
  induction M generalizing best with
  | nil =>
    constructor
    · simp [bestLoop]
    · intro t sc h
      simp only [bestLoop] at h
      refine ⟨.inl h, by simp, ?_⟩
      intro b bs hb; rw [h] at hb; cases hb; exact scoreLt_irrefl _
  | cons e es ih =>
    obtain ⟨pat, ty⟩ := e
    by_cases hm : pathMatches pat path = true
    · have step : ∃ best', bestLoop path ((pat, ty) :: es) best = bestLoop path es (some best') ∧
          (best' = (ty, specificity pat) ∨ best = some best') ∧
          scoreLt best'.2 (specificity pat) = false ∧
          ∀ b bs, best = some (b, bs) → scoreLt best'.2 bs = false := by
        simp only [bestLoop, hm, Bool.not_true, Bool.false_eq_true, if_false]
        cases best with
        | none => exact ⟨(ty, specificity pat), rfl, .inl rfl, scoreLt_irrefl _, by simp⟩
        | some b =>
          obtain ⟨bt, bs⟩ := b
          simp only
          split
          · rename_i hlt
            refine ⟨(ty, specificity pat), rfl, .inl rfl, scoreLt_irrefl _, ?_⟩
            intro b' bs' hb; cases hb
            cases hc : scoreLt (specificity pat) bs with
            | false => rfl
            | true =>
              have := scoreLt_trans hlt hc
              rw [scoreLt_irrefl] at this; cases this
          · rename_i hlt
            refine ⟨(bt, bs), rfl, .inr rfl, by simpa using hlt, ?_⟩
            intro b' bs' hb; cases hb; exact scoreLt_irrefl _
      obtain ⟨best', h1, h2, h3, h4⟩ := step
      rw [h1]
      obtain ⟨ih1, ih2⟩ := ih (some best')
      constructor
      · constructor
        · intro h; rw [ih1] at h; cases h.1
        · rintro ⟨_, h⟩
          have := h (pat, ty) (by simp)
          rw [hm] at this; cases this
      · intro t sc h
        obtain ⟨ha, hb, hc⟩ := ih2 t sc h
        have mono : ∀ x, scoreLt best'.2 x = false → scoreLt sc x = false := by
          intro x hx
          have hle := hc best'.1 best'.2 rfl
          cases hq : scoreLt sc x with
          | false => rfl
          | true =>
            rcases scoreLt_of_not hle with h | h
            · rw [scoreLt_trans h hq] at hx; cases hx
            · rw [← h, hq] at hx; cases hx
        refine ⟨?_, ?_, ?_⟩
        · rcases ha with ha | ⟨e, he, h5⟩
          · cases ha
            rcases h2 with h2 | h2
            · right
              refine ⟨(pat, ty), by simp, hm, ?_, ?_⟩
              · exact (congrArg Prod.fst h2).symm
              · exact (congrArg Prod.snd h2).symm
            · left; exact h2
          · right; exact ⟨e, by simp [he], h5⟩
        · intro e he hme
          rcases List.mem_cons.1 he with rfl | he
          · exact mono _ h3
          · exact hb e he hme
        · intro b bs hbest; exact mono _ (h4 b bs hbest)
    · have hm' : pathMatches pat path = false := by simpa using hm
      have e1 : bestLoop path ((pat, ty) :: es) best = bestLoop path es best := by
        simp [bestLoop, hm']
      rw [e1]
      obtain ⟨ih1, ih2⟩ := ih best
      constructor
      · rw [ih1]
        constructor
        · rintro ⟨h1, h2⟩
          refine ⟨h1, ?_⟩
          intro e he
          rcases List.mem_cons.1 he with rfl | he
          · exact hm'
          · exact h2 e he
        · rintro ⟨h1, h2⟩; exact ⟨h1, fun e he => h2 e (by simp [he])⟩
      · intro t sc h
        obtain ⟨ha, hb, hc⟩ := ih2 t sc h
        refine ⟨?_, ?_, hc⟩
        · rcases ha with ha | ⟨e, he, h5⟩
          · exact .inl ha
          · exact .inr ⟨e, by simp [he], h5⟩
        · intro e he hme
          rcases List.mem_cons.1 he with rfl | he
          · rw [hm'] at hme; cases hme
          · exact hb e he hme

/-! ### Specificity -/

theorem scoreLt_iff (p q : Str) :
    scoreLt (specificity p) (specificity q) = true ↔ MoreSpecific (splitPath q) (splitPath p) := by
  have star : ∀ s : Str, (s = p!"**" ∨ '*' ∈ s) ↔ '*' ∈ s := by
    intro s; constructor
    · rintro (rfl | h)
      · decide
      · exact h
    · exact .inr
  have h1 : ∀ l : List Str, (l.filter (fun p => ¬ (p = p!"**" ∨ '*' ∈ p))).length = literals l := by
    intro l; rw [literals, List.countP_eq_length_filter]; simp only [star]
  have h2 : ∀ l : List Str, (l.filter (· = p!"**")).length = doubles l := by
    intro l; rw [doubles, List.countP_eq_length_filter]
  have h3 : ∀ l : List Str, (l.filter (fun p => p = p!"**" ∨ '*' ∈ p)).length = wilds l := by
    intro l; rw [wilds, List.countP_eq_length_filter]; simp only [star]
  simp only [scoreLt, specificity, decide_eq_true_eq, h1, h2, h3, MoreSpecific]
  omega

/-- Two patterns `**.t₁`, `**.t₂` without further `**`, of equal length and with
different literals at some position. -/
def conflict (p q : Str) : Bool :=
  match splitPath p, splitPath q with
  | a :: t₁, b :: t₂ =>
    decide (a = p!"**") && decide (b = p!"**") && decide (p!"**" ∉ t₁) && decide (p!"**" ∉ t₂) &&
    decide (t₁.length = t₂.length) &&
    (t₁.zip t₂).any fun x => decide ('*' ∉ x.1) && decide ('*' ∉ x.2) && decide (x.1 ≠ x.2)
  | _, _ => false

theorem aligns_tail {t ss : List Str} (ht : p!"**" ∉ t) (h : Aligns t ss) :
    List.Forall₂ SegAligns t ss := by
  induction h with
  | nil => exact .nil
  | dstar => simp at ht
  | seg _ h1 _ ih => exact .cons h1 (ih (fun hm => ht (List.mem_cons_of_mem _ hm)))

theorem segAligns_lit {p s : Str} (hp : '*' ∉ p) (h : SegAligns p s) : s = p := by
  cases h with
  | star => exact absurd (by decide) hp
  | glob h => exact absurd h hp
  | lit => rfl

theorem conflict_disjoint {p q : Str} (h : conflict p q = true) (path : List Str)
    (h1 : Aligns (splitPath p) path) (h2 : Aligns (splitPath q) path) : False := by
  unfold conflict at h
  split at h
  case h_2 => cases h
  case h_1 a t₁ b t₂ e1 e2 =>
    simp only [Bool.and_eq_true, decide_eq_true_eq] at h
    obtain ⟨⟨⟨⟨⟨rfl, rfl⟩, n1⟩, n2⟩, hl⟩, hany⟩ := h
    rw [e1] at h1; rw [e2] at h2
    have dec : ∀ {t : List Str}, Aligns (p!"**" :: t) path → ∃ u v, path = u ++ v ∧ Aligns t v := by
      intro t h
      generalize hp : path = path' at h
      cases h with
      | dstar h => exact ⟨_, _, rfl, h⟩
      | seg h => exact absurd rfl h
    obtain ⟨u1, v1, rfl, a1⟩ := dec h1
    obtain ⟨u2, v2, hu, a2⟩ := dec h2
    have f1 := aligns_tail n1 a1
    have f2 := aligns_tail n2 a2
    have : v1 = v2 := by
      have := List.append_inj' hu (by rw [← f1.length_eq, ← f2.length_eq, hl])
      exact this.2
    subst this
    clear h1 h2 dec hu a1 a2 e1 e2 hl n1 n2
    induction f1 generalizing t₂ with
    | nil => simp at hany
    | @cons x y xs ys hx hxs ih =>
      cases f2 with
      | @cons z _ zs _ hz hzs =>
        simp only [List.zip_cons_cons, List.any_cons, Bool.or_eq_true, Bool.and_eq_true,
          decide_eq_true_eq] at hany
        rcases hany with ⟨⟨l1, l2⟩, l3⟩ | hany
        · exact l3 ((segAligns_lit l1 hx).symm.trans (segAligns_lit l2 hz))
        · exact ih zs hany hzs

theorem table_conflict : ∀ e ∈ Gen.mappings, ∀ e' ∈ Gen.mappings,
    specificity e.1 = specificity e'.1 → e.2 ≠ e'.2 → conflict e.1 e'.1 = true := by
  decide +kernel

end Verif.Path
