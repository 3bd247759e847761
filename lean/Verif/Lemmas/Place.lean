import Verif.Spec.Place
import Verif.Spec.Refs
import Verif.Lemmas.Render
/-!
# The expected type does not depend on positions in lists
-/
namespace Verif
open Verif.Spec Verif.Path

/-- The same text, but for numbers in brackets that stand for positions. -/
inductive AlikeText : Str → Str → Prop
  | nil : AlikeText [] []
  | char {c s t} : AlikeText s t → AlikeText (c :: s) (c :: t)
  | index {i j s t} : AlikeText s t → AlikeText (stepText (.index i) ++ s) (stepText (.index j) ++ t)

theorem AlikeText.same (s : Str) : AlikeText s s := by
  induction s with
  | nil => exact .nil
  | cons c s ih => exact .char ih

theorem AlikeText.symm {s t} (h : AlikeText s t) : AlikeText t s := by
  induction h with
  | nil => exact .nil
  | char _ ih => exact .char ih
  | index _ ih => exact .index ih

theorem AlikeText.append {s t} (h : AlikeText s t) {s' t'} (h' : AlikeText s' t') : AlikeText (s ++ s') (t ++ t') := by
  induction h with
  | nil => exact h'
  | char _ ih => exact .char ih
  | index _ ih => rw [List.append_assoc, List.append_assoc]; exact .index ih

theorem alike_render {ss ss' : List LocStep} (h : SamePlace ss ss') : AlikeText (render ss) (render ss') := by
  unfold render
  refine (AlikeText.same _).append ?_
  induction h with
  | nil => exact .nil
  | cons h _ ih =>
    simp only [List.flatMap_cons]
    cases h with
    | refl => exact (AlikeText.same _).append ih
    | index => exact .index ih

/-- A text without brackets at the beginning is the same on both sides. -/
theorem alike_prefix {p : Str} (hp : ∀ c ∈ p, c ≠ '[') : ∀ {s t}, AlikeText (p ++ s) t → ∃ t', t = p ++ t' ∧ AlikeText s t' := by
  induction p with
  | nil => exact fun h => ⟨_, rfl, h⟩
  | cons c p ih =>
    intro s t h
    generalize e : (c :: p) ++ s = x at h
    cases h with
    | nil => simp at e
    | char h =>
      simp only [List.cons_append, List.cons.injEq] at e
      obtain ⟨rfl, rfl⟩ := e
      obtain ⟨t', rfl, h'⟩ := ih (fun d hd => hp d (by simp [hd])) h
      exact ⟨t', rfl, h'⟩
    | index h =>
      simp only [List.cons_append, stepText, List.cons.injEq] at e
      exact absurd e.1 (hp c (by simp))

theorem alike_suffix {r : Str} (hr : ∀ c ∈ r, c ≠ '[' ∧ c ≠ ']') {s t} (h : AlikeText s t) : ∀ a, s = a ++ r →
    ∃ b, t = b ++ r ∧ AlikeText a b := by
  induction h with
  | nil =>
    intro a e
    obtain ⟨rfl, rfl⟩ := List.append_eq_nil_iff.1 e.symm
    exact ⟨[], rfl, .nil⟩
  | @char c s t h ih =>
    intro a e
    cases a with
    | nil =>
      rw [List.nil_append] at e
      obtain ⟨t', e', h'⟩ := alike_prefix (p := r) (s := []) (fun c hc => (hr c hc).1) (t := c :: t) (by rw [List.append_nil, ← e]; exact .char h)
      cases h' with
      | nil => exact ⟨[], by simpa using e', .nil⟩
    | cons d a =>
      simp only [List.cons_append, List.cons.injEq] at e
      obtain ⟨rfl, e⟩ := e
      obtain ⟨b, rfl, h'⟩ := ih a e
      exact ⟨_ :: b, rfl, .char h'⟩
  | @index i j s t h ih =>
    intro a e
    rcases List.append_eq_append_iff.1 e with ⟨x, e1, e2⟩ | ⟨x, e1, e2⟩
    · obtain ⟨b, rfl, h'⟩ := ih x e2
      subst e1
      exact ⟨stepText (.index j) ++ b, by rw [List.append_assoc], .index h'⟩
    · rcases List.eq_nil_or_concat x with rfl | ⟨y, z, rfl⟩
      · simp only [List.append_nil, List.nil_append] at e1 e2
        subst e2
        obtain ⟨b, rfl, h'⟩ := ih [] rfl
        refine ⟨stepText (.index j) ++ b, by rw [List.append_assoc], ?_⟩
        rw [← e1]
        have := AlikeText.index (i := i) (j := j) h'
        rwa [List.append_nil] at this
      · have hz : z = ']' := by
          have : (stepText (.index i)).getLast? = some ']' := by
            rw [stepText, ← List.cons_append, List.getLast?_append]; rfl
          rw [e1, List.concat_eq_append, ← List.append_assoc] at this
          simpa using this
        exact absurd hz (hr z (by rw [e2]; simp)).2

theorem index_no_dot (i : Nat) : ∀ c ∈ stepText (.index i), c ≠ '.' := by
  intro c hc
  simp only [stepText, List.mem_cons, List.mem_append, List.not_mem_nil, or_false] at hc
  rcases hc with rfl | hc | rfl
  · decide
  · rintro rfl
    exact absurd ((digits_spec i).2 _ hc) (by decide)
  · decide

theorem replaceAux_hit (rest : Str) : Str.replaceAux p!".root." p!"." 0 (p!".root." ++ rest) =
    '.' :: Str.replaceAux p!".root." p!"." 0 rest := rfl

theorem alike_replace {s t} (h : AlikeText s t) : AlikeText (Str.replace s p!".root." p!".") (Str.replace t p!".root." p!".") := by
  unfold Str.replace
  induction hn : s.length using Nat.strongRecOn generalizing s t with
  | _ n ih =>
    subst hn
    have hd : ∀ c ∈ p!".root.", c ≠ '[' := by decide
    by_cases hp : p!".root." <+: s
    · obtain ⟨s', rfl⟩ := hp
      obtain ⟨t', rfl, h'⟩ := alike_prefix hd h
      rw [replaceAux_hit, replaceAux_hit]
      exact .char (ih s'.length (by simp; omega) h' rfl)
    · have hq : ¬ p!".root." <+: t := by
        rintro ⟨t', rfl⟩
        obtain ⟨s', rfl, -⟩ := alike_prefix hd h.symm
        exact hp ⟨s', rfl⟩
      cases h with
      | nil => exact .nil
      | @char c s t h =>
        have e1 : List.isPrefixOf p!".root." (c :: s) = false := by
          rw [Bool.eq_false_iff]; exact fun h => hp (List.isPrefixOf_iff_prefix.1 h)
        have e2 : List.isPrefixOf p!".root." (c :: t) = false := by
          rw [Bool.eq_false_iff]; exact fun h => hq (List.isPrefixOf_iff_prefix.1 h)
        unfold Str.replaceAux
        rw [e1, e2]
        exact .char (ih s.length (by simp) h rfl)
      | @index i j s t h =>
        rw [replaceAux_pass _ _ (index_no_dot i), replaceAux_pass _ _ (index_no_dot j)]
        exact .index (ih s.length (by simp [stepText]; omega) h rfl)

theorem alike_digits (U : Uni) {s t} (h : AlikeText s t) : ∃ ds s' t', s = ds ++ s' ∧ t = ds ++ t' ∧ AlikeText s' t' ∧
    s.takeWhile U.digit = ds ∧ t.takeWhile U.digit = ds ∧ s'.head? = t'.head? := by
  have hb : U.digit '[' = false := by rw [U.digit_ascii '[' (by decide)]; decide
  induction h with
  | nil => exact ⟨[], [], [], rfl, rfl, .nil, rfl, rfl, rfl⟩
  | @char c s t h ih =>
    obtain ⟨ds, s', t', rfl, rfl, h', e1, e2, e3⟩ := ih
    by_cases hc : U.digit c = true
    · exact ⟨c :: ds, s', t', rfl, rfl, h', by rw [List.takeWhile_cons, if_pos hc, e1], by rw [List.takeWhile_cons, if_pos hc, e2], e3⟩
    · exact ⟨[], _, _, rfl, rfl, .char h, by rw [List.takeWhile_cons, if_neg hc], by rw [List.takeWhile_cons, if_neg hc], rfl⟩
  | @index i j s t h ih =>
    refine ⟨[], _, _, rfl, rfl, .index h, ?_, ?_, rfl⟩ <;>
    · simp only [stepText, List.cons_append]
      rw [List.takeWhile_cons, if_neg (by rw [hb]; simp)]

theorem alike_subIdx (U : Uni) {s t} (h : AlikeText s t) : subIdx U s = subIdx U t := by
  unfold subIdx
  induction hn : s.length using Nat.strongRecOn generalizing s t with
  | _ n ih =>
    subst hn
    cases h with
    | nil => rfl
    | @index i j s t h =>
      rw [subIdxAux_index, subIdxAux_index]
      exact ih s.length (by simp [stepText]; omega) h rfl
    | @char c s t h =>
      obtain ⟨ds, s', t', e1, e2, h', e3, e4, e5⟩ := alike_digits U h
      unfold subIdxAux
      simp only [e3, e4]
      have f1 : s.drop ds.length = s' := by rw [e1]; simp
      have f2 : t.drop ds.length = t' := by rw [e2]; simp
      rw [f1, f2, e5]
      split
      · rename_i hc
        obtain ⟨-, -, hc⟩ := hc
        cases h' with
        | nil => simp at hc
        | index => simp [stepText] at hc
        | @char d s' t' h' =>
          have g1 := subIdxAux_skip U (ds ++ [d]) s'
          have g2 := subIdxAux_skip U (ds ++ [d]) t'
          simp only [List.append_assoc, List.singleton_append, List.length_append, List.length_singleton] at g1 g2
          rw [e1, e2, g1, g2]
          exact ih s'.length (by simp [e1]; omega) h' rfl
      · rw [ih s.length (by simp) h rfl]

theorem alike_normalize (U : Uni) {s t} (h : AlikeText s t) : normalize U s = normalize U t := by
  have h' := alike_replace h
  unfold normalize
  simp only
  have hr : ∀ c ∈ p!".root", c ≠ '[' ∧ c ≠ ']' := by decide
  generalize Str.replace s p!".root." p!"." = x at h' ⊢
  generalize Str.replace t p!".root." p!"." = y at h' ⊢
  unfold Str.endsWith
  by_cases hx : List.isSuffixOf p!".root" x = true
  · obtain ⟨a, rfl⟩ := List.isSuffixOf_iff_suffix.1 hx
    obtain ⟨b, rfl, hab⟩ := alike_suffix hr h' a rfl
    have hy : List.isSuffixOf p!".root" (b ++ p!".root") = true := List.isSuffixOf_iff_suffix.2 ⟨b, rfl⟩
    rw [if_pos hx, if_pos hy]
    have e : ∀ z : Str, (z ++ p!".root").take ((z ++ p!".root").length - 5) = z := by
      intro z
      have : (p!".root").length = 5 := rfl
      rw [List.length_append, this, Nat.add_sub_cancel, List.take_left]
    rw [e, e]
    exact alike_subIdx U hab
  · have hy : ¬ List.isSuffixOf p!".root" y = true := by
      intro hy
      obtain ⟨b, rfl⟩ := List.isSuffixOf_iff_suffix.1 hy
      obtain ⟨a, rfl, -⟩ := alike_suffix hr h'.symm b rfl
      exact hx (List.isSuffixOf_iff_suffix.2 ⟨a, rfl⟩)
    rw [if_neg hx, if_neg hy]
    exact alike_subIdx U h'

/-- What may be expected at a location does not depend on positions in lists. -/
theorem expectedType_place {τ : Type} (U : Uni) (M : List (Str × τ)) {ss ss' : List LocStep} (h : SamePlace ss ss') :
    expectedType U M (render ss) = expectedType U M (render ss') := by
  unfold expectedType
  rw [alike_normalize U (alike_render h)]

theorem shape_place {ss ss' : List LocStep} (h : SamePlace ss ss') : ss.map LocStep.shape = ss'.map LocStep.shape := by
  induction h with
  | nil => rfl
  | cons h _ ih =>
    rw [List.map_cons, List.map_cons, ih]
    cases h <;> rfl

theorem place_symm {ss ss' : List LocStep} (h : SamePlace ss ss') : SamePlace ss' ss := by
  induction h with
  | nil => exact .nil
  | cons h _ ih => exact .cons (by cases h; exacts [.refl, .index]) ih

theorem place_refl (ss : List LocStep) : SamePlace ss ss := by
  induction ss with
  | nil => exact .nil
  | cons s ss ih => exact .cons .refl ih

end Verif
