import Verif.Model.Patterns
import Verif.Spec.Patterns
/-! Semantics of the regular expressions. -/
namespace Verif.Regex
open Verif Verif.Spec Verif.Patterns

theorem mem_starEnds {p : Char → Bool} {s t : Str} :
    t ∈ starEnds p s ↔ ∃ u, s = u ++ t ∧ ∀ c ∈ u, p c = true := by
  induction s generalizing t with
  | nil =>
    simp only [starEnds, List.mem_singleton]
    constructor
    · rintro rfl; exact ⟨[], by simp⟩
    · rintro ⟨u, h, _⟩
      exact (List.append_eq_nil_iff.1 h.symm).2
  | cons c cs ih =>
    simp only [starEnds]
    split
    · rename_i hc
      rw [List.mem_append, ih, List.mem_singleton]
      constructor
      · rintro (⟨u, rfl, hu⟩ | rfl)
        · exact ⟨c :: u, rfl, by simpa [hc] using hu⟩
        · exact ⟨[], rfl, by simp⟩
      · rintro ⟨u, h, hu⟩
        cases u with
        | nil => right; exact h.symm
        | cons d u =>
          simp only [List.cons_append, List.cons.injEq] at h
          left; exact ⟨u, h.2, fun x hx => hu x (by simp [hx])⟩
    · rename_i hc
      rw [List.mem_singleton]
      constructor
      · rintro rfl; exact ⟨[], rfl, by simp⟩
      · rintro ⟨u, h, hu⟩
        cases u with
        | nil => exact h.symm
        | cons d u =>
          simp only [List.cons_append, List.cons.injEq] at h
          exact absurd (h.1 ▸ hu d (by simp)) hc

theorem isMatch_iff {r : Regex} {s : Str} : isMatch r s = true ↔ ∃ t, t ∈ ends s r s := by
  simp [isMatch, List.eq_nil_iff_forall_not_mem]

theorem mem_chr {w s t : Str} {p : Char → Bool} :
    t ∈ ends w (.chr p) s ↔ ∃ c, s = c :: t ∧ p c = true := by
  cases s with
  | nil => simp [ends]
  | cons c cs =>
    simp only [ends]
    constructor
    · intro h
      split at h
      · rename_i hc; rw [List.mem_singleton] at h; subst h; exact ⟨c, rfl, hc⟩
      · cases h
    · rintro ⟨d, e, hd⟩
      cases e
      simp [hd]

theorem mem_lit {w s t : Str} {x : Char} : t ∈ ends w (lit x) s ↔ s = x :: t := by
  simp only [lit, mem_chr, beq_iff_eq]
  constructor
  · rintro ⟨c, rfl, rfl⟩; rfl
  · rintro rfl; exact ⟨x, rfl, rfl⟩

theorem mem_seq {w s t : Str} {r r' : Regex} :
    t ∈ ends w (.seq r r') s ↔ ∃ m, m ∈ ends w r s ∧ t ∈ ends w r' m := by
  simp [ends]

theorem mem_star {w s t : Str} {p : Char → Bool} :
    t ∈ ends w (.star p) s ↔ ∃ u, s = u ++ t ∧ ∀ c ∈ u, p c = true := mem_starEnds

theorem mem_plus {w s t : Str} {p : Char → Bool} :
    t ∈ ends w (plus p) s ↔ ∃ u, s = u ++ t ∧ u ≠ [] ∧ ∀ c ∈ u, p c = true := by
  rw [plus, mem_seq]
  constructor
  · rintro ⟨m, h1, h2⟩
    obtain ⟨c, rfl, hc⟩ := mem_chr.1 h1
    obtain ⟨u, rfl, hu⟩ := mem_star.1 h2
    exact ⟨c :: u, rfl, by simp, by simpa [hc] using hu⟩
  · rintro ⟨u, rfl, hne, hu⟩
    cases u with
    | nil => exact absurd rfl hne
    | cons c u =>
      exact ⟨u ++ t, mem_chr.2 ⟨c, rfl, hu c (by simp)⟩, mem_star.2 ⟨u, rfl, fun x hx => hu x (by simp [hx])⟩⟩

theorem mem_opt {w s t : Str} {r : Regex} : t ∈ ends w (.opt r) s ↔ t ∈ ends w r s ∨ t = s := by
  simp [ends]

theorem mem_bol {w s t : Str} : t ∈ ends w .bol s ↔ t = s ∧ s.length = w.length := by
  simp only [ends]; split <;> simp [*]

theorem mem_eol {w s t : Str} : t ∈ ends w .eol s ↔ t = s ∧ (s = [] ∨ s = ['\n']) := by
  simp only [ends]; split <;> simp [*]

theorem mem_notAhead {w s t : Str} {r : Regex} :
    t ∈ ends w (.notAhead r) s ↔ t = s ∧ ∀ m, m ∉ ends w r s := by
  simp only [ends]
  split
  · rename_i h; simp [h]
  · rename_i h
    simp only [List.not_mem_nil, false_iff, not_and]
    intro _ h'
    obtain ⟨m, hm⟩ := List.exists_mem_of_ne_nil _ h
    exact h' m hm

theorem isSearch_iff {r : Regex} {s : Str} :
    isSearch r s = true ↔ ∃ a b t, s = a ++ b ∧ t ∈ ends s r b := by
  have key : ∀ (w u : Str), searchFrom w r u = true ↔ ∃ a b t, u = a ++ b ∧ t ∈ ends w r b := by
    intro w u
    induction u with
    | nil =>
      simp only [searchFrom, Bool.not_eq_true', List.isEmpty_eq_false_iff_exists_mem]
      constructor
      · rintro ⟨t, ht⟩; exact ⟨[], [], t, rfl, ht⟩
      · rintro ⟨a, b, t, h, ht⟩
        obtain ⟨rfl, rfl⟩ := List.append_eq_nil_iff.1 h.symm
        exact ⟨t, ht⟩
    | cons c cs ih =>
      simp only [searchFrom]
      split
      · rename_i h
        rw [List.isEmpty_iff] at h
        rw [ih]
        constructor
        · rintro ⟨a, b, t, rfl, ht⟩; exact ⟨c :: a, b, t, rfl, ht⟩
        · rintro ⟨a, b, t, e, ht⟩
          cases a with
          | nil => simp only [List.nil_append] at e; subst e; rw [h] at ht; cases ht
          | cons d a =>
            simp only [List.cons_append, List.cons.injEq] at e
            exact ⟨a, b, t, e.2, ht⟩
      · rename_i h
        simp only [true_iff]
        rw [List.isEmpty_iff] at h
        obtain ⟨t, ht⟩ := List.exists_mem_of_ne_nil _ h
        exact ⟨[], c :: cs, t, rfl, ht⟩
  exact key s s

/-- Matching a whole string: `^ r $`. -/
theorem match_anchored {r : Regex} {s : Str} : isMatch (.seq .bol (.seq r .eol)) s = true ↔
    [] ∈ ends s r s ∨ ['\n'] ∈ ends s r s := by
  rw [isMatch_iff]
  simp only [mem_seq, mem_bol, mem_eol]
  constructor
  · rintro ⟨t, _, ⟨rfl, _⟩, m, hm, rfl, rfl | rfl⟩
    · exact .inl hm
    · exact .inr hm
  · rintro (h | h)
    · exact ⟨_, s, ⟨rfl, trivial⟩, _, h, rfl, .inl rfl⟩
    · exact ⟨_, s, ⟨rfl, trivial⟩, _, h, rfl, .inr rfl⟩

/-- Sequences may be regrouped. -/
theorem seq_assoc {w s t : Str} {a b c : Regex} :
    t ∈ ends w (.seq a (.seq b c)) s ↔ t ∈ ends w (.seq (.seq a b) c) s := by
  simp only [mem_seq]
  constructor
  · rintro ⟨m, h1, m', h2, h3⟩; exact ⟨m', ⟨m, h1, h2⟩, h3⟩
  · rintro ⟨m', ⟨m, h1, h2⟩, h3⟩; exact ⟨m, h1, m', h2, h3⟩

/-! ### Characters -/

theorem char_le_iff (a b : Char) : a ≤ b ↔ a.toNat ≤ b.toNat := by
  rw [Char.le_def]; exact UInt32.le_iff_toNat_le

theorem upper_iff (c : Char) : isUpperAZ c = true ↔ 65 ≤ c.toNat ∧ c.toNat ≤ 90 := by
  simp only [isUpperAZ, char_le_iff, decide_eq_true_eq]; rfl
theorem lower_iff (c : Char) : isLowerAZ c = true ↔ 97 ≤ c.toNat ∧ c.toNat ≤ 122 := by
  simp only [isLowerAZ, char_le_iff, decide_eq_true_eq]; rfl
theorem digit_iff (c : Char) : isDigit09 c = true ↔ Digit c := by
  simp only [isDigit09, char_le_iff, decide_eq_true_eq]; rfl
theorem letter_iff (c : Char) : (isUpperAZ c = true ∨ isLowerAZ c = true) ↔ Letter c := by
  rw [upper_iff, lower_iff]; rfl

theorem newline_not_letter : ¬ Letter '\n' := by unfold Letter; decide
theorem newline_not_digit : ¬ Digit '\n' := by unfold Digit; decide

theorem uni_newline (U : Uni) : U.digit '\n' = false ∧ U.word '\n' = false := by
  constructor
  · rw [U.digit_ascii _ (by decide)]; decide
  · rw [U.word_ascii _ (by decide)]; decide
theorem uni_dot (U : Uni) : U.digit '.' = false ∧ U.word '.' = false := by
  constructor
  · rw [U.digit_ascii _ (by decide)]; decide
  · rw [U.word_ascii _ (by decide)]; decide
theorem uni_hyphen (U : Uni) : U.digit '-' = false := by
  rw [U.digit_ascii _ (by decide)]; decide

end Verif.Regex
