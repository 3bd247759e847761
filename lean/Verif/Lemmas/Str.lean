import Verif.Py.Str
/-! Lemmas about Python string operations. -/
namespace Verif.Str

theorem split_ne_nil (c : Char) (s : Str) : split c s ≠ [] := by
  induction s with
  | nil => simp [split]
  | cons x xs ih =>
    simp only [split]
    split
    · simp
    · split <;> simp

theorem split_cons_sep (c : Char) (s : Str) : split c (c :: s) = [] :: split c s := by
  simp [split]

theorem split_cons_ne {c x : Char} (h : x ≠ c) (s : Str) :
    ∃ y ys, split c s = y :: ys ∧ split c (x :: s) = (x :: y) :: ys := by
  cases hs : split c s with
  | nil => exact absurd hs (split_ne_nil c s)
  | cons y ys => exact ⟨y, ys, rfl, by simp [split, h, hs]⟩

theorem join_cons (c : Char) (x : Str) {rest : List Str} (h : rest ≠ []) :
    join c (x :: rest) = x ++ c :: join c rest := by
  cases rest with
  | nil => exact absurd rfl h
  | cons y ys => rfl

theorem join_split (c : Char) (s : Str) : join c (split c s) = s := by
  induction s with
  | nil => rfl
  | cons x xs ih =>
    by_cases h : x = c
    · subst h
      rw [split_cons_sep, join_cons _ _ (split_ne_nil _ _), ih]; rfl
    · obtain ⟨y, ys, hy, hxy⟩ := split_cons_ne h xs
      rw [hxy]
      rw [hy] at ih
      cases ys with
      | nil => simp_all [join]
      | cons z zs => rw [join_cons _ _ (by simp)] at ih ⊢; simp [← ih]

theorem split_no_sep (c : Char) (s : Str) : ∀ p ∈ split c s, c ∉ p := by
  induction s with
  | nil => simp [split]
  | cons x xs ih =>
    by_cases h : x = c
    · subst h; rw [split_cons_sep]; simpa using ih
    · obtain ⟨y, ys, hy, hxy⟩ := split_cons_ne h xs
      rw [hxy]; rw [hy] at ih
      intro p hp
      rcases List.mem_cons.1 hp with rfl | hp
      · simp only [List.mem_cons, not_or]
        exact ⟨fun e => h e.symm, ih y (by simp)⟩
      · exact ih p (by simp [hp])

theorem split_of_no_sep {c : Char} {s : Str} (h : c ∉ s) : split c s = [s] := by
  induction s with
  | nil => rfl
  | cons x xs ih =>
    simp only [List.mem_cons, not_or] at h
    have h2 := ih h.2
    simp [split, Ne.symm h.1, h2]

theorem split_append_sep {c : Char} {p : Str} (h : c ∉ p) (s : Str) :
    split c (p ++ c :: s) = p :: split c s := by
  induction p with
  | nil => simp [split]
  | cons x xs ih =>
    simp only [List.mem_cons, not_or] at h
    have h2 := ih h.2
    simp [split, Ne.symm h.1, h2]

theorem split_join {c : Char} {ps : List Str} (hne : ps ≠ []) (h : ∀ p ∈ ps, c ∉ p) :
    split c (join c ps) = ps := by
  induction ps with
  | nil => exact absurd rfl hne
  | cons p ps ih =>
    cases ps with
    | nil => simpa [join] using split_of_no_sep (h p (by simp))
    | cons q qs =>
      rw [join_cons _ _ (by simp), split_append_sep (h p (by simp)), ih (by simp)]
      intro r hr; exact h r (by simp [hr])

theorem split_snoc_sep (c : Char) (s : Str) : split c (s ++ [c]) = split c s ++ [[]] := by
  induction s with
  | nil => simp [split]
  | cons x xs ih =>
    by_cases h : x = c
    · subst h; simp [split, ih]
    · obtain ⟨y, ys, hy, hxy⟩ := split_cons_ne h xs
      rw [hxy, List.cons_append]
      rw [hy] at ih
      simp [split, h, ih]

/-- Non-empty pieces. -/
def pieces (c : Char) (s : Str) : List Str := (split c s).filter (fun p => decide (p ≠ []))

theorem pieces_cons_sep (c : Char) (s : Str) : pieces c (c :: s) = pieces c s := by
  simp [pieces, split_cons_sep]

theorem pieces_snoc_sep (c : Char) (s : Str) : pieces c (s ++ [c]) = pieces c s := by
  simp [pieces, split_snoc_sep]

theorem pieces_lstrip (c : Char) (s : Str) : pieces c (lstrip c s) = pieces c s := by
  induction s with
  | nil => rfl
  | cons x xs ih =>
    by_cases h : x = c
    · subst h; rw [pieces_cons_sep, ← ih]; simp [lstrip]
    · have : lstrip c (x :: xs) = x :: xs := by simp [lstrip, h]
      rw [this]

theorem pieces_rstrip (c : Char) (s : Str) : pieces c (rstrip c s) = pieces c s := by
  have key : ∀ t : Str, pieces c (List.dropWhile (· == c) t).reverse = pieces c t.reverse := by
    intro t
    induction t with
    | nil => rfl
    | cons x xs ih =>
      by_cases h : x = c
      · subst h; rw [List.reverse_cons, pieces_snoc_sep, ← ih]; simp
      · simp [h]
  simpa [rstrip] using key s.reverse

theorem pieces_strip (c : Char) (s : Str) : pieces c (strip c s) = pieces c s := by
  rw [strip, pieces_rstrip, pieces_lstrip]

theorem dropWhile_head {p : Char → Bool} {l : Str} {x xs} (h : l.dropWhile p = x :: xs) :
    p x = false := by
  induction l with
  | nil => simp at h
  | cons y ys ih =>
    by_cases hy : p y
    · rw [List.dropWhile_cons, if_pos hy] at h; exact ih h
    · rw [List.dropWhile_cons, if_neg hy] at h
      simp only [List.cons.injEq] at h
      rw [← h.1]; simpa using hy

/-- `strip` leaves a string that does not begin with the stripped character. -/
theorem strip_head {c x : Char} {s t : Str} (h : strip c s = x :: t) : x ≠ c := by
  -- rstrip yields a prefix of lstrip
  have hp : strip c s <+: lstrip c s := by
    have := List.dropWhile_suffix (· == c) (l := (lstrip c s).reverse)
    simpa [strip, rstrip] using List.reverse_prefix.2 this
  rw [h] at hp
  obtain ⟨u, hu⟩ := hp
  have := dropWhile_head (p := (· == c)) (l := s) (x := x) (xs := t ++ u) (by
    simpa [lstrip] using hu.symm)
  simpa using this

theorem pieces_nil {c : Char} {s : Str} (h : pieces c s = []) : ∀ x ∈ s, x = c := by
  induction s with
  | nil => simp
  | cons x xs ih =>
    by_cases hx : x = c
    · subst hx
      rw [pieces_cons_sep] at h
      intro y hy
      rcases List.mem_cons.1 hy with rfl | hy
      · rfl
      · exact ih h y hy
    · obtain ⟨y, ys, _, h2⟩ := split_cons_ne hx xs
      simp [pieces, h2] at h

theorem strip_split_nil_iff (c : Char) (s : Str) :
    (split c (strip c s) = [] ∨ split c (strip c s) = [[]]) ↔ pieces c s = [] := by
  rw [← pieces_strip]
  constructor
  · rintro (h | h)
    · exact absurd h (split_ne_nil _ _)
    · simp [pieces, h]
  · intro h
    right
    cases ht : strip c s with
    | nil => rfl
    | cons x t =>
      exfalso
      have hx := strip_head ht
      obtain ⟨y, ys, _, h2⟩ := split_cons_ne hx t
      rw [ht] at h
      simp [pieces, h2] at h

end Verif.Str
