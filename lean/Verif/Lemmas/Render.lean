import Verif.Lemmas.Path
/-! Normalising the text of a location. -/
namespace Verif.Path
open Verif Verif.Spec

/-- Characters that need no care. -/
def Tame (s : Str) : Prop := ∀ c ∈ s, c ≠ '.' ∧ c ≠ '\\' ∧ c ≠ '['

theorem Tame.plain {s : Str} (h : Tame s) : Plain s := fun c hc => ⟨(h c hc).1, (h c hc).2.1⟩

/-- Steps as they occur: tame names, `root` only as a field followed by a key. -/
inductive Good : List LocStep → Prop
  | nil : Good []
  | index {i ss} : Good ss → Good (.index i :: ss)
  | key {k ss} : Tame k → k ≠ p!"root" → Good ss → Good (.key k :: ss)
  | field {f ss} : Tame f → f ≠ p!"root" → Good ss → Good (.field f :: ss)
  | root {k ss} : Tame k → k ≠ p!"root" → Good ss → Good (.field p!"root" :: .key k :: ss)

/-- The steps without `root`. -/
def dropRoot : List LocStep → List LocStep
  | [] => []
  | s :: ss => if s = .field p!"root" then dropRoot ss else s :: dropRoot ss

/-- The names on the way, without `root` and list indices. -/
def names (steps : List LocStep) : List Str :=
  (dropRoot steps).filterMap fun | .key k => some k | .field f => some f | .index _ => none

/-- What follows a name in the text of a location. -/
def Sep (s : Str) : Prop := s = [] ∨ (∃ t, s = '.' :: t) ∨ ∃ t, s = '[' :: t

theorem sep_flatMap (ss : List LocStep) : Sep (ss.flatMap stepText) := by
  cases ss with
  | nil => exact .inl rfl
  | cons s ss =>
    cases s with
    | field f => exact .inr (.inl ⟨_, by simp [stepText]; rfl⟩)
    | index i => exact .inr (.inr ⟨_, by simp [stepText]; rfl⟩)
    | key k => exact .inr (.inl ⟨_, by simp [stepText]; rfl⟩)

theorem replaceAux_pass (s rest : Str) (h : ∀ c ∈ s, c ≠ '.') :
    Str.replaceAux p!".root." p!"." 0 (s ++ rest) = s ++ Str.replaceAux p!".root." p!"." 0 rest := by
  induction s with
  | nil => rfl
  | cons c cs ih =>
    have hc : ('.' == c) = false := by simpa using fun e => h c (by simp) e.symm
    simp [Str.replaceAux, List.isPrefixOf, hc, ih (fun d hd => h d (by simp [hd]))]

theorem name_sep_unique {f g r r' : Str} (hf : Tame f) (hg : Tame g) (hr : Sep r) (hr' : Sep r')
    (h : f ++ r = g ++ r') : f = g := by
  induction f generalizing g with
  | nil =>
    cases g with
    | nil => rfl
    | cons c cs =>
      have := hg c (by simp)
      rcases hr with rfl | ⟨t, rfl⟩ | ⟨t, rfl⟩
      · simp at h
      · simp at h; exact absurd h.1.symm this.1
      · simp at h; exact absurd h.1.symm this.2.2
  | cons c cs ih =>
    cases g with
    | nil =>
      have := hf c (by simp)
      rcases hr' with rfl | ⟨t, rfl⟩ | ⟨t, rfl⟩ <;> simp_all
    | cons d ds =>
      simp only [List.cons_append, List.cons.injEq] at h
      rw [h.1, ih (g := ds) (fun x hx => hf x (by simp [hx])) (fun x hx => hg x (by simp [hx])) h.2]

theorem replaceAux_name {f : Str} (hf : Tame f) (hn : f ≠ p!"root") {rest : Str} (hr : Sep rest) :
    Str.replaceAux p!".root." p!"." 0 ('.' :: (f ++ rest)) =
      '.' :: (f ++ Str.replaceAux p!".root." p!"." 0 rest) := by
  rw [Str.replaceAux, if_neg, replaceAux_pass _ _ (fun c hc => (hf c hc).1)]
  intro hp
  obtain ⟨t, ht⟩ := List.isPrefixOf_iff_prefix.1 hp
  have e : f ++ rest = p!"root" ++ ('.' :: t) := by simpa using ht.symm
  exact hn (name_sep_unique hf (by intro c; simp; rintro (rfl|rfl|rfl|rfl) <;> decide) hr (.inr (.inl ⟨_, rfl⟩)) e)

theorem replaceAux_root {k : Str} (hk : Tame k) (rest : Str) :
    Str.replaceAux p!".root." p!"." 0 (p!".root." ++ (k ++ rest)) =
      '.' :: (k ++ Str.replaceAux p!".root." p!"." 0 rest) := by
  have := replaceAux_pass k rest (fun c hc => (hk c hc).1)
  simp [Str.replaceAux, List.isPrefixOf, this]

theorem digits_spec (i : Nat) : Nat.toDigits 10 i ≠ [] ∧ ∀ c ∈ Nat.toDigits 10 i, c.isDigit = true :=
  ⟨Nat.toDigits_ne_nil, fun c hc => Nat.isDigit_of_mem_toDigits (by omega) (by omega) hc⟩

theorem isDigit_range {c : Char} (h : c.isDigit = true) : 48 ≤ c.toNat ∧ c.toNat ≤ 57 := by
  simp only [Char.isDigit, Bool.and_eq_true, decide_eq_true_eq] at h
  exact ⟨h.1, h.2⟩

theorem isDigit_ne {c d : Char} (h : c.isDigit = true) (hd : d.toNat < 48 ∨ 57 < d.toNat) : c ≠ d := by
  rintro rfl; have := isDigit_range h; omega

theorem digit_of_isDigit (U : Uni) {c : Char} (h : c.isDigit = true) : U.digit c = true := by
  have := isDigit_range h
  rw [U.digit_ascii c (by omega)]
  simpa using this

theorem replace_steps {ss : List LocStep} (h : Good ss) :
    Str.replaceAux p!".root." p!"." 0 (ss.flatMap stepText) = (dropRoot ss).flatMap stepText := by
  induction h with
  | nil => rfl
  | @index i ss _ ih =>
    have := replaceAux_pass (stepText (.index i)) (ss.flatMap stepText) (by
      intro c hc
      simp only [stepText, List.mem_cons, List.mem_append, List.not_mem_nil, or_false] at hc
      rcases hc with rfl | hc | rfl
      · decide
      · exact isDigit_ne ((digits_spec i).2 c hc) (by decide)
      · decide)
    simp [dropRoot, this, ih]
  | @key k ss hk hn _ ih =>
    have := replaceAux_name hk hn (sep_flatMap ss)
    simp [dropRoot, stepText, escapeSpec_plain hk.plain, this, ih]
  | @field f ss hk hn _ ih =>
    have := replaceAux_name hk hn (sep_flatMap ss)
    have hne : ¬ LocStep.field f = .field p!"root" := by simpa using hn
    simp only [dropRoot, if_neg hne, List.flatMap_cons, stepText, List.cons_append, this, ih]
  | @root k ss hk hn _ ih =>
    have := replaceAux_root hk (ss.flatMap stepText)
    simp only [List.cons_append, List.nil_append] at this
    simp [dropRoot, stepText, escapeSpec_plain hk.plain, this, ih]

/-- No step is `root` any more. -/
inductive Clean : List LocStep → Prop
  | nil : Clean []
  | index {i ss} : Clean ss → Clean (.index i :: ss)
  | key {k ss} : Tame k → k ≠ p!"root" → Clean ss → Clean (.key k :: ss)
  | field {f ss} : Tame f → f ≠ p!"root" → Clean ss → Clean (.field f :: ss)

theorem Good.clean {ss : List LocStep} (h : Good ss) : Clean (dropRoot ss) := by
  induction h with
  | nil => exact .nil
  | index _ ih => simpa [dropRoot] using ih.index
  | key h1 h2 _ ih => simpa [dropRoot] using ih.key h1 h2
  | @field f ss h1 h2 _ ih =>
    have hne : ¬ LocStep.field f = .field p!"root" := by simpa using h2
    simpa only [dropRoot, if_neg hne] using ih.field h1 h2
  | root h1 h2 _ ih => simpa [dropRoot] using ih.key h1 h2

theorem Clean.mem {ss : List LocStep} (h : Clean ss) : ∀ s ∈ ss, (∃ i, s = .index i) ∨
    ∃ n, Tame n ∧ n ≠ p!"root" ∧ (s = .key n ∨ s = .field n) := by
  induction h with
  | nil => simp
  | index _ ih => intro s hs; rcases List.mem_cons.1 hs with rfl | hs; exacts [.inl ⟨_, rfl⟩, ih s hs]
  | key h1 h2 _ ih =>
    intro s hs; rcases List.mem_cons.1 hs with rfl | hs
    exacts [.inr ⟨_, h1, h2, .inl rfl⟩, ih s hs]
  | field h1 h2 _ ih =>
    intro s hs; rcases List.mem_cons.1 hs with rfl | hs
    exacts [.inr ⟨_, h1, h2, .inr rfl⟩, ih s hs]

theorem not_endsWith_root {x n : Str} (hn : Tame n) (hr : n ≠ p!"root") :
    Str.endsWith (x ++ '.' :: n) p!".root" = false := by
  rw [Bool.eq_false_iff]
  intro h
  have hs : p!".root" <:+ x ++ '.' :: n := by simpa [Str.endsWith] using h
  obtain ⟨t, ht⟩ := hs
  have e : x ++ '.' :: n = t ++ '.' :: p!"root" := by simpa using ht.symm
  have hnd : ∀ {s : Str}, Tame s → '.' ∉ s := fun h hm => (h _ hm).1 rfl
  apply hr
  have h1 := List.append_eq_append_iff.1 e
  rcases h1 with ⟨u, h2, h3⟩ | ⟨u, h2, h3⟩
  · cases u with
    | nil => simpa using h3
    | cons c cs =>
      exfalso
      simp only [List.cons_append, List.cons.injEq] at h3
      exact hnd hn (by rw [h3.2]; simp)
  · cases u with
    | nil => simpa using h3.symm
    | cons c cs =>
      exfalso
      simp only [List.cons_append, List.cons.injEq] at h3
      have : '.' ∈ p!"root" := by rw [h3.2]; simp
      revert this; decide

theorem not_endsWith_bracket (x : Str) : Str.endsWith (x ++ [']']) p!".root" = false := by
  rw [Bool.eq_false_iff]
  intro h
  have hs : p!".root" <:+ x ++ [']'] := by simpa [Str.endsWith] using h
  obtain ⟨t, ht⟩ := hs
  have : (t ++ p!".root").getLast? = (x ++ [']']).getLast? := by rw [ht]
  simp at this

theorem not_endsWith_clean {ss : List LocStep} (h : Clean ss) :
    Str.endsWith (p!"spec" ++ ss.flatMap stepText) p!".root" = false := by
  rcases List.eq_nil_or_concat ss with rfl | ⟨init, last, rfl⟩
  · decide
  · have hl := h.mem last (by simp)
    rw [List.concat_eq_append, List.flatMap_append, ← List.append_assoc]
    rcases hl with ⟨i, rfl⟩ | ⟨n, h1, h2, rfl | rfl⟩
    · have e : List.flatMap stepText [LocStep.index i] = ('[' :: Nat.toDigits 10 i) ++ [']'] := by
        simp [stepText]
      rw [e, ← List.append_assoc]; exact not_endsWith_bracket _
    · have e : List.flatMap stepText [LocStep.key n] = '.' :: n := by
        simp [stepText, escapeSpec_plain h1.plain]
      rw [e]; exact not_endsWith_root h1 h2
    · have e : List.flatMap stepText [LocStep.field n] = '.' :: n := by simp [stepText]
      rw [e]; exact not_endsWith_root h1 h2

theorem subIdxAux_pass (U : Uni) (s rest : Str) (h : ∀ c ∈ s, c ≠ '[') :
    subIdxAux U 0 (s ++ rest) = s ++ subIdxAux U 0 rest := by
  induction s with
  | nil => rfl
  | cons c cs ih =>
    have := h c (by simp)
    simp [subIdxAux, this, ih (fun d hd => h d (by simp [hd]))]

theorem subIdxAux_skip (U : Uni) (s rest : Str) : subIdxAux U s.length (s ++ rest) = subIdxAux U 0 rest := by
  induction s with
  | nil => rfl
  | cons c cs ih => simpa [subIdxAux] using ih

theorem subIdxAux_index (U : Uni) (i : Nat) (rest : Str) :
    subIdxAux U 0 (stepText (.index i) ++ rest) = subIdxAux U 0 rest := by
  obtain ⟨h1, h2⟩ := digits_spec i
  have hb : U.digit ']' = false := by rw [U.digit_ascii ']' (by decide)]; decide
  have e : (Nat.toDigits 10 i ++ ']' :: rest).takeWhile U.digit = Nat.toDigits 10 i := by
    rw [List.takeWhile_append_of_pos (fun c hc => digit_of_isDigit U (h2 c hc))]
    simp [hb]
  have := subIdxAux_skip U (Nat.toDigits 10 i ++ [']']) rest
  simp only [List.length_append, List.length_cons, List.length_nil, List.append_assoc,
    List.cons_append, List.nil_append, Nat.zero_add] at this
  simp only [stepText, List.cons_append, List.append_assoc, List.nil_append, subIdxAux, e]
  rw [if_pos ⟨trivial, h1, by simp⟩]
  exact this

theorem subIdx_clean (U : Uni) {ss : List LocStep} (h : Clean ss) :
    subIdxAux U 0 (ss.flatMap stepText) =
      (ss.filterMap fun | .key k => some k | .field f => some f | .index _ => none).flatMap ('.' :: ·) := by
  induction h with
  | nil => rfl
  | index _ ih => rw [List.flatMap_cons, subIdxAux_index, ih]; simp
  | @key k ss hk _ _ ih =>
    have := subIdxAux_pass U ('.' :: k) (ss.flatMap stepText) (by
      intro c hc; rcases List.mem_cons.1 hc with rfl | hc
      · decide
      · exact (hk c hc).2.2)
    simp only [List.cons_append] at this
    simp [stepText, escapeSpec_plain hk.plain, this, ih]
  | @field k ss hk _ _ ih =>
    have := subIdxAux_pass U ('.' :: k) (ss.flatMap stepText) (by
      intro c hc; rcases List.mem_cons.1 hc with rfl | hc
      · decide
      · exact (hk c hc).2.2)
    simp only [List.cons_append] at this
    simp [stepText, this, ih]

theorem names_tame {ss : List LocStep} (h : Good ss) : ∀ n ∈ names ss, Tame n := by
  intro n hn
  obtain ⟨s, hs, he⟩ := List.mem_filterMap.1 hn
  rcases h.clean.mem s hs with ⟨i, rfl⟩ | ⟨m, hm, _, rfl | rfl⟩
  · cases he
  · cases he; exact hm
  · cases he; exact hm

theorem join_flatMap (x : Str) (l : List Str) : x ++ l.flatMap ('.' :: ·) = Str.join '.' (x :: l) := by
  induction l generalizing x with
  | nil => simp [Str.join]
  | cons y ys ih => rw [Str.join_cons _ _ (by simp), ← ih]; simp

/-- The segments of the normalised path of a location. -/
theorem split_normalize (U : Uni) {ss : List LocStep} (h : Good ss) :
    splitPath (normalize U (render ss)) = p!"spec" :: names ss := by
  have e1 : Str.replace (render ss) p!".root." p!"." = p!"spec" ++ (dropRoot ss).flatMap stepText := by
    rw [render, Str.replace, replaceAux_pass _ _ (by decide), replace_steps h]
  have e2 := not_endsWith_clean h.clean
  have e3 : normalize U (render ss) = Str.join '.' (p!"spec" :: names ss) := by
    unfold normalize
    simp only [e1, e2, Bool.false_eq_true, if_false]
    rw [subIdx, subIdxAux_pass _ _ _ (by decide), subIdx_clean U h.clean, ← join_flatMap]
    rfl
  rw [e3, splitPath_join_plain _ (by simp)]
  intro s hs
  rcases List.mem_cons.1 hs with rfl | hs
  · intro c; simp; rintro (rfl|rfl|rfl|rfl) <;> decide
  · exact (names_tame h s hs).plain

end Verif.Path
