import Verif.Lemmas.Regex
import Verif.Lemmas.Str
/-!
# C20–C23: keys, extension names, email addresses, versions
-/
namespace Verif.Props
open Verif Verif.Spec Verif.Patterns Verif.Regex Verif.Gen

/-! ### C20 -/

/-- **C20.** Exactly which strings pass as a key: the documented form, perhaps with one
newline at the end. -/
theorem C20_key_exact (k : Str) : patternedKey k = true ↔ OrNewline KeyForm k := by
  unfold patternedKey keyRegex
  rw [match_anchored]
  simp only [mem_plus, Bool.or_eq_true, beq_iff_eq]
  have hc : ∀ c : Char, ((((isUpperAZ c = true ∨ isLowerAZ c = true) ∨ isDigit09 c = true) ∨ c = '_') ∨ c = '-') ↔
      (Letter c ∨ Digit c ∨ c = '-' ∨ c = '_') := by
    intro c; rw [letter_iff, digit_iff]
    constructor
    · rintro (((h | h) | h) | h) <;> simp [h]
    · rintro (h | h | h | h) <;> simp [h]
  simp only [hc]
  constructor
  · rintro (⟨u, e, h1, h2⟩ | ⟨u, e, h1, h2⟩)
    · left; rw [List.append_nil] at e; subst e; exact ⟨h1, h2⟩
    · right; exact ⟨u, e, h1, h2⟩
  · rintro (⟨h1, h2⟩ | ⟨u, e, h1, h2⟩)
    · left; exact ⟨k, by simp, h1, h2⟩
    · right; exact ⟨u, e, h1, h2⟩

/-- **C20.** The keys of a patterned object pass exactly when each does. -/
theorem C20_keys_exact (ks : List Str) :
    patternedKeys ks = true ↔ ∀ k ∈ ks, OrNewline KeyForm k := by
  induction ks with
  | nil => simp [patternedKeys]
  | cons k ks ih =>
    simp only [patternedKeys, List.mem_cons, forall_eq_or_imp, ← C20_key_exact]
    split
    · rename_i h; rw [ih]; simp only [h, true_and, C20_key_exact]
    · rename_i h; simp [h]

/-- **C20**, as stated, for keys without newlines. Missing: keys that end in a newline
(`C20_refuted`). -/
theorem C20_exact_partial (ks : List Str) (h : ∀ k ∈ ks, '\n' ∉ k) :
    patternedKeys ks = true ↔ ∀ k ∈ ks, KeyForm k := by
  rw [C20_keys_exact]
  constructor
  · intro H k hk
    rcases H k hk with h1 | ⟨t, rfl, _⟩
    · exact h1
    · exact absurd (by simp) (h _ hk)
  · exact fun H k hk => .inl (H k hk)

/-- **C20.** Every object whose keys have the documented form is accepted. -/
theorem C20_form_accepted (ks : List Str) (h : ∀ k ∈ ks, KeyForm k) : patternedKeys ks = true :=
  (C20_keys_exact ks).2 fun k hk => .inl (h k hk)

/-- **C20, refuted**: a key ending in a newline is accepted. -/
theorem C20_refuted : patternedKeys [p!"orders\n"] = true ∧ ¬ KeyForm p!"orders\n" := by
  refine ⟨by decide, fun h => ?_⟩
  have := h.2 '\n' (by simp)
  rcases this with h | h | h | h
  · exact newline_not_letter h
  · exact newline_not_digit h
  · cases h
  · cases h

example : patternedKeys [p!"user-signed_up2", p!"X"] = true := by decide
example : patternedKeys [p!"ok", p!"a.b"] = false := by decide
example : patternedKeys [[]] = false := by decide

/-! ### C21 -/

theorem extension_exact (U : Uni) (k : Str) :
    isMatch (extensionRegex U) k = true ↔ OrNewline (ExtensionForm U) k := by
  unfold extensionRegex
  rw [isMatch_iff]
  simp only [mem_seq, mem_bol, mem_lit, mem_plus, mem_eol, Bool.or_eq_true, beq_iff_eq]
  have hc : ∀ c : Char, ((((U.word c = true ∨ U.digit c = true) ∨ c = '.') ∨ c = '-') ∨ c = '_') ↔
      (U.word c = true ∨ U.digit c = true ∨ c = '.' ∨ c = '-' ∨ c = '_') := by
    intro c; simp only [or_assoc]
  simp only [hc]
  constructor
  · rintro ⟨t, _, ⟨rfl, _⟩, m1, rfl, m2, rfl, m3, ⟨u, rfl, h1, h2⟩, rfl, rfl | rfl⟩
    · left; exact ⟨u, by simp, h1, h2⟩
    · right; exact ⟨p!"x-" ++ u, by simp, u, rfl, h1, h2⟩
  · rintro (⟨u, rfl, h1, h2⟩ | ⟨_, rfl, u, rfl, h1, h2⟩)
    · exact ⟨[], _, ⟨rfl, trivial⟩, '-' :: u, rfl, u, rfl, [], ⟨u, by simp, h1, h2⟩, rfl, .inl rfl⟩
    · exact ⟨['\n'], _, ⟨rfl, trivial⟩, _, rfl, _, rfl, ['\n'], ⟨u, rfl, h1, h2⟩, rfl, .inr rfl⟩

/-- **C21.** Exactly which unknown fields each class accepts. -/
theorem C21_exact (U : Uni) (c : Cls) (names : List Str) :
    ((classDef c).kind = .extendable →
      (acceptsExtras U (classDef c).kind names = true ↔ ∀ k ∈ names, OrNewline (ExtensionForm U) k)) ∧
    ((classDef c).kind = .nonExtendable →
      (acceptsExtras U (classDef c).kind names = true ↔ names = [])) := by
  constructor
  · intro h
    rw [h]
    simp only [acceptsExtras]
    induction names with
    | nil => simp [validateExtensions]
    | cons k ks ih =>
      simp only [validateExtensions, List.mem_cons, forall_eq_or_imp, ← extension_exact]
      split
      · rename_i h; rw [ih]; simp only [h, true_and, extension_exact]
      · rename_i h; simp [h]
  · intro h
    rw [h]; simp [acceptsExtras]

/-- **C21.** Every class is extendable, non-extendable, a patterned object, or one of the three
that take arbitrary extra fields (JSON Schema, multi-format schema, Kafka topic configuration). -/
theorem C21_classes (c : Cls) : (classDef c).kind = .extendable ∨ (classDef c).kind = .nonExtendable ∨
    (classDef c).kind = .patterned ∨ c = .Schema ∨ c = .MultiFormatSchema ∨ c = .KafkaTopicConfiguration := by
  cases c <;> decide

/-- **C21**, as stated, for names without newlines. Missing: names that end in a newline
(`C21_refuted`). -/
theorem C21_exact_partial (U : Uni) (c : Cls) (names : List Str) (h : ∀ k ∈ names, '\n' ∉ k)
    (hk : (classDef c).kind = .extendable) :
    acceptsExtras U (classDef c).kind names = true ↔ ∀ k ∈ names, ExtensionForm U k := by
  rw [(C21_exact U c names).1 hk]
  constructor
  · intro H k hk
    rcases H k hk with h1 | ⟨t, rfl, _⟩
    · exact h1
    · exact absurd (by simp) (h _ hk)
  · exact fun H k hk => .inl (H k hk)

/-- **C21, refuted**: an extension name ending in a newline is accepted. -/
theorem C21_refuted (U : Uni) : (classDef .Info).kind = .extendable ∧
    acceptsExtras U (classDef .Info).kind [p!"x-a\n"] = true ∧ ¬ ExtensionForm U p!"x-a\n" := by
  refine ⟨rfl, ?_, ?_⟩
  · rw [(C21_exact U .Info _).1 rfl]
    intro k hk
    rw [List.mem_singleton] at hk; subst hk
    refine .inr ⟨p!"x-a", rfl, p!"a", rfl, by simp, ?_⟩
    intro c hc
    rw [List.mem_singleton] at hc; subst hc
    left; rw [U.word_ascii _ (by decide)]; decide
  · rintro ⟨r, e, _, h⟩
    have : r = p!"a\n" := by
      have e' : p!"x-" ++ p!"a\n" = p!"x-" ++ r := e
      exact (List.append_cancel_left e').symm
    subst this
    have := h '\n' (by simp)
    simp [uni_newline] at this

example : acceptsExtras Uni.ascii (classDef .Info).kind [p!"x-internal.id"] = true := by decide
example : acceptsExtras Uni.ascii (classDef .Info).kind [p!"xinternal"] = false := by decide
example : acceptsExtras Uni.ascii (classDef .Reference).kind [p!"x-a"] = false := by decide

/-! ### C22 -/

/-- **C22.** Exactly which strings pass as an email address. -/
theorem C22_exact (s : Str) : validateEmail s = true ↔ OrNewline EmailForm s := by
  unfold validateEmail emailRegex
  rw [isMatch_iff]
  simp only [mem_seq, mem_bol, mem_notAhead, mem_lit, mem_plus, mem_chr, mem_star, mem_eol, Bool.or_eq_true,
    beq_iff_eq]
  have hl : ∀ c : Char, (isLowerAZ c = true ∨ isUpperAZ c = true) ↔ Letter c := by
    intro c; rw [or_comm]; exact letter_iff c
  have h1 : ∀ c : Char, (((((((isLowerAZ c = true ∨ isUpperAZ c = true) ∨ isDigit09 c = true) ∨ c = '.') ∨ c = '_') ∨
      c = '%') ∨ c = '+') ∨ c = '-') ↔ (Letter c ∨ Digit c ∨ c ∈ p!"._%+-") := by
    intro c; rw [hl, digit_iff]; simp [or_assoc]
  have h2 : ∀ c : Char, ((((isLowerAZ c = true ∨ isUpperAZ c = true) ∨ isDigit09 c = true) ∨ c = '.') ∨ c = '-') ↔
      (Letter c ∨ Digit c ∨ c ∈ p!".-") := by
    intro c; rw [hl, digit_iff]; simp [or_assoc]
  simp only [h1, h2]
  simp only [hl]
  -- a body of the right shape contains no newline
  have noNl : ∀ loc dom tld : Str, (∀ c ∈ loc, Letter c ∨ Digit c ∨ c ∈ p!"._%+-") →
      (∀ c ∈ dom, Letter c ∨ Digit c ∨ c ∈ p!".-") → (∀ c ∈ tld, Letter c) →
      '\n' ∉ loc ++ '@' :: (dom ++ '.' :: tld) := by
    intro loc dom tld a b d hm
    simp only [List.mem_append, List.mem_cons] at hm
    rcases hm with hm | hm | hm | hm | hm
    · rcases a _ hm with h | h | h
      · exact newline_not_letter h
      · exact newline_not_digit h
      · simp at h
    · cases hm
    · rcases b _ hm with h | h | h
      · exact newline_not_letter h
      · exact newline_not_digit h
      · simp at h
    · cases hm
    · exact newline_not_letter (d _ hm)
  constructor
  · rintro ⟨t, _, ⟨rfl, _⟩, _, ⟨rfl, hno⟩, m1, ⟨loc, e, l1, l2⟩, m2, rfl, m3, ⟨dom, rfl, d1, d2⟩, m4, rfl, m5,
      ⟨m6, ⟨c, rfl, hc⟩, ⟨u, rfl, u1, u2⟩⟩, rfl, hend⟩
    have htld : ∀ x ∈ c :: u, Letter x := by
      intro x hx
      rcases List.mem_cons.1 hx with rfl | hx
      · exact hc
      · exact u2 x hx
    have hlen : 2 ≤ (c :: u).length := by
      have := List.length_pos_iff.2 u1
      simp only [List.length_cons]; omega
    have hn := noNl loc dom (c :: u) l2 d2 htld
    have body : EmailForm (loc ++ '@' :: (dom ++ '.' :: (c :: u))) := by
      refine ⟨⟨loc, dom, c :: u, rfl, l1, l2, d1, d2, hlen, htld⟩, ?_⟩
      rintro ⟨a, b, hab⟩
      refine hno (b ++ t) ⟨'.' :: '.' :: (b ++ t), ⟨a, ?_, ?_⟩, _, rfl, rfl⟩
      · rw [e]
        have : loc ++ '@' :: (dom ++ '.' :: (c :: (u ++ t))) =
            (loc ++ '@' :: (dom ++ '.' :: (c :: u))) ++ t := by simp
        rw [this, hab]; simp
      · intro x hx
        simp only [dot, bne_iff_ne, ne_eq]
        rintro rfl
        apply hn; rw [hab]; simp [hx]
    rcases hend with rfl | rfl
    · left; rw [e]; simpa using body
    · right; exact ⟨_, by rw [e]; simp, body⟩
  · have build : ∀ t : Str, (t = [] ∨ t = ['\n']) → ∀ b, EmailForm b → ∃ t' m,
        (m = b ++ t ∧ True) ∧ ∃ m_1, (m_1 = m ∧ ∀ m' : Str, ¬ ∃ m2, (∃ u, m = u ++ m2 ∧
          ∀ c ∈ u, dot c = true) ∧ ∃ m3, m2 = '.' :: m3 ∧ m3 = '.' :: m') ∧
        ∃ m2, (∃ u, m_1 = u ++ m2 ∧ u ≠ [] ∧ ∀ c ∈ u, Letter c ∨ Digit c ∨ c ∈ p!"._%+-") ∧ ∃ m3, m2 = '@' :: m3 ∧
        ∃ m4, (∃ u, m3 = u ++ m4 ∧ u ≠ [] ∧ ∀ c ∈ u, Letter c ∨ Digit c ∨ c ∈ p!".-") ∧ ∃ m5, m4 = '.' :: m5 ∧
        ∃ m6, (∃ m7, (∃ c, m5 = c :: m7 ∧ Letter c) ∧ ∃ u, m7 = u ++ m6 ∧ u ≠ [] ∧ ∀ c ∈ u, Letter c) ∧
        t' = m6 ∧ (m6 = [] ∨ m6 = ['\n']) := by
      rintro t ht b ⟨⟨loc, dom, tld, rfl, l1, l2, d1, d2, hlen, htld⟩, hno⟩
      match tld, hlen, htld with
      | c :: d :: u, _, htld =>
        refine ⟨t, _, ⟨rfl, trivial⟩, _, ⟨rfl, ?_⟩, '@' :: (dom ++ '.' :: (c :: d :: (u ++ t))), ⟨loc, by simp, l1, l2⟩,
          _, rfl, '.' :: (c :: d :: (u ++ t)), ⟨dom, rfl, d1, d2⟩, _, rfl, t, ⟨d :: (u ++ t), ⟨c, rfl, htld c (by simp)⟩,
          d :: u, rfl, by simp, fun x hx => htld x (by simp at hx ⊢; exact .inr hx)⟩, rfl, ht⟩
        rintro m' ⟨m2, ⟨a, e, _⟩, m3, rfl, rfl⟩
        apply hno
        rcases ht with rfl | rfl
        · rw [List.append_nil] at e
          exact ⟨a, m', by rw [e]; simp⟩
        · -- the newline is the last character of `m'`
          cases hm' : m'.reverse with
          | nil =>
            rw [List.reverse_eq_nil_iff] at hm'; subst hm'
            have e' : (loc ++ '@' :: (dom ++ '.' :: c :: d :: u)) ++ ['\n'] = (a ++ ['.']) ++ ['.'] := by
              rw [e]; simp
            have := List.append_inj_right' e' rfl
            cases this
          | cons x xs =>
            have hm'' : m' = xs.reverse ++ [x] := by
              have := congrArg List.reverse hm'; simpa using this
            subst hm''
            refine ⟨a, xs.reverse, ?_⟩
            have e2 : loc ++ '@' :: (dom ++ '.' :: c :: d :: u) ++ ['\n'] =
                (a ++ p!".." ++ xs.reverse) ++ [x] := by rw [e]; simp
            exact List.append_inj_left' e2 rfl
    rintro (h | ⟨b, rfl, h⟩)
    · have := build [] (.inl rfl) s h
      rw [List.append_nil] at this
      exact this
    · exact build ['\n'] (.inr rfl) b h

/-- **C22**, as stated, for strings without newlines. Missing: addresses that end in a newline
(`C22_refuted`). -/
theorem C22_exact_partial (s : Str) (h : '\n' ∉ s) : validateEmail s = true ↔ EmailForm s := by
  rw [C22_exact]
  constructor
  · rintro (h1 | ⟨t, rfl, _⟩)
    · exact h1
    · exact absurd (by simp) h
  · exact .inl

/-- **C22, refuted**: an address ending in a newline is accepted. -/
theorem C22_refuted : validateEmail p!"a@b.co\n" = true ∧ ¬ EmailForm p!"a@b.co\n" := by
  refine ⟨by decide, ?_⟩
  rintro ⟨⟨loc, dom, tld, e, _, _, _, _, hlen, ht⟩, _⟩
  have h1 := congrArg List.getLast? e
  have hne : tld ≠ [] := by rintro rfl; simp at hlen
  have h2 : (loc ++ '@' :: (dom ++ '.' :: tld)).getLast? = tld.getLast? := by
    have : loc ++ '@' :: (dom ++ '.' :: tld) = (loc ++ '@' :: (dom ++ ['.'])) ++ tld := by simp
    rw [this, List.getLast?_append]
    cases h : tld.getLast? with
    | none => rw [List.getLast?_eq_none_iff] at h; exact absurd h hne
    | some x => rfl
  rw [h2] at h1
  simp only [List.getLast?, List.getLast] at h1
  have : '\n' ∈ tld := List.mem_of_getLast? h1.symm
  exact newline_not_letter (ht _ this)

example : validateEmail p!"jane.doe+x@mail.example.org" = true := by decide
example : validateEmail p!"jane..doe@example.org" = false := by decide
example : validateEmail p!"jane@example.o" = false := by decide

/-! ### C23 -/

theorem foldl_value (U : Uni) (s : Str) (n : Nat) :
    s.foldl (fun n c => 10 * n + U.val c) n = n * 10 ^ s.length + numberValue U s := by
  induction s generalizing n with
  | nil => simp [numberValue]
  | cons c cs ih =>
    simp only [List.foldl_cons, ih, numberValue, List.length_cons, Nat.pow_succ]
    rw [Nat.add_mul, Nat.mul_comm 10 n, Nat.mul_assoc, Nat.mul_comm 10 (10 ^ cs.length), Nat.add_assoc]

theorem intOf_eq (U : Uni) (limit : Option Nat) (s : Str) (k : Nat) :
    intOf U limit s = some k ↔ WithinLimit limit s ∧ numberValue U s = k := by
  unfold intOf WithinLimit
  rw [foldl_value]
  cases limit with
  | none => simp
  | some m => simp only [Option.all_some, decide_eq_true_eq]; split <;> simp [*]

theorem version_exact (U : Uni) (s : Str) :
    isMatch (versionRegex U) s = true ↔ OrNewline (fun s => ∃ major, VersionForm U s major) s := by
  unfold versionRegex
  rw [isMatch_iff]
  simp only [mem_seq, mem_bol, mem_lit, mem_plus, mem_opt, mem_eol, Bool.or_eq_true, beq_iff_eq]
  constructor
  · rintro ⟨t, _, ⟨rfl, _⟩, m1, ⟨a, rfl, a1, a2⟩, m2, rfl, m3, ⟨b, rfl, b1, b2⟩, m4, rfl, m5, ⟨c, rfl, c1, c2⟩, m6,
      hs, rfl, hend⟩
    have key : ∀ suffix t : Str, (t = [] ∨ t = ['\n']) →
        (suffix = [] ∨ ∃ r, suffix = '-' :: r ∧ r ≠ [] ∧ ∀ c ∈ r, U.word c = true ∨ c = '.' ∨ c = '-') →
        OrNewline (fun s => ∃ major, VersionForm U s major) (a ++ '.' :: (b ++ '.' :: (c ++ (suffix ++ t)))) := by
      intro suffix t ht hsuf
      rcases ht with rfl | rfl
      · left
        exact ⟨a, b, c, suffix, by simp, ⟨a1, a2⟩, ⟨b1, b2⟩, ⟨c1, c2⟩, hsuf⟩
      · right
        exact ⟨a ++ '.' :: (b ++ '.' :: (c ++ suffix)), by simp, a, b, c, suffix, rfl, ⟨a1, a2⟩, ⟨b1, b2⟩,
          ⟨c1, c2⟩, hsuf⟩
    rcases hs with ⟨m7, rfl, u, rfl, u1, u2⟩ | rfl
    · exact key ('-' :: u) t hend (.inr ⟨u, rfl, u1, by simpa [or_assoc] using u2⟩)
    · exact key [] t hend (.inl rfl)
  · have build : ∀ t : Str, (t = [] ∨ t = ['\n']) → ∀ b, (∃ major, VersionForm U b major) → ∃ t' m,
        (m = b ++ t ∧ True) ∧
        ∃ m1, (∃ u, m = u ++ m1 ∧ u ≠ [] ∧ ∀ c ∈ u, U.digit c = true) ∧ ∃ m2, m1 = '.' :: m2 ∧
        ∃ m3, (∃ u, m2 = u ++ m3 ∧ u ≠ [] ∧ ∀ c ∈ u, U.digit c = true) ∧ ∃ m4, m3 = '.' :: m4 ∧
        ∃ m5, (∃ u, m4 = u ++ m5 ∧ u ≠ [] ∧ ∀ c ∈ u, U.digit c = true) ∧
        ∃ m6, ((∃ m7, m5 = '-' :: m7 ∧ ∃ u, m7 = u ++ m6 ∧ u ≠ [] ∧ ∀ c ∈ u, (U.word c = true ∨ c = '.') ∨ c = '-') ∨
          m6 = m5) ∧ t' = m6 ∧ (m6 = [] ∨ m6 = ['\n']) := by
      rintro t ht _ ⟨a, b, c, suffix, rfl, ⟨a1, a2⟩, ⟨b1, b2⟩, ⟨c1, c2⟩, hsuf⟩
      refine ⟨t, _, ⟨rfl, trivial⟩, '.' :: (b ++ '.' :: (c ++ (suffix ++ t))), ⟨a, by simp, a1, a2⟩, _, rfl,
        '.' :: (c ++ (suffix ++ t)), ⟨b, rfl, b1, b2⟩, _, rfl, suffix ++ t, ⟨c, rfl, c1, c2⟩, t, ?_, rfl, ht⟩
      rcases hsuf with rfl | ⟨r, rfl, r1, r2⟩
      · right; rfl
      · left; exact ⟨r ++ t, rfl, r, rfl, r1, by simpa [or_assoc] using r2⟩
    rintro (h | ⟨b, rfl, h⟩)
    · have := build [] (.inl rfl) s h
      rw [List.append_nil] at this
      exact this
    · exact build ['\n'] (.inr rfl) b h

theorem split_major (U : Uni) {s major : Str} (h : VersionForm U s major) (t : Str) :
    ∃ rest, Str.split '.' (s ++ t) = major :: rest := by
  obtain ⟨minor, patch, suffix, rfl, ⟨_, h1⟩, _⟩ := h
  have hd : '.' ∉ major := fun hm => by have := h1 _ hm; rw [(uni_dot U).1] at this; cases this
  have : major ++ '.' :: (minor ++ '.' :: (patch ++ suffix)) ++ t =
      major ++ '.' :: (minor ++ '.' :: (patch ++ suffix) ++ t) := by simp
  rw [this, Str.split_append_sep hd]
  exact ⟨_, rfl⟩

/-- **C23.** Exactly which strings pass as a version: the documented form, perhaps with one
newline at the end, with major number 3 (whose digits `int()` is willing to convert). -/
theorem C23_exact (U : Uni) (limit : Option Nat) (s : Str) : validateVersion U limit s = true ↔
    VersionOk U limit s := by
  unfold VersionOk
  have key : ∀ b t major, VersionForm U b major →
      (majorIsThree U limit (b ++ t) = true ↔ numberValue U major = 3 ∧ WithinLimit limit major) := by
    intro b t major h
    obtain ⟨rest, hr⟩ := split_major U h t
    unfold majorIsThree
    rw [hr]
    simp only
    constructor
    · intro h
      cases hi : intOf U limit major with
      | none => simp [hi] at h
      | some m =>
        obtain ⟨h1, h2⟩ := (intOf_eq U limit major m).1 hi
        simp [hi] at h
        exact ⟨h2.trans h, h1⟩
    · rintro ⟨h1, h2⟩
      rw [(intOf_eq U limit major 3).2 ⟨h2, h1⟩]; rfl
  unfold validateVersion
  constructor
  · intro h
    split at h
    · rename_i hm
      rcases (version_exact U s).1 hm with ⟨major, hv⟩ | ⟨b, rfl, major, hv⟩
      · left
        have k := key s [] major hv
        rw [List.append_nil] at k
        exact ⟨major, hv, k.1 h⟩
      · right
        exact ⟨b, rfl, major, hv, (key b _ major hv).1 h⟩
    · cases h
  · rintro (⟨major, hv, h⟩ | ⟨b, rfl, major, hv, h⟩)
    · rw [if_pos ((version_exact U s).2 (.inl ⟨major, hv⟩))]
      have k := key s [] major hv
      rw [List.append_nil] at k
      exact k.2 h
    · rw [if_pos ((version_exact U _).2 (.inr ⟨b, rfl, major, hv⟩))]
      exact (key b _ major hv).2 h

/-- **C23**, as stated, for strings without newlines, shorter than the limit of `int()`.
Missing: versions that end in a newline (`C23_refuted`). -/
theorem C23_exact_partial (U : Uni) (limit : Option Nat) (s : Str) (h : '\n' ∉ s)
    (hl : ∀ m, limit = some m → s.length ≤ m) :
    validateVersion U limit s = true ↔ ∃ major, VersionForm U s major ∧ numberValue U major = 3 := by
  rw [C23_exact]
  constructor
  · rintro (⟨major, h1, h2, _⟩ | ⟨t, rfl, _⟩)
    · exact ⟨major, h1, h2⟩
    · exact absurd (by simp) h
  · rintro ⟨major, h1, h2⟩
    refine .inl ⟨major, h1, h2, fun m hm => ?_⟩
    obtain ⟨_, _, _, rfl, _⟩ := h1
    have := hl m hm
    simp at this; omega

/-- **C23, refuted**: a version ending in a newline is accepted. -/
theorem C23_refuted : validateVersion Uni.ascii (some 4300) p!"3.0.0\n" = true ∧
    ¬ ∃ major, VersionForm Uni.ascii p!"3.0.0\n" major := by
  refine ⟨by decide, ?_⟩
  rintro ⟨major, minor, patch, suffix, e, h1, h2, ⟨hp, h3⟩, h4⟩
  have h1 := congrArg List.getLast? e
  have hne : patch ++ suffix ≠ [] := by simp [hp]
  have h2 : (major ++ '.' :: (minor ++ '.' :: (patch ++ suffix))).getLast? = (patch ++ suffix).getLast? := by
    have : major ++ '.' :: (minor ++ '.' :: (patch ++ suffix)) = (major ++ '.' :: (minor ++ ['.'])) ++ (patch ++ suffix) := by
      simp
    rw [this, List.getLast?_append]
    cases h : (patch ++ suffix).getLast? with
    | none => rw [List.getLast?_eq_none_iff] at h; exact absurd h hne
    | some x => rfl
  rw [h2] at h1
  simp only [List.getLast?, List.getLast] at h1
  have hm : '\n' ∈ patch ++ suffix := List.mem_of_getLast? h1.symm
  rw [List.mem_append] at hm
  rcases hm with hm | hm
  · have := h3 _ hm; simp [uni_newline] at this
  · rcases h4 with rfl | ⟨r, rfl, _, hr⟩
    · cases hm
    · rcases List.mem_cons.1 hm with h | h
      · cases h
      · have := hr _ h; simp [uni_newline] at this

example : validateVersion Uni.ascii (some 4300) p!"3.1.0-rc.1" = true := by decide
example : validateVersion Uni.ascii (some 4300) p!"2.6.0" = false := by decide
example : validateVersion Uni.ascii (some 4300) p!"3.0" = false := by decide
/-- "03.0.0" has major number 3. -/
example : validateVersion Uni.ascii (some 4300) p!"03.0.0" = true := by decide

end Verif.Props
