import Verif.Spec.Json
import Verif.Model.Json
import Verif.Props.Mutate
/-!
# Reading and writing JSON text
-/
namespace Verif.Json
open Verif Verif.Gen Verif.Pyd Verif.Mutate Verif.Spec

/-! ### White space -/

theorem isSpace_iff (c : Char) : isSpace c = true ↔ (c = ' ' ∨ c = '\t' ∨ c = '\n' ∨ c = '\r') := by
  simp only [isSpace, Bool.or_eq_true, beq_iff_eq, or_assoc]

theorem blank_all {b : Str} : Blank b ↔ b.all isSpace = true := by
  simp only [Blank, List.all_eq_true, isSpace_iff]

theorem skip_split (t : Str) : ∃ b, t = b ++ skip t ∧ Blank b := by
  refine ⟨t.takeWhile isSpace, (List.takeWhile_append_dropWhile).symm, fun c hc => (isSpace_iff c).1 ?_⟩
  induction t with
  | nil => cases hc
  | cons a t ih =>
    simp only [List.takeWhile_cons] at hc
    split at hc
    · rcases List.mem_cons.1 hc with rfl | hc
      · assumption
      · exact ih hc
    · cases hc

theorem skip_blank {b : Str} (hb : Blank b) (t : Str) : skip (b ++ t) = skip t := by
  rw [blank_all] at hb
  induction b with
  | nil => rfl
  | cons c b ih =>
    rw [List.all_cons, Bool.and_eq_true] at hb
    show List.dropWhile isSpace (c :: (b ++ t)) = _
    rw [List.dropWhile_cons, if_pos hb.1]
    exact ih hb.2

theorem skip_stop {c : Char} (hc : isSpace c = false) (t : Str) : skip (c :: t) = c :: t := by
  show List.dropWhile isSpace (c :: t) = _
  rw [List.dropWhile_cons, if_neg (by simp [hc])]

theorem skip_all {b : Str} (hb : Blank b) : skip b = [] := by
  have := skip_blank hb []
  rw [List.append_nil] at this
  exact this

/-! ### Strings -/

theorem isDigit_iff (c : Char) : isDigit c = true ↔ IsDigit c := by
  simp only [isDigit, IsDigit, Bool.and_eq_true, decide_eq_true_eq]

theorem hexVal_iff (c : Char) (n : Nat) : hexVal c = some n ↔ HexDigit c n := by
  constructor
  · intro h
    unfold hexVal at h
    split at h
    · obtain rfl := Option.some.inj h
      exact .digit ((isDigit_iff c).1 (by assumption))
    · split at h
      · rename_i h'
        obtain rfl := Option.some.inj h
        simp only [Bool.and_eq_true, decide_eq_true_eq] at h'
        exact .lower h'.1 h'.2
      · split at h
        · rename_i h'
          obtain rfl := Option.some.inj h
          simp only [Bool.and_eq_true, decide_eq_true_eq] at h'
          exact .upper h'.1 h'.2
        · cases h
  · intro h
    unfold hexVal
    cases h with
    | digit h => rw [if_pos ((isDigit_iff c).2 h)]
    | lower h h' =>
      rw [if_neg (by rw [isDigit_iff]; unfold IsDigit; omega), if_pos (by simp only [Bool.and_eq_true, decide_eq_true_eq]; omega)]
    | upper h h' =>
      rw [if_neg (by rw [isDigit_iff]; unfold IsDigit; omega), if_neg (by simp only [Bool.and_eq_true, decide_eq_true_eq]; omega),
        if_pos (by simp only [Bool.and_eq_true, decide_eq_true_eq]; omega)]

theorem hexFour_iff (t : Str) (n : Nat) (r : Str) : hexFour t = some (n, r) ↔ ∃ h, t = h ++ r ∧ HexFour n h := by
  constructor
  · intro h
    unfold hexFour at h
    split at h
    · split at h
      · rename_i a b c d r' _ _ _ _ i j k l h1 h2 h3 h4
        obtain ⟨rfl, rfl⟩ := Prod.mk.inj (Option.some.inj h)
        exact ⟨[a, b, c, d], rfl, a, b, c, d, i, j, k, l, rfl, (hexVal_iff _ _).1 h1, (hexVal_iff _ _).1 h2, (hexVal_iff _ _).1 h3,
          (hexVal_iff _ _).1 h4, rfl⟩
      · cases h
    · cases h
  · rintro ⟨h, rfl, a, b, c, d, i, j, k, l, rfl, h1, h2, h3, h4, rfl⟩
    simp only [List.cons_append, List.nil_append, hexFour, (hexVal_iff _ _).2 h1, (hexVal_iff _ _).2 h2, (hexVal_iff _ _).2 h3,
      (hexVal_iff _ _).2 h4]

theorem hexDigit_lt {c : Char} {n : Nat} (h : HexDigit c n) : n < 16 := by
  cases h with
  | digit h => unfold IsDigit at h; omega
  | lower h h' => omega
  | upper h h' => omega

theorem hexFour_lt {n : Nat} {h : Str} (hh : HexFour n h) : n < 65536 := by
  obtain ⟨a, b, c, d, i, j, k, l, rfl, h1, h2, h3, h4, rfl⟩ := hh
  have := hexDigit_lt h1
  have := hexDigit_lt h2
  have := hexDigit_lt h3
  have := hexDigit_lt h4
  omega

theorem char_toNat_ofNat {n : Nat} (h : n < 0xD800 ∨ (0xDFFF < n ∧ n < 0x110000)) : (Char.ofNat n).toNat = n := by
  have hv : n.isValidChar := h
  unfold Char.ofNat
  rw [dif_pos hv]
  rfl

theorem char_range (c : Char) : c.toNat < 0xD800 ∨ (0xDFFF < c.toNat ∧ c.toNat < 0x110000) := c.valid

theorem char_ofNat_toNat (c : Char) : Char.ofNat c.toNat = c := Char.ofNat_toNat c

theorem shortEscape_iff (e c : Char) : shortEscape e = some c ↔ (e, c) ∈ shortEscapes := by
  constructor
  · intro h
    unfold shortEscape at h
    repeat' (split at h; · subst_vars; obtain rfl := Option.some.inj h; simp [shortEscapes])
    cases h
  · intro h
    simp only [shortEscapes, List.mem_cons, Prod.mk.injEq, List.not_mem_nil, or_false] at h
    rcases h with ⟨rfl, rfl⟩ | ⟨rfl, rfl⟩ | ⟨rfl, rfl⟩ | ⟨rfl, rfl⟩ | ⟨rfl, rfl⟩ | ⟨rfl, rfl⟩ | ⟨rfl, rfl⟩ | ⟨rfl, rfl⟩ <;> rfl

theorem readChar_sound {t : Str} {c : Char} {r : Str} (h : readChar t = some (c, r)) : ∃ u, t = u ++ r ∧ CharText c u := by
  unfold readChar at h
  split at h
  · cases h
  rename_i a r0
  split at h
  · subst_vars
    split at h
    · cases h
    rename_i e r1
    split at h
    · subst_vars
      split at h
      · cases h
      rename_i a r2 h1
      obtain ⟨h', rfl, hh⟩ := (hexFour_iff _ _ _).1 h1
      split at h
      · rename_i ha
        split at h
        · split at h
          · cases h
          rename_i b r4 h2
          obtain ⟨h'', rfl, hh'⟩ := (hexFour_iff _ _ _).1 h2
          split at h
          · rename_i hb
            obtain ⟨rfl, rfl⟩ := Prod.mk.inj (Option.some.inj h)
            refine ⟨'\\' :: 'u' :: (h' ++ '\\' :: 'u' :: h''), by simp, .pair hh hh' ha.1 ha.2 hb.1 hb.2 (char_toNat_ofNat (by omega))⟩
          · cases h
        · cases h
      · split at h
        · cases h
        · rename_i ha hb
          obtain ⟨rfl, rfl⟩ := Prod.mk.inj (Option.some.inj h)
          have := hexFour_lt hh
          refine ⟨'\\' :: 'u' :: h', by simp, .code ?_⟩
          rw [char_toNat_ofNat (by omega)]
          exact hh
    · cases he : shortEscape e with
      | none => rw [he] at h; cases h
      | some d =>
        rw [he] at h
        obtain ⟨rfl, rfl⟩ := Prod.mk.inj (Option.some.inj h)
        exact ⟨['\\', e], rfl, .short ((shortEscape_iff _ _).1 he)⟩
  · split at h
    · cases h
    · rename_i h1 h2
      obtain ⟨rfl, rfl⟩ := Prod.mk.inj (Option.some.inj h)
      exact ⟨[a], rfl, .raw (by omega) (fun e => h2 (.inl e)) h1⟩

theorem shortEscapes_ne {e c : Char} (h : (e, c) ∈ shortEscapes) : e ≠ 'u' := by
  rintro rfl
  revert h
  simp [shortEscapes]

theorem readChar_complete {c : Char} {u : Str} (h : CharText c u) (r : Str) : readChar (u ++ r) = some (c, r) := by
  cases h with
  | raw h1 h2 h3 =>
    show readChar (c :: r) = _
    unfold readChar
    simp only []
    rw [if_neg h3, if_neg (by rintro (h | h); exacts [h2 h, by omega])]
  | short h =>
    rename_i e
    show readChar ('\\' :: e :: r) = _
    rw [readChar]
    rw [if_pos rfl]
    simp only [if_neg (shortEscapes_ne h), (shortEscape_iff _ _).2 h, Option.map_some]
  | code h =>
    rename_i h'
    show readChar ('\\' :: 'u' :: (h' ++ r)) = _
    rw [readChar]
    have hc := char_range c
    have := hexFour_lt h
    simp only [if_true, (hexFour_iff _ _ _).2 ⟨h', rfl, h⟩]
    rw [if_neg (by omega), if_neg (by omega), char_ofNat_toNat]
  | pair h h' ha ha' hb hb' e =>
    rename_i a b h0 h1
    rw [show ('\\' :: 'u' :: (h0 ++ '\\' :: 'u' :: h1)) ++ r = '\\' :: 'u' :: (h0 ++ '\\' :: 'u' :: (h1 ++ r)) by simp, readChar]
    simp only [if_true, (hexFour_iff _ _ _).2 ⟨h0, rfl, h⟩, if_pos (And.intro ha ha'), (hexFour_iff _ _ _).2 ⟨h1, rfl, h'⟩,
      if_pos (And.intro hb hb'), ← e, char_ofNat_toNat]

theorem charText_head {c : Char} {u : Str} (h : CharText c u) : ∃ a s, u = a :: s ∧ a ≠ '"' := by
  cases h with
  | raw _ h _ => exact ⟨_, _, rfl, h⟩
  | short _ => exact ⟨_, _, rfl, by decide⟩
  | code _ => exact ⟨_, _, rfl, by decide⟩
  | pair => exact ⟨_, _, rfl, by decide⟩

theorem readString_sound {k : Nat} {t s r : Str} (h : readString k t = some (s, r)) : ∃ u, t = u ++ '"' :: r ∧ StrText s u := by
  induction k generalizing t s with
  | zero => cases h
  | succ k ih =>
    unfold readString at h
    split at h
    · obtain ⟨rfl, rfl⟩ := Prod.mk.inj (Option.some.inj h)
      exact ⟨[], rfl, .nil⟩
    · split at h
      · cases h
      · rename_i h1
        obtain ⟨u, rfl, hu⟩ := readChar_sound h1
        split at h
        · cases h
        · rename_i h2
          obtain ⟨rfl, rfl⟩ := Prod.mk.inj (Option.some.inj h)
          obtain ⟨w, rfl, hw⟩ := ih h2
          exact ⟨u ++ w, by simp, .cons hu hw⟩

theorem readString_complete {s u : Str} (h : StrText s u) (r : Str) {k : Nat} (hk : u.length + 1 ≤ k) :
    readString k (u ++ '"' :: r) = some (s, r) := by
  induction h generalizing k with
  | nil =>
    obtain ⟨k, rfl⟩ : ∃ j, k = j + 1 := ⟨k - 1, by simp at hk; omega⟩
    rfl
  | @cons c s t u hc hs ih =>
    obtain ⟨k, rfl⟩ : ∃ j, k = j + 1 := ⟨k - 1, by omega⟩
    obtain ⟨a, t', rfl, ha⟩ := charText_head hc
    have := readChar_complete hc (u ++ '"' :: r)
    rw [List.append_assoc]
    unfold readString
    split
    · rename_i e; exact absurd (List.cons.inj e).1 ha
    · rw [this]
      simp only
      rw [ih (by simp at hk; omega)]

/-! ### Numbers -/

theorem takeWhile_all {p : Char → Bool} {l : Str} (h : ∀ c ∈ l, p c = true) (r : Str) (hr : ∀ c, r.head? = some c → p c = false) :
    (l ++ r).takeWhile p = l ∧ (l ++ r).dropWhile p = r := by
  induction l with
  | nil =>
    cases r with
    | nil => exact ⟨rfl, rfl⟩
    | cons c r =>
      have := hr c rfl
      simp [List.takeWhile_cons, List.dropWhile_cons, this]
  | cons c l ih =>
    have hc := h c (List.mem_cons_self ..)
    have := ih fun d hd => h d (List.mem_cons_of_mem _ hd)
    simp [List.takeWhile_cons, List.dropWhile_cons, hc, this]

theorem mem_takeWhile {p : Char → Bool} {t : Str} {c : Char} (hc : c ∈ t.takeWhile p) : p c = true := by
  induction t with
  | nil => cases hc
  | cons a t ih =>
    rw [List.takeWhile_cons] at hc
    split at hc
    · rcases List.mem_cons.1 hc with rfl | hc
      · assumption
      · exact ih hc
    · cases hc

theorem natOf_eq (n : Nat) (ds : Str) : natOf n ds = ds.foldl (fun n c => 10 * n + (c.toNat - 48)) n := by
  induction ds generalizing n with
  | nil => rfl
  | cons c ds ih => exact ih _

theorem plainDigits_iff (ds : Str) : plainDigits ds = true ↔ ds ≠ [] ∧ (ds = ['0'] ∨ ds.head? ≠ some '0') := by
  unfold plainDigits
  split
  · simp
  · simp
  · rename_i c r h
    simp only [bne_iff_ne, List.head?_cons, ne_eq, reduceCtorEq, not_false_eq_true, Option.some.injEq, true_and]
    constructor
    · exact .inr
    · rintro (h' | h')
      · obtain ⟨rfl, rfl⟩ := List.cons.inj h'
        exact absurd rfl (h rfl)
      · exact h'

theorem exponentOk_iff (t : Str) : exponentOk t = true ↔ ∃ s ds, t = s ++ ds ∧ (s = [] ∨ s = ['+'] ∨ s = ['-']) ∧ ds ≠ [] ∧ ∀ c ∈ ds, IsDigit c := by
  constructor
  · intro h
    unfold exponentOk at h
    split at h <;> simp only [Bool.and_eq_true, Bool.not_eq_true', List.isEmpty_eq_false_iff, List.all_eq_true] at h
    · exact ⟨['+'], _, rfl, by simp, h.1, fun c hc => (isDigit_iff c).1 (h.2 c hc)⟩
    · exact ⟨['-'], _, rfl, by simp, h.1, fun c hc => (isDigit_iff c).1 (h.2 c hc)⟩
    · exact ⟨[], _, rfl, by simp, h.1, fun c hc => (isDigit_iff c).1 (h.2 c hc)⟩
  · rintro ⟨s, ds, rfl, hs, hne, hd⟩
    have hall : (!ds.isEmpty && ds.all isDigit) = true := by
      simp only [Bool.and_eq_true, Bool.not_eq_true', List.isEmpty_eq_false_iff, List.all_eq_true]
      exact ⟨hne, fun c hc => (isDigit_iff c).2 (hd c hc)⟩
    rcases hs with rfl | rfl | rfl
    · show exponentOk ds = true
      unfold exponentOk
      split
      · have := hd '+' (List.mem_cons_self ..); unfold IsDigit at this; simp at this
      · have := hd '-' (List.mem_cons_self ..); unfold IsDigit at this; simp at this
      · exact hall
    · exact hall
    · exact hall

theorem exponent_iff (t : Str) : Exponent t ↔ t = [] ∨ ∃ e x, t = e :: x ∧ (e = 'e' ∨ e = 'E') ∧ exponentOk x = true := by
  constructor
  · rintro (rfl | ⟨e, s, ds, rfl, he, hs, hn, hd⟩)
    · exact .inl rfl
    · exact .inr ⟨e, _, rfl, he, (exponentOk_iff _).2 ⟨s, ds, rfl, hs, hn, hd⟩⟩
  · rintro (rfl | ⟨e, x, rfl, he, hx⟩)
    · exact .inl rfl
    · obtain ⟨s, ds, rfl, hs, hn, hd⟩ := (exponentOk_iff _).1 hx
      exact .inr ⟨e, s, ds, rfl, he, hs, hn, hd⟩

theorem exponent_stop {x : Str} (h : Exponent x) : ∀ c, x.head? = some c → isDigit c = false := by
  intro c hc
  rcases h with rfl | ⟨e, s, ds, rfl, he, _⟩
  · cases hc
  · obtain rfl := Option.some.inj hc
    rcases he with rfl | rfl <;> rfl

theorem tailOk_iff (t : Str) : tailOk t = true ↔ ∃ f x, t = f ++ x ∧ Fraction f ∧ Exponent x ∧ (f ≠ [] ∨ x ≠ []) := by
  constructor
  · intro h
    unfold tailOk at h
    split at h
    · rename_i r
      simp only [Bool.and_eq_true, Bool.not_eq_true', List.isEmpty_eq_false_iff] at h
      refine ⟨'.' :: r.takeWhile isDigit, r.dropWhile isDigit, by simp [List.takeWhile_append_dropWhile],
        .inr ⟨_, rfl, h.1, fun c hc => (isDigit_iff c).1 (mem_takeWhile hc)⟩, ?_, .inl (by simp)⟩
      have h2 := h.2
      rw [exponent_iff]
      split at h2
      · rename_i e; exact .inl e
      · rename_i x e; exact .inr ⟨_, _, e, .inl rfl, h2⟩
      · rename_i x e; exact .inr ⟨_, _, e, .inr rfl, h2⟩
      · cases h2
    · exact ⟨[], _, rfl, .inl rfl, (exponent_iff _).2 (.inr ⟨_, _, rfl, .inl rfl, h⟩), .inr (by simp)⟩
    · exact ⟨[], _, rfl, .inl rfl, (exponent_iff _).2 (.inr ⟨_, _, rfl, .inr rfl, h⟩), .inr (by simp)⟩
    · cases h
  · rintro ⟨f, x, rfl, hf, hx, hne⟩
    rcases hf with rfl | ⟨ds, rfl, hd, hds⟩
    · rcases (exponent_iff _).1 hx with rfl | ⟨e, y, rfl, he | he, hy⟩
      · simp at hne
      · subst he; exact hy
      · subst he; exact hy
    · have hw := takeWhile_all (fun c hc => (isDigit_iff c).2 (hds c hc)) x (exponent_stop hx)
      show tailOk ('.' :: (ds ++ x)) = true
      unfold tailOk
      simp only [hw.1, hw.2, Bool.and_eq_true, Bool.not_eq_true', List.isEmpty_eq_false_iff]
      refine ⟨hd, ?_⟩
      rcases (exponent_iff _).1 hx with rfl | ⟨e, y, rfl, he | he, hy⟩
      · rfl
      · subst he; exact hy
      · subst he; exact hy

/-- Either kind of number. -/
def NumText (F : Str → Str) (v : V) (t : Str) : Prop := (∃ i, v = .int i ∧ IntText i t) ∨ (v = .float (F t) ∧ FloatText t)

theorem body_iff (ds x : Str) (hds : ∀ c ∈ ds, isDigit c = true) :
    plainDigits ds = true ↔ Numeral ds := by
  rw [plainDigits_iff, Numeral]
  exact ⟨fun h => ⟨h.1, fun c hc => (isDigit_iff c).1 (hds c hc), h.2⟩, fun h => ⟨h.1, h.2.2⟩⟩

theorem numeral_ne_minus {ds : Str} (h : Numeral ds) : ∃ c r, ds = c :: r ∧ IsDigit c := by
  cases ds with
  | nil => exact absurd rfl h.1
  | cons c r => exact ⟨c, r, rfl, h.2.1 c (List.mem_cons_self ..)⟩

theorem numberOf_sound {F : Str → Str} {t : Str} {v : V} (h : numberOf F t = some v) : NumText F v t := by
  unfold numberOf at h
  obtain ⟨neg, r, m, hm, ht, hneg⟩ : ∃ neg r m, signOf t = (neg, r) ∧ t = m ++ r ∧
      ((neg = true ∧ m = ['-']) ∨ (neg = false ∧ m = [])) := by
    unfold signOf
    split
    · exact ⟨true, _, ['-'], rfl, rfl, .inl ⟨rfl, rfl⟩⟩
    · exact ⟨false, _, [], rfl, rfl, .inr ⟨rfl, rfl⟩⟩
  rw [hm] at h
  simp only at h
  have hsplit : r = r.takeWhile isDigit ++ r.dropWhile isDigit := List.takeWhile_append_dropWhile.symm
  have hdig : ∀ c ∈ r.takeWhile isDigit, isDigit c = true := fun c => mem_takeWhile
  split at h
  · rename_i hp
    have hN := (body_iff _ [] hdig).1 hp
    split at h
    · rename_i he
      rw [List.isEmpty_iff] at he
      rw [he, List.append_nil] at hsplit
      obtain rfl := Option.some.inj h
      rw [← hsplit] at hN ⊢
      refine .inl ⟨_, rfl, ?_⟩
      rcases hneg with ⟨rfl, rfl⟩ | ⟨rfl, rfl⟩
      · rw [ht, if_pos rfl, natOf_eq]; exact .neg hN
      · rw [ht, if_neg (by simp), natOf_eq]; exact .pos hN
    · split at h
      · rename_i hx
        obtain rfl := Option.some.inj h
        obtain ⟨f, x, e, hf, hx, hne⟩ := (tailOk_iff _).1 hx
        refine .inr ⟨rfl, m, r.takeWhile isDigit, f, x, by rw [← e, ← hsplit]; exact ht, ?_, hN, hf, hx, hne⟩
        rcases hneg with ⟨_, h⟩ | ⟨_, h⟩
        · exact .inr h
        · exact .inl h
      · cases h
  · cases h

theorem sign_pos {r : Str} (h : ∀ s, r ≠ '-' :: s) : signOf r = (false, r) := by
  unfold signOf
  split
  · exact absurd rfl (h _)
  · rfl

theorem numeral_no_sign {ds : Str} (h : Numeral ds) (x : Str) : ∀ s, ds ++ x ≠ '-' :: s := by
  obtain ⟨c, r, rfl, hc⟩ := numeral_ne_minus h
  intro s e
  rw [(List.cons.inj e).1] at hc
  unfold IsDigit at hc
  simp at hc

theorem numberOf_complete {F : Str → Str} {t : Str} {v : V} (h : NumText F v t) : numberOf F t = some v := by
  rcases h with ⟨i, rfl, h⟩ | ⟨rfl, m, ds, f, x, rfl, hm, hN, hf, hx, hne⟩
  · cases h with
    | pos hN =>
      have hw := takeWhile_all (fun c hc => (isDigit_iff c).2 (hN.2.1 c hc)) [] (by simp)
      rw [List.append_nil] at hw
      have hs := sign_pos (r := t) (by simpa using numeral_no_sign hN [])
      unfold numberOf
      rw [hs]
      simp only [hw.1, hw.2, (body_iff t [] fun c hc => (isDigit_iff c).2 (hN.2.1 c hc)).2 hN, if_true, List.isEmpty_nil]
      rw [if_neg (by simp), natOf_eq]
      rfl
    | @neg ds hN =>
      have hw := takeWhile_all (fun c hc => (isDigit_iff c).2 (hN.2.1 c hc)) [] (by simp)
      rw [List.append_nil] at hw
      unfold numberOf
      simp only [signOf, hw.1, hw.2, (body_iff ds [] fun c hc => (isDigit_iff c).2 (hN.2.1 c hc)).2 hN, if_true, List.isEmpty_nil]
      rw [natOf_eq]
      rfl
  · have hstop : ∀ c, (f ++ x).head? = some c → isDigit c = false := by
      rcases hf with rfl | ⟨fs, rfl, _⟩
      · exact exponent_stop hx
      · intro c hc
        obtain rfl := Option.some.inj hc
        rfl
    have hw := takeWhile_all (fun c hc => (isDigit_iff c).2 (hN.2.1 c hc)) (f ++ x) hstop
    have hp := (body_iff ds [] fun c hc => (isDigit_iff c).2 (hN.2.1 c hc)).2 hN
    have ht := (tailOk_iff (f ++ x)).2 ⟨f, x, rfl, hf, hx, hne⟩
    have he : ¬ (f ++ x).isEmpty = true := by
      rw [List.isEmpty_iff, List.append_eq_nil_iff]
      rintro ⟨h1, h2⟩
      rcases hne with h | h
      · exact h h1
      · exact h h2
    rcases hm with rfl | rfl
    · unfold numberOf
      rw [sign_pos (r := [] ++ (ds ++ (f ++ x))) (by simpa using numeral_no_sign hN (f ++ x))]
      simp only [List.nil_append, hw.1, hw.2, hp, if_true, ht, if_neg he]
    · show numberOf F ('-' :: (ds ++ (f ++ x))) = _
      unfold numberOf
      simp only [signOf, hw.1, hw.2, hp, if_true, ht, if_neg he]
      rfl

/-- The text of a number has no other characters and starts with a digit or a minus sign. -/
theorem numText_chars {F : Str → Str} {t : Str} {v : V} (h : NumText F v t) :
    (∀ c ∈ t, isNumeric c = true) ∧ ∃ a s, t = a :: s ∧ (a = '-' ∨ IsDigit a) := by
  have hd : ∀ c, IsDigit c → isNumeric c = true := fun c hc => by
    unfold isNumeric; rw [(isDigit_iff c).2 hc]; rfl
  rcases h with ⟨i, rfl, h⟩ | ⟨rfl, m, ds, f, x, rfl, hm, hN, hf, hx, hne⟩
  · cases h with
    | pos hN =>
      obtain ⟨c, r, rfl, hc⟩ := numeral_ne_minus hN
      exact ⟨fun d hd' => hd d (hN.2.1 d hd'), c, r, rfl, .inr hc⟩
    | neg hN =>
      refine ⟨fun d hd' => ?_, _, _, rfl, .inl rfl⟩
      rcases List.mem_cons.1 hd' with rfl | hd'
      · rfl
      · exact hd d (hN.2.1 d hd')
  · constructor
    · intro c hc
      rcases List.mem_append.1 hc with hc | hc
      · rcases hm with rfl | rfl
        · cases hc
        · obtain rfl := List.mem_singleton.1 hc; rfl
      rcases List.mem_append.1 hc with hc | hc
      · exact hd c (hN.2.1 c hc)
      rcases List.mem_append.1 hc with hc | hc
      · rcases hf with rfl | ⟨fs, rfl, _, hfs⟩
        · cases hc
        · rcases List.mem_cons.1 hc with rfl | hc
          · rfl
          · exact hd c (hfs c hc)
      · rcases hx with rfl | ⟨e, s, xs, rfl, he, hs, _, hxs⟩
        · cases hc
        · rcases List.mem_cons.1 hc with rfl | hc
          · rcases he with rfl | rfl <;> rfl
          rcases List.mem_append.1 hc with hc | hc
          · rcases hs with rfl | rfl | rfl
            · cases hc
            · obtain rfl := List.mem_singleton.1 hc; rfl
            · obtain rfl := List.mem_singleton.1 hc; rfl
          · exact hd c (hxs c hc)
    · rcases hm with rfl | rfl
      · obtain ⟨c, r, rfl, hc⟩ := numeral_ne_minus hN
        exact ⟨c, _, rfl, .inr hc⟩
      · exact ⟨_, _, rfl, .inl rfl⟩

/-! ### Members with the same name -/

theorem collect_snoc (d : List (Str × V)) (e : Str × V) : collect (d ++ [e]) = dictSet (collect d) e.1 e.2 := by
  unfold collect
  rw [List.foldl_append]
  rfl

theorem mem_eraseDups' {l : List Str} {k : Str} : k ∈ l.eraseDups ↔ k ∈ l := List.mem_eraseDups

theorem lookup_head {β : Type} (k : Str) (d : List (Str × β)) (e : Str × β) : lookup k (e :: d) = if e.1 = k then some e.2 else lookup k d := rfl

theorem collect_lastWins (d : List (Str × V)) : LastWins d (collect d) := by
  suffices h : ∀ r : List (Str × V), LastWins r.reverse (collect r.reverse) by
    have := h d.reverse
    rwa [List.reverse_reverse] at this
  intro r
  induction r with
  | nil => exact ⟨rfl, fun k => rfl⟩
  | cons e r ih =>
    rw [List.reverse_cons, collect_snoc]
    constructor
    · rw [Props.keys_dictSet, ih.1, List.map_append, List.eraseDups_append]
      show (if e.1 ∈ _ then _ else _) = _ ++ ([e.1].removeAll _).eraseDups
      by_cases h : e.1 ∈ r.reverse.map (·.1)
      · rw [if_pos (mem_eraseDups'.2 h)]
        rw [List.removeAll, List.filter_cons, if_neg (by simpa using h), List.filter_nil, List.eraseDups_nil, List.append_nil]
      · rw [if_neg (fun h' => h (mem_eraseDups'.1 h'))]
        congr 1
        rw [List.removeAll, List.filter_cons, if_pos (by simpa using h), List.filter_nil]
        rfl
    · intro k
      rw [Props.lookup_dictSet, List.reverse_append, ih.2]
      show _ = lookup k (e :: r.reverse.reverse)
      rw [lookup_head]
      by_cases h : k = e.1
      · rw [if_pos h, if_pos h.symm]
      · rw [if_neg h, if_neg (fun h' => h h'.symm)]

theorem lookup_ext {d d' : List (Str × V)} (hn : d.map (·.1) = d'.map (·.1)) (hnd : (d.map (·.1)).Nodup) (h : ∀ k, lookup k d = lookup k d') :
    d = d' := by
  induction d generalizing d' with
  | nil => cases d' with
    | nil => rfl
    | cons => cases hn
  | cons e d ih =>
    cases d' with
    | nil => cases hn
    | cons e' d' =>
      obtain ⟨h1, h2⟩ := List.cons.inj hn
      rw [List.map_cons, List.nodup_cons] at hnd
      have he := h e.1
      rw [lookup_head, lookup_head, if_pos rfl, if_pos h1.symm] at he
      have : e = e' := Prod.ext h1 (Option.some.inj he)
      subst this
      congr 1
      refine ih h2 hnd.2 fun k => ?_
      by_cases hk : e.1 = k
      · subst hk
        rw [Verif.lookup_none.2, Verif.lookup_none.2]
        · exact fun v hv => hnd.1 (h2 ▸ List.mem_map.2 ⟨_, hv, rfl⟩)
        · exact fun v hv => hnd.1 (List.mem_map.2 ⟨_, hv, rfl⟩)
      · have := h k
        rwa [lookup_head, lookup_head, if_neg hk, if_neg hk] at this

theorem collect_nodup (d : List (Str × V)) : ((collect d).map (·.1)).Nodup := by
  suffices h : ∀ r : List (Str × V), ((collect r.reverse).map (·.1)).Nodup by
    have := h d.reverse
    rwa [List.reverse_reverse] at this
  intro r
  induction r with
  | nil => exact List.nodup_nil
  | cons e r ih =>
    rw [List.reverse_cons, collect_snoc, Props.keys_dictSet]
    split
    · exact ih
    · rename_i h
      exact List.nodup_append.2 ⟨ih, List.nodup_cons.2 ⟨List.not_mem_nil, List.nodup_nil⟩, fun a ha b hb e => h (by
        rw [List.mem_singleton.1 hb] at e; exact e ▸ ha)⟩

theorem lastWins_iff (d d' : List (Str × V)) : LastWins d d' ↔ d' = collect d := by
  constructor
  · intro h
    have hc := collect_lastWins d
    refine lookup_ext (h.1.trans hc.1.symm) ?_ fun k => (h.2 k).trans (hc.2 k).symm
    rw [h.1, ← hc.1]
    exact collect_nodup d
  · rintro rfl
    exact collect_lastWins d

/-! ### Values -/

theorem read_sound (F : Str → Str) (k : Nat) :
    (∀ t v r, readValue F k t = some (v, r) → ∃ u, t = u ++ r ∧ JsonText F (.value v) u) ∧
    (∀ t l r, readItems F k t = some (l, r) → ∃ u, t = u ++ ']' :: r ∧ JsonText F (.items l) u) ∧
    (∀ t d r, readMembers F k t = some (d, r) → ∃ u, t = u ++ '}' :: r ∧ JsonText F (.members d) u) := by
  induction k with
  | zero => refine ⟨?_, ?_, ?_⟩ <;> (intro t v r h; simp [readValue, readItems, readMembers] at h)
  | succ k ih =>
    obtain ⟨ihv, ihl, ihd⟩ := ih
    refine ⟨?_, ?_, ?_⟩
    · intro t v r h
      unfold readValue at h
      split at h
      · obtain ⟨rfl, rfl⟩ := Prod.mk.inj (Option.some.inj h)
        exact ⟨p!"null", rfl, .null⟩
      · obtain ⟨rfl, rfl⟩ := Prod.mk.inj (Option.some.inj h)
        exact ⟨p!"true", rfl, .true⟩
      · obtain ⟨rfl, rfl⟩ := Prod.mk.inj (Option.some.inj h)
        exact ⟨p!"false", rfl, .false⟩
      · split at h
        · cases h
        · rename_i hs
          obtain ⟨rfl, rfl⟩ := Prod.mk.inj (Option.some.inj h)
          obtain ⟨u, rfl, hu⟩ := readString_sound hs
          exact ⟨'"' :: (u ++ ['"']), by simp, .str hu⟩
      · rename_i r0
        split at h
        · rename_i hs
          obtain ⟨rfl, rfl⟩ := Prod.mk.inj (Option.some.inj h)
          obtain ⟨b, e, hb⟩ := skip_split r0
          rw [hs] at e
          exact ⟨'[' :: (b ++ [']']), by rw [e]; simp, .emptyList hb⟩
        · split at h
          · cases h
          · rename_i hs
            obtain ⟨rfl, rfl⟩ := Prod.mk.inj (Option.some.inj h)
            obtain ⟨u, rfl, hu⟩ := ihl _ _ _ hs
            exact ⟨'[' :: (u ++ [']']), by simp, .list hu⟩
      · rename_i r0
        split at h
        · rename_i hs
          obtain ⟨rfl, rfl⟩ := Prod.mk.inj (Option.some.inj h)
          obtain ⟨b, e, hb⟩ := skip_split r0
          rw [hs] at e
          exact ⟨'{' :: (b ++ ['}']), by rw [e]; simp, .emptyDict hb⟩
        · split at h
          · cases h
          · rename_i hs
            obtain ⟨rfl, rfl⟩ := Prod.mk.inj (Option.some.inj h)
            obtain ⟨u, rfl, hu⟩ := ihd _ _ _ hs
            exact ⟨'{' :: (u ++ ['}']), by simp, .dict hu (collect_lastWins _)⟩
      · split at h
        · cases h
        · rename_i hs
          obtain ⟨rfl, rfl⟩ := Prod.mk.inj (Option.some.inj h)
          refine ⟨_, List.takeWhile_append_dropWhile.symm, ?_⟩
          rcases numberOf_sound hs with ⟨i, rfl, hi⟩ | ⟨rfl, hf⟩
          · exact .int hi
          · exact .float hf
    · intro t l r h
      unfold readItems at h
      split at h
      · cases h
      · rename_i v r0 hs
        obtain ⟨b, eb, hb⟩ := skip_split t
        obtain ⟨u, eu, hu⟩ := ihv _ _ _ hs
        obtain ⟨b', eb', hb'⟩ := skip_split r0
        split at h
        · rename_i r' hc
          split at h
          · cases h
          · rename_i l' r'' hl
            obtain ⟨rfl, rfl⟩ := Prod.mk.inj (Option.some.inj h)
            obtain ⟨w, ew, hw⟩ := ihl _ _ _ hl
            refine ⟨b ++ (u ++ (b' ++ ',' :: w)), ?_, .items hb hu hb' hw⟩
            rw [eb, eu, eb', hc, ew]
            simp
        · rename_i r' hc
          obtain ⟨rfl, rfl⟩ := Prod.mk.inj (Option.some.inj h)
          refine ⟨b ++ (u ++ b'), ?_, .item hb hu hb'⟩
          rw [eb, eu, eb', hc]
          simp
        · cases h
    · intro t d r h
      unfold readMembers at h
      split at h
      · rename_i r0 h0
        split at h
        · cases h
        · rename_i s r1 h1
          split at h
          · rename_i r2 h2
            split at h
            · cases h
            · rename_i v r3 h3
              obtain ⟨b, eb, hb⟩ := skip_split t
              obtain ⟨w, ew, hw⟩ := readString_sound h1
              obtain ⟨b1, eb1, hb1⟩ := skip_split r1
              obtain ⟨b2, eb2, hb2⟩ := skip_split r2
              obtain ⟨u, eu, hu⟩ := ihv _ _ _ h3
              obtain ⟨b3, eb3, hb3⟩ := skip_split r3
              split at h
              · rename_i r4 h4
                split at h
                · cases h
                · rename_i d' r5 h5
                  obtain ⟨rfl, rfl⟩ := Prod.mk.inj (Option.some.inj h)
                  obtain ⟨z, ez, hz⟩ := ihd _ _ _ h5
                  refine ⟨b ++ '"' :: (w ++ '"' :: (b1 ++ ':' :: (b2 ++ (u ++ (b3 ++ ',' :: z))))), ?_, .members hb hw hb1 hb2 hu hb3 hz⟩
                  rw [eb, h0, ew, eb1, h2, eb2, eu, eb3, h4, ez]
                  simp
              · rename_i r4 h4
                obtain ⟨rfl, rfl⟩ := Prod.mk.inj (Option.some.inj h)
                refine ⟨b ++ '"' :: (w ++ '"' :: (b1 ++ ':' :: (b2 ++ (u ++ b3)))), ?_, .member hb hw hb1 hb2 hu hb3⟩
                rw [eb, h0, ew, eb1, h2, eb2, eu, eb3, h4]
                simp
              · cases h
          · cases h
      · cases h

/-- What follows a value does not go on with a number. -/
def Stops (r : Str) : Prop := ∀ c, r.head? = some c → isNumeric c = false

theorem stops_blank {b : Str} (hb : Blank b) {c : Char} (hc : isNumeric c = false) (r : Str) : Stops (b ++ c :: r) := by
  intro d hd
  cases b with
  | nil => obtain rfl := Option.some.inj hd; exact hc
  | cons a b =>
    obtain rfl := Option.some.inj hd
    rcases hb a (List.mem_cons_self ..) with rfl | rfl | rfl | rfl <;> rfl

theorem stops_all {b : Str} (hb : Blank b) : Stops b := by
  intro d hd
  cases b with
  | nil => cases hd
  | cons a b =>
    obtain rfl := Option.some.inj hd
    rcases hb a (List.mem_cons_self ..) with rfl | rfl | rfl | rfl <;> rfl

/-- The first character of a value. -/
theorem value_head {F : Str → Str} {v : V} {t : Str} (h : JsonText F (.value v) t) :
    ∃ c s, t = c :: s ∧ isSpace c = false ∧ c ≠ ']' ∧ c ≠ '}' ∧ c ≠ ',' := by
  have num : NumText F v t → ∃ c s, t = c :: s ∧ isSpace c = false ∧ c ≠ ']' ∧ c ≠ '}' ∧ c ≠ ',' := by
    intro h
    obtain ⟨_, a, s, rfl, ha⟩ := numText_chars h
    refine ⟨a, s, rfl, ?_⟩
    rcases ha with rfl | ha
    · decide
    · unfold IsDigit at ha
      refine ⟨?_, ?_, ?_, ?_⟩
      · rw [Bool.eq_false_iff]
        intro hs
        rcases (isSpace_iff a).1 hs with rfl | rfl | rfl | rfl <;> simp at ha
      all_goals (rintro rfl; simp at ha)
  cases h with
  | null => exact ⟨_, _, rfl, by decide⟩
  | true => exact ⟨_, _, rfl, by decide⟩
  | false => exact ⟨_, _, rfl, by decide⟩
  | int h => exact num (.inl ⟨_, rfl, h⟩)
  | float h => exact num (.inr ⟨rfl, h⟩)
  | str h => exact ⟨_, _, rfl, by decide⟩
  | emptyList h => exact ⟨_, _, rfl, by decide⟩
  | list h => exact ⟨_, _, rfl, by decide⟩
  | emptyDict h => exact ⟨_, _, rfl, by decide⟩
  | dict h => exact ⟨_, _, rfl, by decide⟩

theorem skip_value {F : Str → Str} {v : V} {t : Str} (h : JsonText F (.value v) t) {b : Str} (hb : Blank b) (r : Str) :
    skip (b ++ (t ++ r)) = t ++ r := by
  obtain ⟨c, s, rfl, hc, _⟩ := value_head h
  rw [skip_blank hb]
  exact skip_stop hc _

theorem skip_char {b : Str} (hb : Blank b) {c : Char} (hc : isSpace c = false) (r : Str) : skip (b ++ c :: r) = c :: r := by
  rw [skip_blank hb, skip_stop hc]

/-- The first character of the items of an array. -/
theorem items_head {F : Str → Str} {l : List V} {t : Str} (h : JsonText F (.items l) t) (r : Str) : ∀ s, skip (t ++ r) ≠ ']' :: s := by
  intro s e
  cases h with
  | item hb ht hb' =>
    rw [List.append_assoc, List.append_assoc, skip_value ht hb] at e
    obtain ⟨c, u, rfl, _, h, _⟩ := value_head ht
    exact h (List.cons.inj e).1
  | items hb ht hb' hl =>
    rw [List.append_assoc, List.append_assoc, skip_value ht hb] at e
    obtain ⟨c, u, rfl, _, h, _⟩ := value_head ht
    exact h (List.cons.inj e).1

theorem members_head {F : Str → Str} {d : List (Str × V)} {t : Str} (h : JsonText F (.members d) t) (r : Str) : ∀ s, skip (t ++ r) ≠ '}' :: s := by
  intro s e
  cases h with
  | member hb =>
    rw [List.append_assoc, List.cons_append, skip_char hb (by decide)] at e
    exact absurd (List.cons.inj e).1 (by decide)
  | members hb =>
    rw [List.append_assoc, List.cons_append, skip_char hb (by decide)] at e
    exact absurd (List.cons.inj e).1 (by decide)

theorem readValue_number {F : Str → Str} {v : V} {t : Str} (h : NumText F v t) {r : Str} (hr : Stops r) (k : Nat) :
    readValue F (k + 1) (t ++ r) = some (v, r) := by
  obtain ⟨hall, a, s, rfl, ha⟩ := numText_chars h
  have hw := takeWhile_all hall r hr
  have hne : a ≠ 'n' ∧ a ≠ 't' ∧ a ≠ 'f' ∧ a ≠ '"' ∧ a ≠ '[' ∧ a ≠ '{' := by
    rcases ha with rfl | ha
    · decide
    · unfold IsDigit at ha
      refine ⟨?_, ?_, ?_, ?_, ?_, ?_⟩ <;> (rintro rfl; simp at ha)
  unfold readValue
  split
  · rename_i e; exact absurd (List.cons.inj e).1 hne.1
  · rename_i e; exact absurd (List.cons.inj e).1 hne.2.1
  · rename_i e; exact absurd (List.cons.inj e).1 hne.2.2.1
  · rename_i e; exact absurd (List.cons.inj e).1 hne.2.2.2.1
  · rename_i e; exact absurd (List.cons.inj e).1 hne.2.2.2.2.1
  · rename_i e; exact absurd (List.cons.inj e).1 hne.2.2.2.2.2
  · rw [hw.1, hw.2, numberOf_complete h]

/-- What reading a text must give. -/
def Reads (F : Str → Str) (p : Part) (t : Str) : Prop := match p with
  | .value v => ∀ r k, Stops r → 2 * t.length + 1 ≤ k → readValue F k (t ++ r) = some (v, r)
  | .items l => ∀ r k, 2 * t.length + 2 ≤ k → readItems F k (t ++ ']' :: r) = some (l, r)
  | .members d => ∀ r k, 2 * t.length + 2 ≤ k → readMembers F k (t ++ '}' :: r) = some (d, r)

theorem read_complete {F : Str → Str} {p : Part} {t : Str} (h : JsonText F p t) : Reads F p t := by
  induction h with
  | null =>
    intro r k _ hk
    obtain ⟨k, rfl⟩ : ∃ j, k = j + 1 := ⟨k - 1, by omega⟩
    simp [readValue]
  | true =>
    intro r k _ hk
    obtain ⟨k, rfl⟩ : ∃ j, k = j + 1 := ⟨k - 1, by omega⟩
    simp [readValue]
  | false =>
    intro r k _ hk
    obtain ⟨k, rfl⟩ : ∃ j, k = j + 1 := ⟨k - 1, by omega⟩
    simp [readValue]
  | int h =>
    intro r k hr hk
    obtain ⟨k, rfl⟩ : ∃ j, k = j + 1 := ⟨k - 1, by omega⟩
    exact readValue_number (.inl ⟨_, rfl, h⟩) hr k
  | float h =>
    intro r k hr hk
    obtain ⟨k, rfl⟩ : ∃ j, k = j + 1 := ⟨k - 1, by omega⟩
    exact readValue_number (.inr ⟨rfl, h⟩) hr k
  | @str s t h =>
    intro r k hr hk
    obtain ⟨k, rfl⟩ : ∃ j, k = j + 1 := ⟨k - 1, by omega⟩
    rw [show ('"' :: (t ++ ['"'])) ++ r = '"' :: (t ++ '"' :: r) by simp]
    unfold readValue
    simp only []
    rw [readString_complete h r (by simp)]
  | @emptyList b hb =>
    intro r k hr hk
    obtain ⟨k, rfl⟩ : ∃ j, k = j + 1 := ⟨k - 1, by omega⟩
    rw [show ('[' :: (b ++ [']'])) ++ r = '[' :: (b ++ ']' :: r) by simp]
    unfold readValue
    simp only []
    rw [skip_char hb (by decide)]
    rfl
  | @list l t h ih =>
    intro r k hr hk
    obtain ⟨k, rfl⟩ : ∃ j, k = j + 1 := ⟨k - 1, by omega⟩
    rw [show ('[' :: (t ++ [']'])) ++ r = '[' :: (t ++ ']' :: r) by simp]
    unfold readValue
    simp only []
    split
    · rename_i e; exact absurd e (items_head h _ _)
    · rw [ih r k (by simp at hk; omega)]
  | @emptyDict b hb =>
    intro r k hr hk
    obtain ⟨k, rfl⟩ : ∃ j, k = j + 1 := ⟨k - 1, by omega⟩
    rw [show ('{' :: (b ++ ['}'])) ++ r = '{' :: (b ++ '}' :: r) by simp]
    unfold readValue
    simp only []
    rw [skip_char hb (by decide)]
    rfl
  | @dict d d' t h hl ih =>
    intro r k hr hk
    obtain ⟨k, rfl⟩ : ∃ j, k = j + 1 := ⟨k - 1, by omega⟩
    rw [show ('{' :: (t ++ ['}'])) ++ r = '{' :: (t ++ '}' :: r) by simp]
    unfold readValue
    simp only []
    split
    · rename_i e; exact absurd e (members_head h _ _)
    · rw [ih r k (by simp at hk; omega), (lastWins_iff _ _).1 hl]
  | @item b v t b' hb ht hb' ih =>
    intro r k hk
    obtain ⟨k, rfl⟩ : ∃ j, k = j + 1 := ⟨k - 1, by omega⟩
    unfold readItems
    rw [List.append_assoc, List.append_assoc, skip_value ht hb,
      ih (b' ++ ']' :: r) k (stops_blank hb' (by decide) _) (by simp at hk; omega)]
    simp only []
    rw [skip_char hb' (by decide)]
    rfl
  | @items b v t b' l u hb ht hb' hl ih ihl =>
    intro r k hk
    obtain ⟨k, rfl⟩ : ∃ j, k = j + 1 := ⟨k - 1, by omega⟩
    unfold readItems
    rw [List.append_assoc, List.append_assoc, skip_value ht hb, List.append_assoc, List.cons_append,
      ih (b' ++ ',' :: (u ++ ']' :: r)) k (stops_blank hb' (by decide) _) (by simp at hk; omega)]
    simp only []
    rw [skip_char hb' (by decide)]
    simp only []
    rw [ihl r k (by simp at hk; omega)]
  | @member b n s b1 b2 v t b3 hb hs hb1 hb2 ht hb3 ih =>
    intro r k hk
    obtain ⟨k, rfl⟩ : ∃ j, k = j + 1 := ⟨k - 1, by omega⟩
    rw [show (b ++ '"' :: (s ++ '"' :: (b1 ++ ':' :: (b2 ++ (t ++ b3))))) ++ '}' :: r =
      b ++ '"' :: (s ++ '"' :: (b1 ++ ':' :: (b2 ++ (t ++ (b3 ++ '}' :: r))))) by simp]
    unfold readMembers
    rw [skip_char hb (by decide)]
    simp only []
    rw [readString_complete hs _ (by simp)]
    simp only []
    rw [skip_char hb1 (by decide)]
    simp only []
    rw [skip_value ht hb2, ih (b3 ++ '}' :: r) k (stops_blank hb3 (by decide) _) (by simp at hk; omega)]
    simp only []
    rw [skip_char hb3 (by decide)]
    rfl
  | @members b n s b1 b2 v t b3 d u hb hs hb1 hb2 ht hb3 hd ih ihd =>
    intro r k hk
    obtain ⟨k, rfl⟩ : ∃ j, k = j + 1 := ⟨k - 1, by omega⟩
    rw [show (b ++ '"' :: (s ++ '"' :: (b1 ++ ':' :: (b2 ++ (t ++ (b3 ++ ',' :: u)))))) ++ '}' :: r =
      b ++ '"' :: (s ++ '"' :: (b1 ++ ':' :: (b2 ++ (t ++ (b3 ++ ',' :: (u ++ '}' :: r)))))) by simp]
    unfold readMembers
    rw [skip_char hb (by decide)]
    simp only []
    rw [readString_complete hs _ (by simp)]
    simp only []
    rw [skip_char hb1 (by decide)]
    simp only []
    rw [skip_value ht hb2, ih (b3 ++ ',' :: (u ++ '}' :: r)) k (stops_blank hb3 (by decide) _) (by simp at hk; omega)]
    simp only []
    rw [skip_char hb3 (by decide)]
    simp only []
    rw [ihd r k (by simp at hk; omega)]

theorem read_iff (F : Str → Str) (t : Str) (v : V) : read F t = some v ↔ IsTextOf F v t := by
  constructor
  · intro h
    unfold read at h
    split at h
    · cases h
    · rename_i w r hs
      split at h
      · rename_i he
        obtain rfl := Option.some.inj h
        obtain ⟨b, eb, hb⟩ := skip_split t
        obtain ⟨u, eu, hu⟩ := (read_sound F _).1 _ _ _ hs
        obtain ⟨b', eb', hb'⟩ := skip_split r
        rw [List.isEmpty_iff.1 he, List.append_nil] at eb'
        subst eb'
        exact ⟨b, u, r, by rw [← eu]; exact eb, hb, hu, hb'⟩
      · cases h
  · rintro ⟨b, u, b', rfl, hb, hu, hb'⟩
    unfold read
    rw [skip_value hu hb, read_complete hu b' _ (stops_all hb') (by simp; omega)]
    simp only []
    rw [skip_all hb']
    rfl

/-! ### Writing -/

theorem digit_char {n : Nat} (h : n < 10) : (Char.ofNat (48 + n)).toNat = 48 + n := char_toNat_ofNat (by omega)

theorem decimal_snoc (ds : Str) (c : Char) : decimal (ds ++ [c]) = 10 * decimal ds + (c.toNat - 48) := by
  unfold decimal
  rw [List.foldl_append]
  rfl

theorem digits_ok (n : Nat) : decimal (digits n) = n ∧ Numeral (digits n) ∧ (n ≠ 0 → (digits n).head? ≠ some '0') := by
  induction n using Nat.strongRecOn with
  | _ n ih =>
    rw [digits]
    split
    · rename_i h
      have hc := digit_char h
      refine ⟨by simp [decimal, hc], ⟨by simp, ?_, ?_⟩, ?_⟩
      · intro c hm
        obtain rfl := List.mem_singleton.1 hm
        unfold IsDigit
        omega
      · by_cases h0 : n = 0
        · left; subst h0; rfl
        · right
          intro e
          have := congrArg Char.toNat (Option.some.inj e)
          rw [hc] at this
          simp at this
          omega
      · intro h0 e
        have := congrArg Char.toNat (Option.some.inj e)
        rw [hc] at this
        simp at this
        omega
    · rename_i h
      obtain ⟨h1, h2, h3⟩ := ih (n / 10) (by omega)
      have hc := digit_char (n := n % 10) (by omega)
      have hhead : (digits (n / 10) ++ [Char.ofNat (48 + n % 10)]).head? ≠ some '0' := by
        have := h3 (by omega)
        rw [List.head?_append]
        cases hd : (digits (n / 10)).head? with
        | none => exact absurd (List.head?_eq_none_iff.1 hd) h2.1
        | some c => rw [hd] at this; simpa using this
      refine ⟨by rw [decimal_snoc, h1, hc]; omega, ⟨by simp, ?_, .inr hhead⟩, fun _ => hhead⟩
      intro c hm
      rcases List.mem_append.1 hm with hm | hm
      · exact h2.2.1 c hm
      · obtain rfl := List.mem_singleton.1 hm
        unfold IsDigit
        omega

theorem intText_write (i : Int) : IntText i (if i < 0 then '-' :: digits i.natAbs else digits i.natAbs) := by
  obtain ⟨h, hN, _⟩ := digits_ok i.natAbs
  split
  · have := IntText.neg hN
    rw [h] at this
    have e : -((i.natAbs : Nat) : Int) = i := by omega
    rwa [e] at this
  · have := IntText.pos hN
    rw [h] at this
    have e : ((i.natAbs : Nat) : Int) = i := by omega
    rwa [e] at this

theorem hexDigit_ok {n : Nat} (h : n < 16) : HexDigit (hexDigit n) n := by
  unfold hexDigit
  split
  · have hc := digit_char (n := n) (by omega)
    have : HexDigit (Char.ofNat (48 + n)) ((Char.ofNat (48 + n)).toNat - 48) := .digit (by unfold IsDigit; omega)
    rwa [hc, Nat.add_sub_cancel_left] at this
  · have hc : (Char.ofNat (87 + n)).toNat = 87 + n := char_toNat_ofNat (by omega)
    have : HexDigit (Char.ofNat (87 + n)) ((Char.ofNat (87 + n)).toNat - 87) := .lower (by omega) (by omega)
    rwa [hc, Nat.add_sub_cancel_left] at this

theorem charText_write (c : Char) : CharText c (writeChar c) := by
  unfold writeChar
  iterate 7 (split; · rename_i h; subst h; exact .short (by simp [shortEscapes]))
  split
  · rename_i h
    refine .code ⟨'0', '0', _, _, 0, 0, c.toNat / 16, c.toNat % 16, rfl, ?_, ?_, hexDigit_ok (by omega), hexDigit_ok (by omega), by omega⟩ <;>
      exact .digit ⟨by decide, by decide⟩
  · exact .raw (by omega) (by assumption) (by assumption)

theorem strText_write (s : Str) : StrText s (s.flatMap writeChar) := by
  induction s with
  | nil => exact .nil
  | cons c s ih => exact .cons (charText_write c) ih

end Verif.Json
