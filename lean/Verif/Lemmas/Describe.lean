import Verif.Lemmas.RefPlaces
import Verif.Spec.Complain
import Mathlib.Tactic.IntervalCases
/-! Descriptions tell locations apart. -/
namespace Verif.RefV
open Verif Verif.Spec

/-- A description, character by character. -/
inductive Tok where
  | lit (c : Char)
  | name (i : Nat)
  | index (i : Nat)
  deriving DecidableEq, Repr

def toks (t : List Piece) : List Tok := t.flatMap fun
  | .text s => s.map .lit
  | .name i => [.name i]
  | .index i => [.index i]

def fillT (names : List Str) (indices : List Nat) : List Tok → Str
  | [] => []
  | .lit c :: t => c :: fillT names indices t
  | .name i :: t => names.getD i [] ++ fillT names indices t
  | .index i :: t => Nat.toDigits 10 (indices.getD i 0) ++ fillT names indices t

theorem fillT_append (names : List Str) (indices : List Nat) (a b : List Tok) :
    fillT names indices (a ++ b) = fillT names indices a ++ fillT names indices b := by
  induction a with
  | nil => rfl
  | cons x a ih => cases x <;> simp [fillT, ih]

theorem fillT_lits (names : List Str) (indices : List Nat) (s : Str) :
    fillT names indices (s.map .lit) = s := by
  induction s with
  | nil => rfl
  | cons x a ih => simp [fillT, ih]

theorem fill_eq (names : List Str) (indices : List Nat) (t : List Piece) :
    fill names indices t = fillT names indices (toks t) := by
  induction t with
  | nil => rfl
  | cons p t ih =>
    have e : fill names indices (p :: t) = fill names indices [p] ++ fill names indices t := by
      simp [fill]
    have e' : toks (p :: t) = toks [p] ++ toks t := by simp [toks]
    rw [e, e', fillT_append, ih]
    congr 1
    cases p with
    | text s => simp [fill, toks, fillT_lits]
    | name i => simp [fill, toks, fillT]
    | index i => simp [fill, toks, fillT]

/-- Cut at the first character that does not satisfy `p`. -/
theorem cut {p : Char → Prop} {a b : Str} {c d : Char} {r r' : Str} (ha : ∀ x ∈ a, p x) (hb : ∀ x ∈ b, p x)
    (hc : ¬ p c) (hd : ¬ p d) (h : a ++ c :: r = b ++ d :: r') : a = b ∧ c = d ∧ r = r' := by
  induction a generalizing b with
  | nil =>
    cases b with
    | nil => simp at h; exact ⟨rfl, h⟩
    | cons y b => simp at h; exact absurd (hb y (by simp)) (h.1 ▸ hc)
  | cons x a ih =>
    cases b with
    | nil => simp at h; exact absurd (ha x (by simp)) (h.1 ▸ hd)
    | cons y b =>
      simp only [List.cons_append, List.cons.injEq] at h
      obtain ⟨e1, e2, e3⟩ := ih (fun z hz => ha z (by simp [hz])) (fun z hz => hb z (by simp [hz])) h.2
      exact ⟨by rw [h.1, e1], e2, e3⟩

/-- No two fillings of these are the same (`sep_ne`). -/
def sep : List Tok → List Tok → Bool
  | .lit a :: r, .lit b :: r' => a != b || sep r r'
  | .lit a :: _, .index _ :: _ => !a.isDigit
  | .index _ :: _, .lit a :: _ => !a.isDigit
  | .name _ :: .lit a :: r, .name _ :: .lit b :: r' => a == '\'' && b == '\'' && sep r r'
  | .index _ :: .lit a :: r, .index _ :: .lit b :: r' => !a.isDigit && !b.isDigit && (a != b || sep r r')
  | _, _ => false

/-- Each name is followed by a quote, each index by something that is not a digit. -/
def closed : List Tok → Bool
  | [] => true
  | .lit _ :: r => closed r
  | .name _ :: .lit a :: r => a == '\'' && closed r
  | .index _ :: .lit a :: r => !a.isDigit && closed r
  | _ => false

/-- No name has a quote. -/
def QuoteFree (names : List Str) : Prop := ∀ nm ∈ names, '\'' ∉ nm

theorem getD_free {names : List Str} (h : QuoteFree names) (i : Nat) : ∀ x ∈ names.getD i [], x ≠ '\'' := by
  intro x hx e
  subst e
  by_cases hi : i < names.length
  · have : names.getD i [] = names[i] := by simp [List.getD, hi]
    rw [this] at hx
    exact h _ (List.getElem_mem hi) hx
  · have : names.getD i [] = [] := by simp [List.getD, Nat.le_of_not_lt hi]
    rw [this] at hx; cases hx

theorem digits_all (i : Nat) : ∀ x ∈ Nat.toDigits 10 i, x.isDigit = true :=
  fun _ hc => Nat.isDigit_of_mem_toDigits (by omega) (by omega) hc

theorem digits_head (i : Nat) : ∃ c r, Nat.toDigits 10 i = c :: r ∧ c.isDigit = true := by
  cases h : Nat.toDigits 10 i with
  | nil => exact absurd h Nat.toDigits_ne_nil
  | cons c r => exact ⟨c, r, rfl, digits_all i c (by rw [h]; simp)⟩

theorem digits_inj {i j : Nat} (h : Nat.toDigits 10 i = Nat.toDigits 10 j) : i = j := by
  rw [← Nat.ofDigitChars_toDigits (b := 10) (n := i) (by omega) (by omega), h,
    Nat.ofDigitChars_toDigits (by omega) (by omega)]

theorem sep_ne {names names' : List Str} {ix ix' : List Nat} (hn : QuoteFree names) (hn' : QuoteFree names')
    (t t' : List Tok) (x y : Str) (h : sep t t' = true) : fillT names ix t ++ x ≠ fillT names' ix' t' ++ y := by
  fun_induction sep t t' with
  | case1 a r b r' ih =>
    simp only [Bool.or_eq_true, bne_iff_ne] at h
    intro e
    simp only [fillT, List.cons_append, List.cons.injEq] at e
    rcases h with h | h
    · exact h e.1
    · exact ih h e.2
  | case2 a r i r' =>
    intro e
    obtain ⟨c, q, hq, hc⟩ := digits_head (ix'.getD i 0)
    simp only [fillT, hq, List.cons_append, List.cons.injEq] at e
    rw [e.1, hc] at h; simp at h
  | case3 i r a r' =>
    intro e
    obtain ⟨c, q, hq, hc⟩ := digits_head (ix.getD i 0)
    simp only [fillT, hq, List.cons_append, List.cons.injEq] at e
    rw [← e.1, hc] at h; simp at h
  | case4 i a r j b r' ih =>
    simp only [Bool.and_eq_true, beq_iff_eq] at h
    obtain ⟨⟨rfl, rfl⟩, h⟩ := h
    intro e
    simp only [fillT, List.append_assoc, List.cons_append] at e
    obtain ⟨_, _, e⟩ := cut (p := (· ≠ '\'')) (getD_free hn i) (getD_free hn' j) (by simp) (by simp) e
    exact ih h e
  | case5 i a r j b r' ih =>
    simp only [Bool.and_eq_true, Bool.not_eq_true', Bool.or_eq_true, bne_iff_ne] at h
    intro e
    simp only [fillT, List.append_assoc, List.cons_append] at e
    obtain ⟨_, e1, e2⟩ := cut (p := (·.isDigit = true)) (digits_all _) (digits_all _) (by simp [h.1.1]) (by simp [h.1.2]) e
    rcases h.2 with h | h
    · exact h e1
    · exact ih h e2
  | case6 => cases h

theorem closed_inj {names names' : List Str} {ix ix' : List Nat} (hn : QuoteFree names) (hn' : QuoteFree names')
    (t : List Tok) {x y : Str} (h : closed t = true) (e : fillT names ix t ++ x = fillT names' ix' t ++ y) :
    (∀ i, .name i ∈ t → names.getD i [] = names'.getD i []) ∧
    (∀ i, .index i ∈ t → ix.getD i 0 = ix'.getD i 0) ∧ x = y := by
  fun_induction closed t with
  | case1 => simpa [fillT] using e
  | case2 c r ih =>
    simp only [fillT, List.cons_append, List.cons.injEq, true_and] at e
    simpa using ih h e
  | case3 j a r ih =>
    simp only [Bool.and_eq_true, beq_iff_eq] at h
    obtain ⟨rfl, h⟩ := h
    simp only [fillT, List.append_assoc, List.cons_append] at e
    obtain ⟨e1, _, e⟩ := cut (p := (· ≠ '\'')) (getD_free hn j) (getD_free hn' j) (by simp) (by simp) e
    obtain ⟨i1, i2, i3⟩ := ih h e
    refine ⟨?_, ?_, i3⟩
    · intro i hi
      simp only [List.mem_cons, Tok.name.injEq, reduceCtorEq, false_or] at hi
      rcases hi with rfl | hi
      · exact e1
      · exact i1 i hi
    · intro i hi
      simp only [List.mem_cons, reduceCtorEq, false_or] at hi
      exact i2 i hi
  | case4 j a r ih =>
    simp only [Bool.and_eq_true, Bool.not_eq_true'] at h
    simp only [fillT, List.append_assoc, List.cons_append] at e
    obtain ⟨e1, _, e⟩ := cut (p := (·.isDigit = true)) (digits_all _) (digits_all _) (by simp [h.1]) (by simp [h.1]) e
    obtain ⟨i1, i2, i3⟩ := ih h.2 e
    refine ⟨?_, ?_, i3⟩
    · intro i hi
      simp only [List.mem_cons, reduceCtorEq, false_or] at hi
      exact i1 i hi
    · intro i hi
      simp only [List.mem_cons, Tok.index.injEq, reduceCtorEq, false_or] at hi
      rcases hi with rfl | hi
      · exact digits_inj e1
      · exact i2 i hi
  | case5 => cases h

/-! ### Letter case -/

theorem char_eq {c : Char} {k : Nat} (h : c.toNat = k) : c = Char.ofNat k := by
  rw [← h, Char.ofNat_toNat]

theorem toLower_toUpper (c : Char) : c.toUpper.toLower = c.toLower := by
  by_cases h : 'a'.val ≤ c.val ∧ c.val ≤ 'z'.val
  · have h1 : 97 ≤ c.toNat := h.1
    have h2 : c.toNat ≤ 122 := h.2
    generalize hk : c.toNat = k at h1 h2
    obtain rfl := char_eq hk
    clear h hk
    interval_cases k <;> rfl
  · unfold Char.toUpper
    rw [dif_neg h]

theorem toLower_of_not {c : Char} (h : ¬ ('A'.val ≤ c.val ∧ c.val ≤ 'Z'.val)) : c.toLower = c := by
  unfold Char.toLower
  rw [dif_neg h]

theorem toLower_quote {c : Char} (h : c.toLower = '\'') : c = '\'' := by
  by_cases h' : 'A'.val ≤ c.val ∧ c.val ≤ 'Z'.val
  · have h1 : 65 ≤ c.toNat := h'.1
    have h2 : c.toNat ≤ 90 := h'.2
    generalize hk : c.toNat = k at h1 h2
    obtain rfl := char_eq hk
    clear h' hk
    interval_cases k <;> exact absurd h (by decide)
  · rwa [toLower_of_not h'] at h

theorem toLower_digit {c : Char} (h : c.isDigit = true) : c.toLower = c := by
  apply toLower_of_not
  intro h'
  have h1 : 65 ≤ c.toNat := h'.1
  simp only [Char.isDigit, ge_iff_le, Bool.and_eq_true, decide_eq_true_eq] at h
  have h2 : c.toNat ≤ 57 := h.2
  omega

/-- In lower case. -/
def lower (s : Str) : Str := s.map Char.toLower

theorem lower_capitalize (s : Str) : lower (capitalize s) = lower s := by
  cases s with
  | nil => rfl
  | cons c cs =>
    simp only [capitalize, lower, List.map_cons, toLower_toUpper, List.map_map, List.cons.injEq, true_and]
    refine List.map_congr_left fun x _ => ?_
    simp only [Function.comp]
    by_cases h : 'A'.val ≤ x.val ∧ x.val ≤ 'Z'.val
    · have h1 : 65 ≤ x.toNat := h.1
      have h2 : x.toNat ≤ 90 := h.2
      generalize hk : x.toNat = k at h1 h2
      obtain rfl := char_eq hk
      clear h hk
      interval_cases k <;> rfl
    · rw [toLower_of_not h, toLower_of_not h]

def lowerTok : Tok → Tok
  | .lit c => .lit c.toLower
  | t => t

theorem lower_digits (i : Nat) : lower (Nat.toDigits 10 i) = Nat.toDigits 10 i := by
  unfold lower
  conv_rhs => rw [← List.map_id (Nat.toDigits 10 i)]
  exact List.map_congr_left fun x hx => toLower_digit (digits_all i x hx)

theorem lower_fillT (names : List Str) (ix : List Nat) (t : List Tok) :
    lower (fillT names ix t) = fillT (names.map lower) ix (t.map lowerTok) := by
  induction t with
  | nil => rfl
  | cons x t ih =>
    cases x with
    | lit c => simp only [fillT, lower, List.map_cons, lowerTok] at ih ⊢; rw [ih]
    | name i =>
      simp only [fillT, List.map_cons, lowerTok]
      rw [← ih]
      simp only [lower, List.map_append, List.append_cancel_right_eq]
      simp only [List.getD, List.getElem?_map]
      cases names[i]? <;> rfl
    | index i =>
      simp only [fillT, List.map_cons, lowerTok]
      rw [← ih]
      have := lower_digits (ix.getD i 0)
      simp only [lower, List.map_append] at this ⊢
      rw [this]

theorem fillT_congr {names names' : List Str} {ix ix' : List Nat} {t : List Tok}
    (hn : ∀ i, .name i ∈ t → names.getD i [] = names'.getD i []) (hi : ∀ i, .index i ∈ t → ix.getD i 0 = ix'.getD i 0) :
    fillT names ix t = fillT names' ix' t := by
  induction t with
  | nil => rfl
  | cons x t ih =>
    have := ih (fun i h => hn i (by simp [h])) (fun i h => hi i (by simp [h]))
    cases x with
    | lit c => simp only [fillT, this]
    | name i => simp only [fillT, this, hn i (by simp)]
    | index i => simp only [fillT, this, hi i (by simp)]

theorem quoteFree_lower {names : List Str} (h : QuoteFree names) : QuoteFree (names.map lower) := by
  intro nm hnm
  obtain ⟨m, hm, rfl⟩ := List.mem_map.1 hnm
  intro hq
  obtain ⟨c, hc, e⟩ := List.mem_map.1 hq
  rw [toLower_quote e] at hc
  exact h m hm hc

theorem lower_idem (s : Str) : lower (lower s) = lower s := by
  cases s with
  | nil => rfl
  | cons c cs =>
    have := lower_capitalize (c :: cs)
    simp only [lower, List.map_map, List.map_cons, List.cons.injEq] at this ⊢
    have hall : ∀ x : Char, x.toLower.toLower = x.toLower := by
      intro x
      have := lower_capitalize (['a', x])
      simpa [lower, capitalize] using this
    refine ⟨hall c, List.map_congr_left fun x _ => hall x⟩

theorem sentence_eq (s : Str) : sentence s = capitalize s := by cases s <;> rfl

theorem toUpper_toLower (c : Char) : c.toLower.toUpper = c.toUpper := by
  by_cases h : 'A'.val ≤ c.val ∧ c.val ≤ 'Z'.val
  · have h1 : 65 ≤ c.toNat := h.1
    have h2 : c.toNat ≤ 90 := h.2
    generalize hk : c.toNat = k at h1 h2
    obtain rfl := char_eq hk
    clear h hk
    interval_cases k <;> rfl
  · rw [toLower_of_not h]

/-- Sentences are the same exactly if the texts are the same up to case. -/
theorem capitalize_iff (s s' : Str) : capitalize s = capitalize s' ↔ lower s = lower s' := by
  constructor
  · intro h; rw [← lower_capitalize s, h, lower_capitalize]
  · intro h
    cases s with
    | nil => cases s' with
      | nil => rfl
      | cons => simp [lower] at h
    | cons c cs => cases s' with
      | nil => simp [lower] at h
      | cons c' cs' =>
        simp only [lower, List.map_cons, List.cons.injEq] at h
        simp only [capitalize, List.cons.injEq, h.2, and_true]
        rw [← toUpper_toLower, h.1, toUpper_toLower]

/-! ### Tables -/

/-- Descriptions with different keys differ, in lower case, whatever follows. -/
def Apart {κ : Type} [DecidableEq κ] (table : List (κ × List Piece)) : Bool :=
  table.all fun a => table.all fun b => decide (a = b) || sep ((toks a.2).map lowerTok) ((toks b.2).map lowerTok)

/-- Names and indices can be told from what surrounds them. -/
def AllClosed {κ : Type} (table : List (κ × List Piece)) : Bool :=
  table.all fun e => closed ((toks e.2).map lowerTok)

/-- The same text up to case: the same row, the same names up to case, the same indices, the same rest. -/
theorem apart_inj {κ : Type} [DecidableEq κ] {table : List (κ × List Piece)} (ha : Apart table = true)
    (hcl : AllClosed table = true) {a b : κ × List Piece} (hm : a ∈ table) (hm' : b ∈ table)
    {names names' : List Str} {ix ix' : List Nat} {x y : Str} (q : QuoteFree names) (q' : QuoteFree names')
    (e : lower (fill names ix a.2) ++ x = lower (fill names' ix' b.2) ++ y) :
    a = b ∧ (∀ i, .name i ∈ toks a.2 → lower (names.getD i []) = lower (names'.getD i [])) ∧
      (∀ i, .index i ∈ toks a.2 → ix.getD i 0 = ix'.getD i 0) ∧ x = y := by
  rw [fill_eq, fill_eq, lower_fillT, lower_fillT] at e
  have := List.all_eq_true.1 (List.all_eq_true.1 ha _ hm) _ hm'
  simp only [Bool.or_eq_true, decide_eq_true_eq] at this
  rcases this with rfl | hs
  · have hc := List.all_eq_true.1 hcl _ hm
    obtain ⟨i1, i2, i3⟩ := closed_inj (quoteFree_lower q) (quoteFree_lower q') _ hc e
    refine ⟨rfl, ?_, ?_, i3⟩
    · intro i hi
      have := i1 i (List.mem_map.2 ⟨_, hi, rfl⟩)
      simp only [List.getD, List.getElem?_map] at this ⊢
      cases h1 : names[i]? <;> cases h2 : names'[i]? <;> simpa [h1, h2, lower] using this
    · intro i hi
      exact i2 i (List.mem_map.2 ⟨_, hi, rfl⟩)
  · exact absurd e (sep_ne (quoteFree_lower q) (quoteFree_lower q') _ _ _ _ hs)

theorem describe_mem {table : List (List PStep × List Piece)} {steps : List LocStep}
    (h : steps.map LocStep.shape ∈ table.map Prod.fst) :
    ∃ t, (steps.map LocStep.shape, t) ∈ table ∧ describe table steps = fill (namesOn steps) (indicesOn steps) t := by
  unfold describe
  cases hf : table.find? fun e => decide (e.1 = steps.map LocStep.shape) with
  | none =>
    obtain ⟨e, he, e'⟩ := List.mem_map.1 h
    have := List.find?_eq_none.1 hf e he
    simp [e'] at this
  | some e =>
    have h1 := List.find?_some hf
    simp only [decide_eq_true_eq] at h1
    exact ⟨e.2, by rw [← h1]; exact List.mem_of_find?_eq_some hf, rfl⟩

/-- The table with what follows the description: one of two texts. -/
def followed (table : List (List PStep × List Piece)) (f g : Str) : List ((List PStep × Bool) × List Piece) :=
  table.flatMap fun e => [((e.1, true), e.2 ++ [.text f]), ((e.1, false), e.2 ++ [.text g])]

theorem mem_followed {table : List (List PStep × List Piece)} {f g : Str} {p t} (h : (p, t) ∈ table) (b : Bool) :
    ((p, b), t ++ [.text (if b then f else g)]) ∈ followed table f g := by
  refine List.mem_flatMap.2 ⟨_, h, ?_⟩
  cases b <;> simp

theorem tags_apart : Apart (followed tagContexts p!" tag reference '" p!" references tag '") = true := by decide +kernel
theorem tags_closed : AllClosed (followed tagContexts p!" tag reference '" p!" references tag '") = true := by
  decide +kernel
theorem docs_apart : Apart (followed docContexts p!" external documentation reference '"
    p!" references external documentation '") = true := by decide +kernel
theorem docs_closed : AllClosed (followed docContexts p!" external documentation reference '"
    p!" references external documentation '") = true := by decide +kernel

/-! ### Locations from names and indices -/

theorem names_length {steps steps' : List LocStep} (h : steps.map LocStep.shape = steps'.map LocStep.shape) :
    (namesOn steps).length = (namesOn steps').length ∧ (indicesOn steps).length = (indicesOn steps').length := by
  induction steps generalizing steps' with
  | nil => cases steps' with
    | nil => exact ⟨rfl, rfl⟩
    | cons => simp at h
  | cons a l ih => cases steps' with
    | nil => simp at h
    | cons b l' =>
      simp only [List.map_cons, List.cons.injEq] at h
      obtain ⟨h1, h2⟩ := ih h.2
      cases a <;> cases b <;> simp_all [LocStep.shape, namesOn, indicesOn]

theorem namesOn_cons (a : LocStep) (l : List LocStep) :
    namesOn (a :: l) = match a with | .key k => k :: namesOn l | _ => namesOn l := by
  cases a <;> rfl

theorem indicesOn_cons (a : LocStep) (l : List LocStep) :
    indicesOn (a :: l) = match a with | .index i => i :: indicesOn l | _ => indicesOn l := by
  cases a <;> rfl

theorem steps_lower {steps steps' : List LocStep} (h : steps.map LocStep.shape = steps'.map LocStep.shape)
    (hn : (namesOn steps).map lower = (namesOn steps').map lower) (hi : indicesOn steps = indicesOn steps') :
    steps.map LocStep.lower = steps'.map LocStep.lower := by
  induction steps generalizing steps' with
  | nil => cases steps' with
    | nil => rfl
    | cons => simp at h
  | cons a l ih => cases steps' with
    | nil => simp at h
    | cons b l' =>
      simp only [List.map_cons, List.cons.injEq] at h
      obtain ⟨h0, h⟩ := h
      rw [namesOn_cons a, namesOn_cons b] at hn
      rw [indicesOn_cons a, indicesOn_cons b] at hi
      cases a with
      | field f => cases b with
        | field g => cases h0; simp only [List.map_cons, ih h hn hi]
        | _ => cases h0
      | index i => cases b with
        | index j =>
          simp only [List.cons.injEq] at hi
          simp only [List.map_cons, ih h hn hi.2, hi.1]
        | _ => cases h0
      | key k => cases b with
        | key k' =>
          simp only [List.map_cons, List.cons.injEq] at hn
          simp only [List.map_cons, ih h hn.2 hi, LocStep.lower]
          simp only [lower] at hn
          rw [hn.1]
        | _ => cases h0

theorem steps_uncounted {steps steps' : List LocStep} (h : steps.map LocStep.shape = steps'.map LocStep.shape)
    (hn : (namesOn steps).map lower = (namesOn steps').map lower) :
    steps.map (LocStep.uncounted ∘ LocStep.lower) = steps'.map (LocStep.uncounted ∘ LocStep.lower) := by
  induction steps generalizing steps' with
  | nil => cases steps' with
    | nil => rfl
    | cons => simp at h
  | cons a l ih => cases steps' with
    | nil => simp at h
    | cons b l' =>
      simp only [List.map_cons, List.cons.injEq] at h
      obtain ⟨h0, h⟩ := h
      rw [namesOn_cons a, namesOn_cons b] at hn
      cases a with
      | field f => cases b with
        | field g => cases h0; simp only [List.map_cons, ih h hn]
        | _ => cases h0
      | index i => cases b with
        | index j =>
          simp only [List.map_cons, ih h hn]
          rfl
        | _ => cases h0
      | key k => cases b with
        | key k' =>
          simp only [List.map_cons, List.cons.injEq] at hn
          simp only [List.map_cons, ih h hn.2, LocStep.lower, Function.comp]
          simp only [lower] at hn
          rw [hn.1]
        | _ => cases h0

/-- Which names and indices a place has. -/
def keysIn (place : List PStep) : Nat := place.countP fun s => decide (s = .anyKey)
def indicesIn (place : List PStep) : Nat := place.countP fun s => decide (s = .anyIndex)

theorem length_names (steps : List LocStep) : (namesOn steps).length = keysIn (steps.map LocStep.shape) ∧
    (indicesOn steps).length = indicesIn (steps.map LocStep.shape) := by
  induction steps with
  | nil => exact ⟨rfl, rfl⟩
  | cons a l ih => cases a <;> simp_all [namesOn, indicesOn, keysIn, indicesIn, LocStep.shape, List.countP_cons]

theorem tags_named : (tagContexts.all fun e => (List.range (keysIn e.1)).all fun i => decide (.name i ∈ toks e.2)) = true := by
  decide +kernel
theorem docs_named : (docContexts.all fun e => (List.range (keysIn e.1)).all fun i => decide (.name i ∈ toks e.2)) = true := by
  decide +kernel
theorem docs_counted : (docContexts.all fun e =>
    (List.range (indicesIn e.1)).all fun i => decide (.index i ∈ toks e.2)) = true := by decide +kernel

theorem names_of_getD {steps steps' : List LocStep} (h : steps.map LocStep.shape = steps'.map LocStep.shape)
    (hn : ∀ i < keysIn (steps.map LocStep.shape), lower ((namesOn steps).getD i []) = lower ((namesOn steps').getD i [])) :
    (namesOn steps).map lower = (namesOn steps').map lower := by
  have hl := (names_length h).1
  apply List.ext_getElem (by simp [hl])
  intro i h1 h2
  have := hn i (by rw [← (length_names steps).1]; simpa using h1)
  simp only [List.length_map] at h1 h2
  simpa [List.getD, h1, h2] using this

theorem indices_of_getD {steps steps' : List LocStep} (h : steps.map LocStep.shape = steps'.map LocStep.shape)
    (hn : ∀ i < indicesIn (steps.map LocStep.shape), (indicesOn steps).getD i 0 = (indicesOn steps').getD i 0) :
    indicesOn steps = indicesOn steps' := by
  have hl := (names_length h).2
  apply List.ext_getElem hl
  intro i h1 h2
  have := hn i (by rw [← (length_names steps).2]; exact h1)
  simpa [List.getD, h1, h2] using this

end Verif.RefV
