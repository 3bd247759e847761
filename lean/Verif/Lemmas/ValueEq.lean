import Verif.Lemmas.Valid
/-! Comparing values by kernel evaluation. -/
namespace Verif.Pyd
open Verif Verif.Gen

mutual
/-- Are these the same value? -/
def sameJson : V → V → Bool
  | .none, .none => true
  | .bool a, .bool b => a == b
  | .int a, .int b => a == b
  | .float a, .float b => a == b
  | .str a, .str b => a == b
  | .url k a, .url l b => decide (k = l) && a == b
  | .proc a, .proc b => a == b
  | .list a, .list b => sameList a b
  | .dict a, .dict b => sameDict a b
  | .inst c fs ex set, .inst c' fs' ex' set' => decide (c = c') && sameDict fs fs' && sameDict ex ex' && set == set'
  | _, _ => false
def sameList : List V → List V → Bool
  | [], [] => true
  | a :: l, b :: m => sameJson a b && sameList l m
  | _, _ => false
def sameDict : List (Str × V) → List (Str × V) → Bool
  | [], [] => true
  | (k, a) :: l, (k', b) :: m => k == k' && sameJson a b && sameDict l m
  | _, _ => false
end

theorem sameDict_eq {d : List (Str × V)} (ih : ∀ e ∈ d, ∀ b, sameJson e.2 b = true → e.2 = b) {m : List (Str × V)}
    (h : sameDict d m = true) : d = m := by
  induction d generalizing m with
  | nil => cases m <;> simp_all [sameDict]
  | cons a l ihl =>
    obtain ⟨k, a⟩ := a
    cases m with
    | nil => simp [sameDict] at h
    | cons b m =>
      obtain ⟨k', b⟩ := b
      simp only [sameDict, Bool.and_eq_true, beq_iff_eq] at h
      rw [show a = b from ih (k, a) (.head _) b h.1.2, h.1.1, ihl (fun v hv => ih v (.tail _ hv)) h.2]

theorem sameJson_eq : ∀ a b : V, sameJson a b = true → a = b := by
  refine V.ind ?_ ?_ ?_ ?_ ?_ ?_ ?_ ?_ ?_ ?_
  · intro l ih b h
    cases b <;> simp only [sameJson, Bool.false_eq_true] at h
    rename_i m
    congr 1
    induction l generalizing m with
    | nil => cases m <;> simp_all [sameList]
    | cons a l ihl =>
      cases m with
      | nil => simp [sameList] at h
      | cons b m =>
        simp only [sameList, Bool.and_eq_true] at h
        rw [ih a (.head _) b h.1, ihl (fun v hv => ih v (.tail _ hv)) m h.2]
  · intro l ih b h
    cases b <;> simp only [sameJson, Bool.false_eq_true] at h
    rename_i m
    rw [sameDict_eq ih h]
  · intro c fs ex set h1 h2 b h
    cases b <;> simp only [sameJson, Bool.false_eq_true] at h
    simp only [Bool.and_eq_true, beq_iff_eq, decide_eq_true_eq] at h
    obtain ⟨⟨⟨h3, h4⟩, h5⟩, h6⟩ := h
    rw [h3, sameDict_eq h1 h4, sameDict_eq h2 h5, h6]
  all_goals
    intros
    rename_i b h
    cases b <;> simp_all [sameJson]

/-- The same value, if anything. -/
def sameResult : Option V → V → Bool
  | some a, b => sameJson a b
  | none, _ => false

theorem sameResult_eq {a : Option V} {b : V} (h : sameResult a b = true) : a = some b := by
  cases a with
  | none => cases h
  | some a => rw [sameJson_eq a b h]

end Verif.Pyd
