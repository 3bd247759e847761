import Verif.Model.Reenter
import Verif.Spec.Reenter
import Verif.Props.Fields
/-!
# The interpreter of processors and the specification
-/
namespace Verif.Props
open Verif Verif.Spec Verif.Pyd Verif.Gen Verif.Mutate Verif.Reenter

theorem listed_processorsOf (v : V) : Listed v (processorsOf v) := by
  cases v <;> first | exact .inl rfl | exact .inr ⟨(fun _ h => by cases h), rfl⟩

theorem listed_unique {v : V} {l l' : List V} (h : Listed v l) (h' : Listed v l') : l = l' := by
  rcases h with rfl | ⟨h, rfl⟩ <;> rcases h' with h' | ⟨h', rfl⟩
  · exact V.list.inj h'
  · exact absurd rfl (h' _)
  · exact absurd h' (h _)
  · rfl

theorem listed_eq {v : V} {l : List V} (h : Listed v l) : processorsOf v = l :=
  listed_unique (listed_processorsOf v) h

/-- A document is right apart from its processors. -/
abbrev Good (E : Env) (doc : V) : Prop := ExtensionRule E.U .AsyncAPI3 doc

theorem good_iff (E : Env) (doc : V) :
    (baseCheck E .AsyncAPI3 doc && modelCheck .AsyncAPI3 doc) = true ↔ Good E doc := by
  rw [Bool.and_eq_true, baseCheck_iff E .AsyncAPI3 (by decide)]
  exact and_iff_left rfl

/-- More steps do not change the outcome. -/
theorem exec_more (E : Env) (P : Programs) (k m : Nat) (t : Task P.State) (doc : V) (r : Effect)
    (h : exec E P k t doc = some r) (hk : k ≤ m) : exec E P m t doc = some r := by
  induction k generalizing m t doc r with
  | zero => cases h
  | succ k ih =>
    obtain ⟨m, rfl⟩ : ∃ m', m = m' + 1 := ⟨m - 1, by omega⟩
    have hk' : k ≤ m := by omega
    cases t with
    | body s =>
      simp only [exec] at h ⊢
      cases ha : P.act s doc with
      | stop d ok => rw [ha] at h; exact h
      | assign d name x next =>
        rw [ha] at h
        simp only at h ⊢
        cases h1 : exec E P k (.assign name x) d with
        | none => rw [h1] at h; cases h
        | some r1 =>
          obtain ⟨l, d1, ok⟩ := r1
          rw [h1] at h
          simp only at h
          rw [ih m _ _ _ h1 hk']
          simp only
          cases h2 : exec E P k (.body (next ok)) d1 with
          | none => rw [h2] at h; cases h
          | some r2 => rw [h2] at h; rw [ih m _ _ _ h2 hk']; exact h
    | assign name x =>
      simp only [exec] at h ⊢
      cases hp : prepared E doc name x with
      | none => rw [hp] at h; exact h
      | some new => rw [hp] at h; exact ih m _ _ _ h hk'
    | after =>
      simp only [exec] at h ⊢
      split at h
      · rename_i hb
        rw [if_pos hb]
        cases h1 : exec E P k (.calls (processorsOf (doc.attr p!"extra_converters"))) doc with
        | none => rw [h1] at h; cases h
        | some r1 =>
          obtain ⟨l, d, ok⟩ := r1
          rw [h1] at h
          rw [ih m _ _ _ h1 hk']
          cases ok with
          | false => exact h
          | true =>
            simp only at h ⊢
            cases h2 : exec E P k (.calls (processorsOf (d.attr p!"extra_validators"))) d with
            | none => rw [h2] at h; cases h
            | some r2 => rw [h2] at h; rw [ih m _ _ _ h2 hk']; exact h
      · rename_i hb; rw [if_neg hb]; exact h
    | calls ps =>
      cases ps with
      | nil => exact h
      | cons p ps =>
        by_cases hp : ∃ n, p = .proc n
        · obtain ⟨n, rfl⟩ := hp
          simp only [exec] at h ⊢
          cases h1 : exec E P k (.body (P.start n)) doc with
          | none => rw [h1] at h; cases h
          | some r1 =>
            obtain ⟨l, d, ok⟩ := r1
            rw [h1] at h
            rw [ih m _ _ _ h1 hk']
            cases ok with
            | false => exact h
            | true =>
              simp only at h ⊢
              cases h2 : exec E P k (.calls ps) d with
              | none => rw [h2] at h; cases h
              | some r2 => rw [h2] at h; rw [ih m _ _ _ h2 hk']; exact h
        · cases p <;> first | exact h | exact absurd ⟨_, rfl⟩ hp

theorem ends_of_exec (E : Env) (P : Programs) (k : Nat) (t : Task P.State) (doc : V) (l : List (Nat × V)) (d : V)
    (ok : Bool) (h : exec E P k t doc = some (l, d, ok)) : Ends (prepared E) (Good E) P t doc l d ok := by
  induction k generalizing t doc l d ok with
  | zero => cases h
  | succ k ih =>
    cases t with
    | body s =>
      simp only [exec] at h
      cases ha : P.act s doc with
      | stop d ok => rw [ha] at h; cases h; exact .stop ha
      | assign d name x next =>
        rw [ha] at h
        simp only at h
        cases h1 : exec E P k (.assign name x) d with
        | none => rw [h1] at h; cases h
        | some r1 =>
          obtain ⟨l, d1, ok⟩ := r1
          rw [h1] at h
          simp only at h
          cases h2 : exec E P k (.body (next ok)) d1 with
          | none => rw [h2] at h; cases h
          | some r2 =>
            obtain ⟨l2, d2, ok2⟩ := r2
            rw [h2] at h; cases h
            exact .assigns ha (ih _ _ _ _ _ h1) (ih _ _ _ _ _ h2)
    | assign name x =>
      simp only [exec] at h
      cases hp : prepared E doc name x with
      | none => rw [hp] at h; cases h; exact .refused hp
      | some new => rw [hp] at h; exact .taken hp (ih _ _ _ _ _ h)
    | after =>
      simp only [exec] at h
      split at h
      · rename_i hb
        have hg := (good_iff E doc).1 hb
        cases h1 : exec E P k (.calls (processorsOf (doc.attr p!"extra_converters"))) doc with
        | none => rw [h1] at h; cases h
        | some r1 =>
          obtain ⟨l, d, ok⟩ := r1
          rw [h1] at h
          cases ok with
          | false => cases h; exact .converterFailed hg (listed_processorsOf _) (ih _ _ _ _ _ h1)
          | true =>
            simp only at h
            cases h2 : exec E P k (.calls (processorsOf (d.attr p!"extra_validators"))) d with
            | none => rw [h2] at h; cases h
            | some r2 =>
              obtain ⟨l2, d2, ok2⟩ := r2
              rw [h2] at h; cases h
              exact .ran hg (listed_processorsOf _) (ih _ _ _ _ _ h1) (listed_processorsOf _) (ih _ _ _ _ _ h2)
      · rename_i hb
        cases h
        exact .bad fun hg => hb ((good_iff E doc).2 hg)
    | calls ps =>
      cases ps with
      | nil => cases h; exact .none
      | cons p ps =>
        by_cases hp : ∃ n, p = .proc n
        · obtain ⟨n, rfl⟩ := hp
          simp only [exec] at h
          cases h1 : exec E P k (.body (P.start n)) doc with
          | none => rw [h1] at h; cases h
          | some r1 =>
            obtain ⟨l, d, ok⟩ := r1
            rw [h1] at h
            cases ok with
            | false => cases h; exact .failed (ih _ _ _ _ _ h1)
            | true =>
              simp only at h
              cases h2 : exec E P k (.calls ps) d with
              | none => rw [h2] at h; cases h
              | some r2 =>
                obtain ⟨l2, d2, ok2⟩ := r2
                rw [h2] at h; cases h
                exact .next (ih _ _ _ _ _ h1) (ih _ _ _ _ _ h2)
        · have : exec E P (k + 1) (.calls (p :: ps)) doc = some ([], doc, false) := by
            cases p <;> first | rfl | exact absurd ⟨_, rfl⟩ hp
          rw [this] at h; cases h
          exact .notCallable fun n e => hp ⟨n, e⟩

theorem exec_of_ends (E : Env) (P : Programs) {t : Task P.State} {doc : V} {l : List (Nat × V)} {d : V}
    {ok : Bool} (h : Ends (prepared E) (Good E) P t doc l d ok) : ∃ k, exec E P k t doc = some (l, d, ok) := by
  induction h with
  | stop h => exact ⟨1, by simp only [exec, h]⟩
  | assigns h _ _ ih1 ih2 =>
    obtain ⟨k1, h1⟩ := ih1
    obtain ⟨k2, h2⟩ := ih2
    refine ⟨max k1 k2 + 1, ?_⟩
    simp only [exec, h, exec_more E P _ _ _ _ _ h1 (Nat.le_max_left k1 k2),
      exec_more E P _ _ _ _ _ h2 (Nat.le_max_right k1 k2)]
  | refused h => exact ⟨1, by simp only [exec, h]⟩
  | taken h _ ih => obtain ⟨k, hk⟩ := ih; exact ⟨k + 1, by simp only [exec, h, hk]⟩
  | @bad doc h =>
    refine ⟨1, ?_⟩
    simp only [exec]
    rw [if_neg fun hb => h ((good_iff E doc).1 hb)]
  | converterFailed hg hl _ ih =>
    obtain ⟨k, hk⟩ := ih
    refine ⟨k + 1, ?_⟩
    simp only [exec]
    rw [if_pos ((good_iff E _).2 hg), listed_eq hl, hk]
  | ran hg hl _ hl' _ ih1 ih2 =>
    obtain ⟨k1, h1⟩ := ih1
    obtain ⟨k2, h2⟩ := ih2
    refine ⟨max k1 k2 + 1, ?_⟩
    simp only [exec]
    rw [if_pos ((good_iff E _).2 hg), listed_eq hl, exec_more E P _ _ _ _ _ h1 (Nat.le_max_left k1 k2)]
    simp only [listed_eq hl', exec_more E P _ _ _ _ _ h2 (Nat.le_max_right k1 k2)]
  | none => exact ⟨1, rfl⟩
  | next _ _ ih1 ih2 =>
    obtain ⟨k1, h1⟩ := ih1
    obtain ⟨k2, h2⟩ := ih2
    refine ⟨max k1 k2 + 1, ?_⟩
    simp only [exec, exec_more E P _ _ _ _ _ h1 (Nat.le_max_left k1 k2),
      exec_more E P _ _ _ _ _ h2 (Nat.le_max_right k1 k2)]
  | failed _ ih =>
    obtain ⟨k, hk⟩ := ih
    exact ⟨k + 1, by simp only [exec, hk]⟩
  | @notCallable p ps doc h =>
    refine ⟨1, ?_⟩
    cases p <;> first | rfl | exact absurd rfl (h _)

/-- What happens is determined. -/
theorem ends_unique {E : Env} {P : Programs} {t : Task P.State} {doc : V} {l l' : List (Nat × V)} {d d' : V}
    {ok ok' : Bool} (h : Ends (prepared E) (Good E) P t doc l d ok) (h' : Ends (prepared E) (Good E) P t doc l' d' ok') :
    l = l' ∧ d = d' ∧ ok = ok' := by
  obtain ⟨k, hk⟩ := exec_of_ends E P h
  obtain ⟨m, hm⟩ := exec_of_ends E P h'
  have h1 := exec_more E P _ _ _ _ _ hk (Nat.le_max_left k m)
  rw [exec_more E P _ _ _ _ _ hm (Nat.le_max_right k m)] at h1
  cases h1; exact ⟨rfl, rfl, rfl⟩

end Verif.Props
