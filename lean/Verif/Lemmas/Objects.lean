import Verif.Model.Objects
import Verif.Spec.Objects
import Verif.Lemmas.Reenter
/-!
# The interpreter of processors and list objects, and the specification
-/
namespace Verif.Props
open Verif Verif.Spec Verif.Pyd Verif.Gen Verif.Mutate Verif.Reenter

theorem assigned_iff {M : Type} (w : World M) (name : Str) (new : V) (w' : World M) :
    Assigned w name new w' ↔ w' = Objects.install w name new := by
  constructor
  · rintro ⟨h1, h2, h3, h4, h5, h6⟩
    obtain ⟨⟨d, o, m⟩, c, v, n⟩ := w'
    simp only at h1 h2 h3 h4 h5 h6
    have h6' := funext h6
    subst h1 h2 h3 h4 h5 h6'
    unfold Objects.install
    by_cases h1 : name = p!"extra_converters"
    · subst h1
      rw [if_pos rfl]
      simp only [if_true, true_and, true_or]
      have : ¬ (p!"extra_converters" : Str) = p!"extra_validators" := by decide
      simp only [this, if_false, false_and, or_false]
      congr 1
      congr 1
      funext j
      split
      · rename_i h; rw [h]
      · rfl
    · by_cases h2 : name = p!"extra_validators"
      · subst h2
        rw [if_neg h1, if_pos rfl]
        simp only [h1, if_true, true_and, if_false, false_and, false_or]
        congr 1
        congr 1
        funext j
        split
        · rename_i h; rw [h]
        · rfl
      · rw [if_neg h1, if_neg h2]
        simp only [h1, h2, if_false, false_and, false_or]
  · rintro rfl
    unfold Objects.install
    by_cases h1 : name = p!"extra_converters"
    · subst h1
      have h2 : ¬ (p!"extra_converters" : Str) = p!"extra_validators" := by decide
      rw [if_pos rfl]
      refine ⟨rfl, rfl, by simp, by simp [h2], by simp, fun j => ?_⟩
      simp only [true_and, h2, false_and, or_false]
      split
      · rename_i h; rw [h]
      · rfl
    · by_cases h2 : name = p!"extra_validators"
      · subst h2
        rw [if_neg h1, if_pos rfl]
        refine ⟨rfl, rfl, by simp [h1], by simp, by simp, fun j => ?_⟩
        simp only [true_and, h1, false_and, false_or]
        split
        · rename_i h; rw [h]
        · rfl
      · rw [if_neg h1, if_neg h2]
        exact ⟨rfl, rfl, by simp [h1], by simp [h2], by simp [h1, h2], fun j => by simp [h1, h2]⟩

/-- More steps do not change the outcome. -/
theorem objects_more (E : Env) (P : Actors) (k m : Nat) (t : Job P.State) (w : World P.Memory) (r : Objects.Outcome P.Memory)
    (h : Objects.exec E P k t w = some r) (hk : k ≤ m) : Objects.exec E P m t w = some r := by
  induction k generalizing m t w r with
  | zero => cases h
  | succ k ih =>
    obtain ⟨m, rfl⟩ : ∃ m', m = m' + 1 := ⟨m - 1, by omega⟩
    have hk' : k ≤ m := by omega
    cases t with
    | body s =>
      simp only [Objects.exec] at h ⊢
      cases ha : P.act s w with
      | stop d ok => rw [ha] at h; exact h
      | assign st name x next =>
        rw [ha] at h
        simp only at h ⊢
        cases h1 : Objects.exec E P k (.assign name x) (w.changed st) with
        | none => rw [h1] at h; cases h
        | some r1 =>
          obtain ⟨l, d1, ok⟩ := r1
          rw [h1] at h
          simp only at h
          rw [ih m _ _ _ h1 hk']
          simp only
          cases h2 : Objects.exec E P k (.body (next ok)) d1 with
          | none => rw [h2] at h; cases h
          | some r2 => rw [h2] at h; rw [ih m _ _ _ h2 hk']; exact h
    | assign name x =>
      simp only [Objects.exec] at h ⊢
      cases hp : prepared E w.doc name x with
      | none => rw [hp] at h; exact h
      | some new => rw [hp] at h; exact ih m _ _ _ h hk'
    | after =>
      simp only [Objects.exec] at h ⊢
      split at h
      · rename_i hb
        rw [if_pos hb]
        cases h1 : Objects.exec E P k (.loop w.converters 0) w with
        | none => rw [h1] at h; cases h
        | some r1 =>
          obtain ⟨l, d, ok⟩ := r1
          rw [h1] at h
          rw [ih m _ _ _ h1 hk']
          cases ok with
          | false => exact h
          | true =>
            simp only at h ⊢
            cases h2 : Objects.exec E P k (.loop d.validators 0) d with
            | none => rw [h2] at h; cases h
            | some r2 => rw [h2] at h; rw [ih m _ _ _ h2 hk']; exact h
      · rename_i hb; rw [if_neg hb]; exact h
    | loop j i =>
      simp only [Objects.exec] at h ⊢
      cases hj : (w.items j)[i]? with
      | none => rw [hj] at h; exact h
      | some p =>
        rw [hj] at h
        by_cases hp : ∃ n, p = .proc n
        · obtain ⟨n, rfl⟩ := hp
          simp only at h ⊢
          cases h1 : Objects.exec E P k (.body (P.start n)) w with
          | none => rw [h1] at h; cases h
          | some r1 =>
            obtain ⟨l, d, ok⟩ := r1
            rw [h1] at h
            rw [ih m _ _ _ h1 hk']
            cases ok with
            | false => exact h
            | true =>
              simp only at h ⊢
              cases h2 : Objects.exec E P k (.loop j (i + 1)) d with
              | none => rw [h2] at h; cases h
              | some r2 => rw [h2] at h; rw [ih m _ _ _ h2 hk']; exact h
        · cases p <;> first | exact h | exact absurd ⟨_, rfl⟩ hp

theorem goes_of_exec (E : Env) (P : Actors) (k : Nat) (t : Job P.State) (w : World P.Memory) (l : List (Nat × V))
    (w' : World P.Memory) (ok : Bool) (h : Objects.exec E P k t w = some (l, w', ok)) :
    Plays (prepared E) (Good E) P t w l w' ok := by
  induction k generalizing t w l w' ok with
  | zero => cases h
  | succ k ih =>
    cases t with
    | body s =>
      simp only [Objects.exec] at h
      cases ha : P.act s w with
      | stop d ok => rw [ha] at h; cases h; exact .stop ha
      | assign st name x next =>
        rw [ha] at h
        simp only at h
        cases h1 : Objects.exec E P k (.assign name x) (w.changed st) with
        | none => rw [h1] at h; cases h
        | some r1 =>
          obtain ⟨l, d1, ok⟩ := r1
          rw [h1] at h
          simp only at h
          cases h2 : Objects.exec E P k (.body (next ok)) d1 with
          | none => rw [h2] at h; cases h
          | some r2 =>
            obtain ⟨l2, d2, ok2⟩ := r2
            rw [h2] at h; cases h
            exact .assigns ha (ih _ _ _ _ _ h1) (ih _ _ _ _ _ h2)
    | assign name x =>
      simp only [Objects.exec] at h
      cases hp : prepared E w.doc name x with
      | none => rw [hp] at h; cases h; exact .refused hp
      | some new => rw [hp] at h; exact .taken hp ((assigned_iff _ _ _ _).2 rfl) (ih _ _ _ _ _ h)
    | after =>
      simp only [Objects.exec] at h
      split at h
      · rename_i hb
        have hg := (good_iff E w.doc).1 hb
        cases h1 : Objects.exec E P k (.loop w.converters 0) w with
        | none => rw [h1] at h; cases h
        | some r1 =>
          obtain ⟨l, d, ok⟩ := r1
          rw [h1] at h
          cases ok with
          | false => cases h; exact .converterFailed hg (ih _ _ _ _ _ h1)
          | true =>
            simp only at h
            cases h2 : Objects.exec E P k (.loop d.validators 0) d with
            | none => rw [h2] at h; cases h
            | some r2 =>
              obtain ⟨l2, d2, ok2⟩ := r2
              rw [h2] at h; cases h
              exact .ran hg (ih _ _ _ _ _ h1) (ih _ _ _ _ _ h2)
      · rename_i hb
        cases h
        exact .bad fun hg => hb ((good_iff E w.doc).2 hg)
    | loop j i =>
      simp only [Objects.exec] at h
      cases hj : (w.items j)[i]? with
      | none =>
        rw [hj] at h; cases h
        exact .done (by simpa using hj)
      | some p =>
        rw [hj] at h
        by_cases hp : ∃ n, p = .proc n
        · obtain ⟨n, rfl⟩ := hp
          simp only at h
          cases h1 : Objects.exec E P k (.body (P.start n)) w with
          | none => rw [h1] at h; cases h
          | some r1 =>
            obtain ⟨l, d, ok⟩ := r1
            rw [h1] at h
            cases ok with
            | false => cases h; exact .failed hj (ih _ _ _ _ _ h1)
            | true =>
              simp only at h
              cases h2 : Objects.exec E P k (.loop j (i + 1)) d with
              | none => rw [h2] at h; cases h
              | some r2 =>
                obtain ⟨l2, d2, ok2⟩ := r2
                rw [h2] at h; cases h
                exact .next hj (ih _ _ _ _ _ h1) (ih _ _ _ _ _ h2)
        · have hn := fun n e => hp ⟨n, e⟩
          cases p <;> first | exact absurd ⟨_, rfl⟩ hp | (cases h; exact .notCallable hj hn)

theorem exec_of_goes (E : Env) (P : Actors) {t : Job P.State} {w : World P.Memory} {l : List (Nat × V)} {w' : World P.Memory}
    {ok : Bool} (h : Plays (prepared E) (Good E) P t w l w' ok) : ∃ k, Objects.exec E P k t w = some (l, w', ok) := by
  induction h with
  | stop h => exact ⟨1, by simp only [Objects.exec, h]⟩
  | assigns h _ _ ih1 ih2 =>
    obtain ⟨k1, h1⟩ := ih1
    obtain ⟨k2, h2⟩ := ih2
    refine ⟨max k1 k2 + 1, ?_⟩
    simp only [Objects.exec, h, objects_more E P _ _ _ _ _ h1 (Nat.le_max_left k1 k2),
      objects_more E P _ _ _ _ _ h2 (Nat.le_max_right k1 k2)]
  | refused h => exact ⟨1, by simp only [Objects.exec, h]⟩
  | taken h ha _ ih =>
    obtain ⟨k, hk⟩ := ih
    rw [assigned_iff] at ha
    subst ha
    exact ⟨k + 1, by simp only [Objects.exec, h, hk]⟩
  | @bad w h =>
    refine ⟨1, ?_⟩
    simp only [Objects.exec]
    rw [if_neg fun hb => h ((good_iff E w.doc).1 hb)]
  | converterFailed hg _ ih =>
    obtain ⟨k, hk⟩ := ih
    refine ⟨k + 1, ?_⟩
    simp only [Objects.exec]
    rw [if_pos ((good_iff E _).2 hg), hk]
  | ran hg _ _ ih1 ih2 =>
    obtain ⟨k1, h1⟩ := ih1
    obtain ⟨k2, h2⟩ := ih2
    refine ⟨max k1 k2 + 1, ?_⟩
    simp only [Objects.exec]
    rw [if_pos ((good_iff E _).2 hg), objects_more E P _ _ _ _ _ h1 (Nat.le_max_left k1 k2)]
    simp only [objects_more E P _ _ _ _ _ h2 (Nat.le_max_right k1 k2)]
  | @done w j i h => exact ⟨1, by simp only [Objects.exec, List.getElem?_eq_none h]⟩
  | next hj _ _ ih1 ih2 =>
    obtain ⟨k1, h1⟩ := ih1
    obtain ⟨k2, h2⟩ := ih2
    refine ⟨max k1 k2 + 1, ?_⟩
    simp only [Objects.exec, hj, objects_more E P _ _ _ _ _ h1 (Nat.le_max_left k1 k2),
      objects_more E P _ _ _ _ _ h2 (Nat.le_max_right k1 k2)]
  | failed hj _ ih =>
    obtain ⟨k, hk⟩ := ih
    exact ⟨k + 1, by simp only [Objects.exec, hj, hk]⟩
  | @notCallable w j i p hj h =>
    refine ⟨1, ?_⟩
    simp only [Objects.exec, hj]

theorem goes_unique {E : Env} {P : Actors} {t : Job P.State} {w : World P.Memory} {l l' : List (Nat × V)}
    {w1 w2 : World P.Memory} {ok ok' : Bool} (h : Plays (prepared E) (Good E) P t w l w1 ok)
    (h' : Plays (prepared E) (Good E) P t w l' w2 ok') : l = l' ∧ w1 = w2 ∧ ok = ok' := by
  obtain ⟨k, hk⟩ := exec_of_goes E P h
  obtain ⟨k', hk'⟩ := exec_of_goes E P h'
  have h1 := objects_more E P _ _ _ _ _ hk (Nat.le_max_left k k')
  rw [objects_more E P _ _ _ _ _ hk' (Nat.le_max_right k k')] at h1
  cases h1
  exact ⟨rfl, rfl, rfl⟩

end Verif.Props
