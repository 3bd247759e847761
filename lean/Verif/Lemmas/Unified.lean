import Verif.Model.Unified
import Verif.Spec.Unified
import Verif.Lemmas.Path
import Verif.Props.Resolve
/-! Lemmas about the traversal of `UnifiedReferencesValidator`. -/
namespace Verif.Unified
open Verif Verif.Spec Verif.Resolve Verif.Props

variable {C : Type} [DecidableEq C] {n : Nat}

theorem seq_some {l : List (Option (Except (Err C) Unit))} (h : ∀ r ∈ l, ∃ o, r = some o) :
    ∃ o, seq l = some o := by
  induction l with
  | nil => exact ⟨_, rfl⟩
  | cons r rs ih =>
    obtain ⟨o, rfl⟩ := h r (by simp)
    cases o with
    | ok u => cases u; simpa [seq] using ih (fun r hr => h r (by simp [hr]))
    | error e => exact ⟨_, rfl⟩

theorem seq_ok {l : List (Option (Except (Err C) Unit))} :
    seq l = some (.ok ()) ↔ ∀ r ∈ l, r = some (.ok ()) := by
  induction l with
  | nil => simp [seq]
  | cons r rs ih =>
    match r with
    | none => simp [seq]
    | some (.ok ()) => simp [seq, ih]
    | some (.error e) => simp [seq]

theorem compatible_iff (T : ClassTable C) (ty : PyType C) (cs : List C) :
    compatible T ty cs = true ↔ InstanceOf T ty cs := by
  cases ty with
  | cls c => simp [compatible, InstanceOf]
  | builtin _ => simp [compatible, InstanceOf]

variable {T : ClassTable C} {U : Uni} {M : List (Str × List C)} {D : Doc C n}

theorem validateReference_some (v : Val n) (path : Str) :
    ∃ o, validateReference T U M D v path = some o := by
  unfold validateReference
  split
  · rename_i s _
    obtain ⟨o, ho⟩ := resolve_some T D s
    rw [ho]
    match o with
    | .error (.valueError m) => exact ⟨_, rfl⟩
    | .error (.attributeError m) => exact ⟨_, rfl⟩
    | .ok none => exact ⟨_, rfl⟩
    | .ok (some r) =>
      simp only
      split
      · exact ⟨_, rfl⟩
      · split <;> exact ⟨_, rfl⟩
  · exact ⟨_, rfl⟩

theorem validateReference_ok (W : WF T D) (Un : Unambiguous T) {v : Val n} {s : Str}
    (hv : IsReference T D v s) (path : Str) :
    validateReference T U M D v path = some (.ok ()) ↔ RefOk T D (Path.expectedType U M path) s := by
  unfold validateReference
  rw [isReference_getattr W hv]
  simp only
  obtain ⟨o, ho⟩ := resolve_some T D s
  rw [ho]
  match o with
  | .error (.valueError m) =>
    simp only [Option.some.injEq, reduceCtorEq, false_iff]
    rintro (h | ⟨r, v, cs, h1, h2, _⟩)
    · rw [← (C03_other_outcomes W Un s).1, ho] at h; cases h
    · obtain ⟨ty, p, h⟩ := (C02_result_is_end_of_chain W Un s v).2 ⟨r, h1, h2⟩
      rw [ho] at h; cases h
  | .error (.attributeError m) =>
    obtain ⟨m', hm⟩ := C04_only_value_errors (ref_string W) s _ ho; cases hm
  | .ok none =>
    simp only [true_iff]
    exact .inl ((C03_other_outcomes W Un s).1.1 ho)
  | .ok (some ⟨w, ty, p⟩) =>
    have h1 := (C02_result_is_end_of_chain W Un s w).1 ⟨_, _, ho⟩
    have h2 := (C02_type_and_null W Un s w ty p ho).1
    subst h2
    simp only
    have key : ∀ ex, RefOk T D ex s ↔ ∃ cs, ex = some cs ∧ InstanceOf T (D.typeOf w) cs := by
      intro ex
      constructor
      · rintro (h | ⟨r, v', cs, h3, h4, h5, h6⟩)
        · rw [← (C03_other_outcomes W Un s).1, ho] at h; cases h
        · obtain ⟨ty, p, h⟩ := (C02_result_is_end_of_chain W Un s v').2 ⟨r, h3, h4⟩
          rw [ho] at h; cases h
          exact ⟨cs, h5, h6⟩
      · rintro ⟨cs, h5, h6⟩
        obtain ⟨r, h3, h4⟩ := h1
        exact .inr ⟨r, w, cs, h3, h4, h5, h6⟩
    rw [key]
    cases hx : Path.expectedType U M path with
    | none => simp
    | some cs =>
      simp only [Option.some.injEq, exists_eq_left', ← compatible_iff]
      split <;> simp_all

theorem length_le_of_nodup {l : List (Fin n)} (h : l.Nodup) : l.length ≤ n := by
  have := (List.subperm_of_subset h (fun a _ => List.mem_finRange a)).length_le
  simpa using this

/-- The traversal never runs out of fuel. -/
theorem validateRec_some (k : Nat) (visited : List (Fin n)) (hnd : visited.Nodup)
    (hk : n + 1 ≤ k + visited.length) (v : Val n) (path : Str) :
    ∃ o, validateRec T U M D k visited v path = some o := by
  induction k generalizing visited v path with
  | zero => have := length_le_of_nodup hnd; omega
  | succ k ih =>
    cases v with
    | ptr a =>
      simp only [validateRec]
      split
      · exact ⟨_, rfl⟩
      · rename_i ha
        have ih' := ih (a :: visited) (List.nodup_cons.2 ⟨ha, hnd⟩) (by simp; omega)
        split
        · exact validateReference_some _ _
        · split
          · refine seq_some fun r hr => ?_
            obtain ⟨x, _, rfl⟩ := List.mem_map.1 hr
            exact ih' _ _
          · refine seq_some fun r hr => ?_
            obtain ⟨x, _, rfl⟩ := List.mem_map.1 hr
            exact ih' _ _
          · refine seq_some fun r hr => ?_
            obtain ⟨x, _, rfl⟩ := List.mem_map.1 hr
            split
            · exact ⟨_, rfl⟩
            · split
              · exact ⟨_, rfl⟩
              · exact ih' _ _
    | _ => exact ⟨_, rfl⟩

/-- More fuel gives the same answer. -/
theorem validateRec_mono (k : Nat) (visited : List (Fin n)) (v : Val n) (path : Str) {o}
    (h : validateRec T U M D k visited v path = some o) (e : Nat) :
    validateRec T U M D (k + e) visited v path = some o := by
  have seqmono : ∀ (α : Type) (l : List α) (f g : α → Option (Except (Err C) Unit)),
      (∀ x ∈ l, ∀ o, f x = some o → g x = some o) → ∀ o, seq (l.map f) = some o → seq (l.map g) = some o := by
    intro α l f g hfg
    induction l with
    | nil => intro o h; exact h
    | cons x xs ih =>
      intro o h
      simp only [List.map_cons] at h ⊢
      match hx : f x with
      | none => rw [hx] at h; simp [seq] at h
      | some (.ok ()) =>
        rw [hx] at h; rw [hfg x (by simp) _ hx]
        simp only [seq] at h ⊢
        exact ih (fun y hy => hfg y (by simp [hy])) o h
      | some (.error e) =>
        rw [hx] at h; rw [hfg x (by simp) _ hx]; exact h
  induction k generalizing visited v path o with
  | zero => simp [validateRec] at h
  | succ k ih =>
    rw [Nat.add_right_comm]
    cases v with
    | ptr a =>
      simp only [validateRec] at h ⊢
      split at h
      · rename_i ha; rw [if_pos ha]; exact h
      · rename_i ha
        rw [if_neg ha]
        split at h
        · rename_i hr; rw [if_pos hr]; exact h
        · rename_i hr
          rw [if_neg hr]
          split at h
          · exact seqmono _ _ _ _ (fun x _ o ho => ih _ _ _ ho) _ h
          · exact seqmono _ _ _ _ (fun x _ o ho => ih _ _ _ ho) _ h
          · refine seqmono _ _ _ _ (fun f _ o ho => ?_) _ h
            split at ho
            · exact ho
            · split at ho
              · rename_i hx; rw [if_pos hx]; exact ho
              · rename_i hx; rw [if_neg hx]; exact ih _ _ _ ho
    | _ => exact h

/-- One level of the traversal. -/
theorem validateRec_children (W : WF T D) (k : Nat) (visited : List (Fin n)) (a : Fin n)
    (path : Str) (ha : a ∉ visited) (hr : ∀ s, ¬ IsReference T D (.ptr a) s) (hk : 0 < k) :
    validateRec T U M D (k+1) visited (.ptr a) path = some (.ok ()) ↔
    ∀ st c, Child T D a st (.ptr c) →
      validateRec T U M D k (a :: visited) (.ptr c) (path ++ stepText st) = some (.ok ()) := by
  have hR : ¬ D.isRef T (.ptr a) = true := fun h => by
    obtain ⟨s, hs⟩ := (isRef_iff W _).1 h; exact hr s hs
  have leaf : ∀ (v : Val n) p, (∀ c, v ≠ .ptr c) →
      validateRec T U M D k (a :: visited) v p = some (.ok ()) := by
    intro v p hv
    cases k with
    | zero => omega
    | succ k => cases v <;> first | rfl | exact absurd rfl (hv _)
  simp only [validateRec, if_neg ha, if_neg hR]
  cases hn : D.node a with
  | list xs =>
    simp only [seq_ok]
    constructor
    · intro h st c hc
      cases hc with
      | item h1 h2 =>
        rw [hn] at h1; cases h1
        refine h _ (List.mem_map.2 ⟨(_, _), ?_, rfl⟩)
        exact List.mk_mem_zipIdx_iff_getElem?.2 h2
      | entry h1 => rw [hn] at h1; cases h1
      | field h1 => rw [hn] at h1; cases h1
    · intro h r hr
      obtain ⟨⟨x, i⟩, hx, rfl⟩ := List.mem_map.1 hr
      have hx := List.mk_mem_zipIdx_iff_getElem?.1 hx
      cases x with
      | ptr c => exact h _ _ (.item hn hx)
      | _ => exact leaf _ _ (by simp)
  | dict kvs =>
    simp only [seq_ok]
    constructor
    · intro h st c hc
      cases hc with
      | entry h1 h2 =>
        rw [hn] at h1; cases h1
        have := h _ (List.mem_map.2 ⟨(_, _), h2, rfl⟩)
        simpa [stepText, Path.escape_eq] using this
      | item h1 => rw [hn] at h1; cases h1
      | field h1 => rw [hn] at h1; cases h1
    · intro h r hr
      obtain ⟨⟨key, x⟩, hx, rfl⟩ := List.mem_map.1 hr
      cases x with
      | ptr c =>
        have := h _ _ (.entry hn hx)
        simpa [stepText, Path.escape_eq] using this
      | _ => exact leaf _ _ (by simp)
  | model c fs ex =>
    simp only [seq_ok]
    constructor
    · intro h st c' hc
      cases hc with
      | field h1 h2 h3 h4 h5 =>
        rw [hn] at h1; cases h1
        have := h _ (List.mem_map.2 ⟨_, h2, rfl⟩)
        rw [getattr_field W hn h4] at this
        simpa [h3, stepText] using this
      | item h1 => rw [hn] at h1; cases h1
      | entry h1 => rw [hn] at h1; cases h1
    · intro h r hr
      obtain ⟨f, hf, rfl⟩ := List.mem_map.1 hr
      obtain ⟨u, hu⟩ := W.declared a c fs ex hn f hf
      rw [getattr_field W hn hu]
      simp only
      split
      · rfl
      · rename_i hx
        rw [not_or] at hx
        cases u with
        | ptr c' => exact h _ _ (.field hn hf (by simpa using hx.2) hu hx.1)
        | _ => exact leaf _ _ (by simp)

/-- Acceptance, for an arbitrary set of enclosing objects. -/
theorem validateRec_ok (W : WF T D) (Un : Unambiguous T) (k : Nat) (visited : List (Fin n))
    (hnd : visited.Nodup) (hk : n + 1 ≤ k + visited.length) (a : Fin n) (path : Str) :
    validateRec T U M D k visited (.ptr a) path = some (.ok ()) ↔
    ∀ steps objs b s, Trail T D a steps objs b → (∀ o ∈ objs, o ∉ visited) →
      IsReference T D (.ptr b) s →
      RefOk T D (Path.expectedType U M (path ++ steps.flatMap stepText)) s := by
  induction k generalizing visited a path with
  | zero => have := length_le_of_nodup hnd; omega
  | succ k ih =>
    by_cases ha : a ∈ visited
    · have : validateRec T U M D (k+1) visited (.ptr a) path = some (.ok ()) := by
        simp [validateRec, ha]
      simp only [this, true_iff]
      intro steps objs b s ht ho
      exfalso
      cases ht with
      | nil => exact ho a (by simp) ha
      | cons => exact ho a (by simp) ha
    by_cases hR : D.isRef T (.ptr a) = true
    · obtain ⟨s, hs⟩ := (isRef_iff W _).1 hR
      have : validateRec T U M D (k+1) visited (.ptr a) path =
          validateReference T U M D (.ptr a) path := by
        simp [validateRec, ha, hR]
      rw [this, validateReference_ok W Un hs]
      constructor
      · intro h steps objs b s' ht ho hb
        cases ht with
        | nil => cases isReference_unique W hs hb; simpa using h
        | cons h1 => exact absurd hs (h1 s)
      · intro h
        have := h [] [a] a s .nil (by simpa using ha) hs
        simpa using this
    · have hr : ∀ s, ¬ IsReference T D (.ptr a) s := fun s hs => hR ((isRef_iff W _).2 ⟨s, hs⟩)
      have hnd' : (a :: visited).Nodup := List.nodup_cons.2 ⟨ha, hnd⟩
      have hkpos : 0 < k := by
        have := length_le_of_nodup hnd'; simp at this; omega
      rw [validateRec_children W k visited a path ha hr hkpos]
      have ih' := fun c p => ih (a :: visited) hnd' (by simp; omega) c p
      constructor
      · intro h steps objs b s ht ho hb
        cases ht with
        | nil => exact absurd hb (hr s)
        | @cons _ st c ss objs' _ h1 h2 h3 h4 =>
          have := (ih' c _).1 (h st c h2) ss objs' b s h3 (by
            intro o hoo
            simp only [List.mem_cons, not_or]
            refine ⟨?_, ho o (by simp [hoo])⟩
            rintro rfl; exact h4 hoo) hb
          simpa using this
      · intro h st c hc
        rw [ih']
        intro ss objs b s ht ho hb
        have := h (st :: ss) (a :: objs) b s (.cons hr hc ht (fun hm => (ho a hm) (by simp))) (by
          intro o hoo
          rcases List.mem_cons.1 hoo with rfl | hoo
          · exact ha
          · exact fun hv => ho o hoo (by simp [hv])) hb
        simpa using this

/-- Rejection: the error stems from a Reference at a trail that fails the check. -/
theorem validateRec_error (W : WF T D) (Un : Unambiguous T) (k : Nat) (visited : List (Fin n))
    (hnd : visited.Nodup) (a : Fin n) (path : Str) {e : Err C}
    (h : validateRec T U M D k visited (.ptr a) path = some (.error e)) :
    ∃ steps objs b s, Trail T D a steps objs b ∧ (∀ o ∈ objs, o ∉ visited) ∧
      IsReference T D (.ptr b) s ∧
      ¬ RefOk T D (Path.expectedType U M (path ++ steps.flatMap stepText)) s ∧
      ((∃ m, e = .invalidRef (path ++ steps.flatMap stepText) m) ∨
        (∃ p ty cs, e = .typeMismatch (path ++ steps.flatMap stepText) p ty cs) ∨
        e = .unknownType (Path.normalize U (path ++ steps.flatMap stepText))) := by
  induction k generalizing visited a path with
  | zero => simp [validateRec] at h
  | succ k ih =>
    by_cases ha : a ∈ visited
    · simp [validateRec, ha] at h
    by_cases hR : D.isRef T (.ptr a) = true
    · obtain ⟨s, hs⟩ := (isRef_iff W _).1 hR
      have e1 : validateRec T U M D (k+1) visited (.ptr a) path =
          validateReference T U M D (.ptr a) path := by
        simp [validateRec, ha, hR]
      rw [e1] at h
      refine ⟨[], [a], a, s, .nil, by simpa using ha, hs, ?_, ?_⟩
      · rw [← validateReference_ok W Un hs]
        simp only [List.flatMap_nil, List.append_nil]; rw [h]; simp
      · simp only [List.flatMap_nil, List.append_nil]
        unfold validateReference at h
        rw [isReference_getattr W hs] at h
        simp only at h
        split at h
        · cases h
        · cases h; exact .inl ⟨_, rfl⟩
        · rename_i m hm
          obtain ⟨m', hm'⟩ := C04_only_value_errors (ref_string W) s _ hm
          cases hm'
        · cases h
        · split at h
          · cases h; exact .inr (.inr rfl)
          · split at h
            · cases h
            · cases h; exact .inr (.inl ⟨_, _, _, rfl⟩)
    · have hr : ∀ s, ¬ IsReference T D (.ptr a) s := fun s hs => hR ((isRef_iff W _).2 ⟨s, hs⟩)
      have hnd' : (a :: visited).Nodup := List.nodup_cons.2 ⟨ha, hnd⟩
      have lift : ∀ st c, Child T D a st (.ptr c) →
          validateRec T U M D k (a :: visited) (.ptr c) (path ++ stepText st) = some (.error e) →
          ∃ steps objs b s, Trail T D a steps objs b ∧ (∀ o ∈ objs, o ∉ visited) ∧
            IsReference T D (.ptr b) s ∧
            ¬ RefOk T D (Path.expectedType U M (path ++ steps.flatMap stepText)) s ∧
            ((∃ m, e = .invalidRef (path ++ steps.flatMap stepText) m) ∨
              (∃ p ty cs, e = .typeMismatch (path ++ steps.flatMap stepText) p ty cs) ∨
              e = .unknownType (Path.normalize U (path ++ steps.flatMap stepText))) := by
        intro st c hc hx
        obtain ⟨ss, objs, b, s, h1, h2, h3, h4, h5⟩ := ih (a :: visited) hnd' c _ hx
        refine ⟨st :: ss, a :: objs, b, s, .cons hr hc h1 (fun hm => h2 a hm (by simp)), ?_, h3, ?_, ?_⟩
        · intro o ho
          rcases List.mem_cons.1 ho with rfl | ho
          · exact ha
          · exact fun hv => h2 o ho (by simp [hv])
        · simpa using h4
        · simpa using h5
      have leaf : ∀ (v : Val n) p, (∀ c, v ≠ .ptr c) →
          validateRec T U M D k (a :: visited) v p ≠ some (.error e) := by
        intro v p hv
        cases k with
        | zero => simp [validateRec]
        | succ k => cases v <;> first | exact absurd rfl (hv _) | simp [validateRec]
      simp only [validateRec, if_neg ha, if_neg hR] at h
      have seqerr : ∀ (l : List (Option (Except (Err C) Unit))), seq l = some (.error e) → some (.error e) ∈ l := by
        intro l
        induction l with
        | nil => simp [seq]
        | cons r rs ih =>
          match r with
          | none => simp [seq]
          | some (.ok ()) => simp only [seq]; intro h; exact List.mem_cons_of_mem _ (ih h)
          | some (.error e') => simp only [seq]; intro h; rw [h]; simp
      cases hn : D.node a with
      | list xs =>
        rw [hn] at h
        obtain ⟨⟨x, i⟩, hx, he⟩ := List.mem_map.1 (seqerr _ h)
        have hx := List.mk_mem_zipIdx_iff_getElem?.1 hx
        cases x with
        | ptr c => exact lift _ _ (.item hn hx) he
        | _ => exact absurd he (leaf _ _ (by simp))
      | dict kvs =>
        rw [hn] at h
        obtain ⟨⟨key, x⟩, hx, he⟩ := List.mem_map.1 (seqerr _ h)
        cases x with
        | ptr c =>
          refine lift _ _ (.entry hn hx) ?_
          simpa [stepText, Path.escape_eq] using he
        | _ => exact absurd he (leaf _ _ (by simp))
      | model c fs ex =>
        rw [hn] at h
        obtain ⟨f, hf, he⟩ := List.mem_map.1 (seqerr _ h)
        obtain ⟨u, hu⟩ := W.declared a c fs ex hn f hf
        rw [getattr_field W hn hu] at he
        simp only at he
        split at he
        · cases he
        · rename_i hx
          rw [not_or] at hx
          cases u with
          | ptr c' => exact lift _ _ (.field hn hf (by simpa using hx.2) hu hx.1) he
          | _ => exact absurd he (leaf _ _ (by simp))

omit [DecidableEq C] in
/-- A walk can be shortened to a trail. -/
theorem trail_of_descends {a : Fin n} {steps b} (h : Descends T D a steps b) :
    ∃ steps' objs, Trail T D a steps' objs b := by
  induction h with
  | nil => exact ⟨_, _, .nil⟩
  | @cons a s c ss b h1 h2 _ ih =>
    obtain ⟨steps', objs, ht⟩ := ih
    by_cases ha : a ∈ objs
    · -- cut the loop
      have : ∀ {c steps objs b}, Trail T D c steps objs b → a ∈ objs →
          ∃ steps' objs', Trail T D a steps' objs' b := by
        intro c steps objs b ht
        induction ht with
        | nil => intro h; simp at h; subst h; exact ⟨_, _, .nil⟩
        | @cons a' s c ss objs b h1 h2 h3 h4 ih =>
          intro h
          rcases List.mem_cons.1 h with rfl | h
          · exact ⟨_, _, .cons h1 h2 h3 h4⟩
          · exact ih h
      exact this ht ha
    · exact ⟨_, _, .cons h1 h2 ht ha⟩

omit [DecidableEq C] in
theorem descends_of_trail {a : Fin n} {steps objs b} (h : Trail T D a steps objs b) :
    Descends T D a steps b := by
  induction h with
  | nil => exact .nil
  | cons h1 h2 _ _ ih => exact .cons h1 h2 ih

end Verif.Unified
