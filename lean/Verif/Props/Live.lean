import Verif.Spec.Live
import Verif.Model.Live
import Verif.Props.Reenter
/-!
# C65: processors that change the list of processors in place
-/
namespace Verif.Props
open Verif Verif.Gen Verif.Spec Verif.Pyd Verif.Live Verif.Reenter

theorem listedIn_eq (doc : V) (field : Str) : processorsOf (doc.attr field) = listedIn doc field := by
  unfold processorsOf listedIn; rfl

/-! ### The interpreter and the specification -/

theorem iterate_sound {E : Env} {field : Str} {k i : Nat} {doc : V} {r : Run} (h : iterate E field k i doc = some r) :
    Iterates E.call field i doc r.1 r.2 := by
  induction k generalizing i doc r with
  | zero => cases h
  | succ k ih =>
    simp only [iterate, listedIn_eq] at h
    split at h
    · rename_i hi; cases h; exact .done (List.getElem?_eq_none_iff.1 hi)
    · rename_i n hi
      split at h
      · rename_i hc; cases h; exact .fail hi hc
      · rename_i doc' hc
        split at h
        · cases h
        · rename_i r' hr; cases h; exact .step hi hc (ih hr)
    · rename_i p hp hi
      cases h
      exact .notCallable hi fun n e => by subst e; exact hp n rfl

theorem iterate_more {E : Env} {field : Str} {k k' i : Nat} {doc : V} {r : Run} (hk : k ≤ k') (h : iterate E field k i doc = some r) :
    iterate E field k' i doc = some r := by
  induction k generalizing i doc r k' with
  | zero => cases h
  | succ k ih =>
    obtain ⟨k', rfl⟩ : ∃ j, k' = j + 1 := ⟨k' - 1, by omega⟩
    simp only [iterate] at h ⊢
    split at h
    · assumption
    · split at h
      · assumption
      · split at h
        · cases h
        · rename_i r' hr
          rw [ih (by omega) hr]
          exact h
    · assumption

theorem iterate_complete {E : Env} {field : Str} {i : Nat} {doc : V} {log r} (h : Iterates E.call field i doc log r) :
    ∃ k, iterate E field k i doc = some (log, r) := by
  induction h with
  | done hi => exact ⟨1, by simp only [iterate, listedIn_eq, List.getElem?_eq_none_iff.2 hi]⟩
  | step hi hc _ ih =>
    obtain ⟨k, hk⟩ := ih
    exact ⟨k + 1, by simp only [iterate, listedIn_eq, hi, hc, hk]⟩
  | fail hi hc => exact ⟨1, by simp only [iterate, listedIn_eq, hi, hc]⟩
  | @notCallable i doc p hi hp =>
    refine ⟨1, ?_⟩
    simp only [iterate, listedIn_eq, hi]

/-- **C65.** What the interpreter does, given enough steps, is what the specification says. -/
theorem C65_exact (E : Env) (doc : V) (log : List (Nat × V)) (r : Option V) :
    (∃ k, runLive E k doc = some (log, r)) ↔ LiveProcessed E.call doc log r := by
  constructor
  · rintro ⟨k, h⟩
    unfold runLive at h
    split at h
    · cases h
    · rename_i h1; cases h; exact .converterFailed (iterate_sound h1)
    · rename_i h1
      split at h
      · cases h
      · rename_i r' h2; cases h; exact .ran (iterate_sound h1) (iterate_sound h2)
  · intro h
    cases h with
    | converterFailed h =>
      obtain ⟨k, hk⟩ := iterate_complete h
      exact ⟨k, by simp only [runLive, hk]⟩
    | ran h h' =>
      obtain ⟨k, hk⟩ := iterate_complete h
      obtain ⟨k', hk'⟩ := iterate_complete h'
      exact ⟨max k k', by simp only [runLive, iterate_more (Nat.le_max_left k k') hk, iterate_more (Nat.le_max_right k k') hk']⟩

theorem iterates_unique {call : Nat → V → Option V} {field : Str} {i : Nat} {doc : V} {log log' r r'}
    (h : Iterates call field i doc log r) (h' : Iterates call field i doc log' r') : log = log' ∧ r = r' := by
  induction h generalizing log' r' with
  | done h1 =>
    have h1 := List.getElem?_eq_none_iff.2 h1
    cases h' with
    | done => exact ⟨rfl, rfl⟩
    | step h2 => rw [h1] at h2; cases h2
    | fail h2 => rw [h1] at h2; cases h2
    | notCallable h2 => rw [h1] at h2; cases h2
  | step h1 hc _ ih =>
    cases h' with
    | done h2 => rw [List.getElem?_eq_none_iff.2 h2] at h1; cases h1
    | step h2 hc' h3 =>
      rw [h1] at h2; cases h2
      rw [hc] at hc'; cases hc'
      obtain ⟨rfl, rfl⟩ := ih h3; exact ⟨rfl, rfl⟩
    | fail h2 hc' => rw [h1] at h2; cases h2; rw [hc] at hc'; cases hc'
    | notCallable h2 h3 => rw [h1] at h2; cases h2; exact absurd rfl (h3 _)
  | fail h1 hc =>
    cases h' with
    | done h2 => rw [List.getElem?_eq_none_iff.2 h2] at h1; cases h1
    | step h2 hc' h3 => rw [h1] at h2; cases h2; rw [hc] at hc'; cases hc'
    | fail h2 hc' => rw [h1] at h2; cases h2; exact ⟨rfl, rfl⟩
    | notCallable h2 h3 => rw [h1] at h2; cases h2; exact absurd rfl (h3 _)
  | notCallable h1 hp =>
    cases h' with
    | done h2 => rw [List.getElem?_eq_none_iff.2 h2] at h1; cases h1
    | step h2 => rw [h1] at h2; cases h2; exact absurd rfl (hp _)
    | fail h2 => rw [h1] at h2; cases h2; exact absurd rfl (hp _)
    | notCallable => exact ⟨rfl, rfl⟩

/-- **C65.** There is at most one way it can end. -/
theorem C65_determined (call : Nat → V → Option V) (doc : V) (log log' : List (Nat × V)) (r r' : Option V)
    (h : LiveProcessed call doc log r) (h' : LiveProcessed call doc log' r') : log = log' ∧ r = r' := by
  cases h with
  | converterFailed h => cases h' with
    | converterFailed h' => exact iterates_unique h h'
    | ran h' _ => cases (iterates_unique h h').2
  | ran h g => cases h' with
    | converterFailed h' => cases (iterates_unique h h').2
    | ran h' g' =>
      obtain ⟨rfl, e⟩ := iterates_unique h h'
      cases e
      obtain ⟨rfl, rfl⟩ := iterates_unique g g'
      exact ⟨rfl, rfl⟩

/-! ### What is called -/

/-- **C65.** The call number `k` is of the class at position `k` of the list, as it is at the time; and the loop ends only when the list
is not longer than the number of calls. -/
theorem C65_positions (call : Nat → V → Option V) (field : Str) (i : Nat) (doc : V) (log : List (Nat × V)) (r : Option V)
    (h : Iterates call field i doc log r) :
    (∀ (k : Nat) n d, log[k]? = some (n, d) → (listedIn d field)[i + k]? = some (.proc n)) ∧
    ∀ d, r = some d → (listedIn d field).length ≤ i + log.length := by
  induction h with
  | done h => exact ⟨fun k n d hk => by simp at hk, fun d hd => by cases hd; simpa using h⟩
  | step h1 _ _ ih =>
    refine ⟨fun k n d hk => ?_, fun d hd => by have := ih.2 d hd; simp only [List.length_cons]; omega⟩
    cases k with
    | zero => simp only [List.getElem?_cons_zero, Option.some.injEq, Prod.mk.injEq] at hk; obtain ⟨rfl, rfl⟩ := hk; exact h1
    | succ k => rw [show ∀ i : Nat, i + (k + 1) = i + 1 + k by omega]; exact ih.1 k n d (by simpa using hk)
  | fail h1 _ =>
    refine ⟨fun k n d hk => ?_, nofun⟩
    cases k with
    | zero => simp only [List.getElem?_cons_zero, Option.some.injEq, Prod.mk.injEq] at hk; obtain ⟨rfl, rfl⟩ := hk; exact h1
    | succ k => simp at hk
  | notCallable => exact ⟨fun k n d hk => by simp at hk, nofun⟩

theorem drop_of_get {α : Type} {l : List α} {i : Nat} {a : α} (h : l[i]? = some a) : l.drop i = a :: l.drop (i + 1) := by
  obtain ⟨hi, rfl⟩ := List.getElem?_eq_some_iff.1 h
  exact List.drop_eq_getElem_cons hi

theorem iterates_runs {call : Nat → V → Option V} {field : Str} (hl : ∀ n d d', call n d = some d' → listedIn d' field = listedIn d field)
    {i : Nat} {doc : V} {log r} (h : Iterates call field i doc log r) : Runs call ((listedIn doc field).drop i) doc log r := by
  induction h with
  | done h => rw [List.drop_of_length_le h]; exact .done
  | step h1 hc _ ih => rw [drop_of_get h1]; rw [hl _ _ _ hc] at ih; exact .step hc ih
  | fail h1 hc => rw [drop_of_get h1]; exact .fail hc
  | notCallable h1 hp => rw [drop_of_get h1]; exact .notCallable hp

theorem runs_iterates {call : Nat → V → Option V} {field : Str} (hl : ∀ n d d', call n d = some d' → listedIn d' field = listedIn d field)
    {ps : List V} {doc : V} {log r} (h : Runs call ps doc log r) {i : Nat} (he : ps = (listedIn doc field).drop i) :
    Iterates call field i doc log r := by
  have get : ∀ {p ps doc} {i : Nat}, p :: ps = (listedIn doc field).drop i → (listedIn doc field)[i]? = some p ∧ ps = (listedIn doc field).drop (i + 1) := by
    intro p ps doc i he
    have h1 : (listedIn doc field)[i]? = some p := by
      have := congrArg (·[0]?) he
      simpa [eq_comm] using this
    exact ⟨h1, by rw [drop_of_get h1] at he; exact (List.cons.inj he).2⟩
  induction h generalizing i with
  | done => exact .done (List.drop_eq_nil_iff.1 he.symm)
  | step hc _ ih =>
    obtain ⟨h1, h2⟩ := get he
    exact .step h1 hc (ih (by rw [hl _ _ _ hc]; exact h2))
  | fail hc => exact .fail (get he).1 hc
  | notCallable hp => exact .notCallable (get he).1 hp

/-- **C65.** If no processor changes the list, each class in it is called once, in order, as C32 says. -/
theorem C65_unchanged (call : Nat → V → Option V) (field : Str)
    (hl : ∀ n d d', call n d = some d' → listedIn d' field = listedIn d field) (doc : V) (log : List (Nat × V)) (r : Option V) :
    Iterates call field 0 doc log r ↔ Runs call (listedIn doc field) doc log r :=
  ⟨fun h => by simpa using iterates_runs hl h, fun h => runs_iterates hl h (by simp)⟩

/-- **C65.** If processors only add to the end of the list, the classes called are all those that are in it at the end, in
order: also those that were added on the way. -/
theorem C65_appended (call : Nat → V → Option V) (field : Str)
    (hl : ∀ n d d', call n d = some d' → listedIn d field <+: listedIn d' field) (doc : V) (log : List (Nat × V)) (d : V)
    (h : Iterates call field 0 doc log (some d)) : log.map (fun e => V.proc e.1) = listedIn d field := by
  suffices ∀ i doc log r, Iterates call field i doc log r → ∀ d, r = some d →
      listedIn doc field <+: listedIn d field ∧ log.map (fun e => V.proc e.1) = (listedIn d field).drop i by
    simpa using (this 0 doc log _ h d rfl).2
  intro i doc log r h
  induction h with
  | done h => rintro d ⟨⟩; exact ⟨List.prefix_rfl, (List.drop_of_length_le h).symm⟩
  | @step i doc n doc' log r h1 hc _ ih =>
    intro d hd
    obtain ⟨hp, he⟩ := ih d hd
    have hp := (hl _ _ _ hc).trans hp
    refine ⟨hp, ?_⟩
    obtain ⟨t, ht⟩ := hp
    have : (listedIn d field)[i]? = some (.proc n) := by
      rw [← ht, List.getElem?_append_left (List.getElem?_eq_some_iff.1 h1).1]; exact h1
    rw [drop_of_get this, ← he]; rfl
  | fail => nofun
  | notCallable => nofun

/-- **C65.** If each class that is called adds to the list, the loop over a list that is not empty has no end. -/
theorem C65_endless (call : Nat → V → Option V) (field : Str) (Q : V → Prop)
    (hQ : ∀ d, Q d → ∀ p ∈ listedIn d field, ∃ n d', p = .proc n ∧ call n d = some d' ∧ Q d' ∧
      (listedIn d field).length < (listedIn d' field).length) (doc : V) (hd : Q doc) (hne : listedIn doc field ≠ []) :
    ¬ ∃ log r, Iterates call field 0 doc log r := by
  suffices ∀ i doc log r, Iterates call field i doc log r → Q doc → i < (listedIn doc field).length → False by
    rintro ⟨log, r, h⟩
    exact this 0 doc log r h hd (List.length_pos_iff.2 hne)
  intro i doc log r h
  induction h with
  | done h => intro _ hi; omega
  | step h1 hc _ ih =>
    intro hq hi
    obtain ⟨n, d', hp, hc', hq', hlt⟩ := hQ _ hq _ (List.mem_of_getElem? h1)
    cases hp
    rw [hc] at hc'; cases hc'
    exact ih hq' (by omega)
  | fail h1 hc =>
    intro hq _
    obtain ⟨n, d', hp, hc', -⟩ := hQ _ hq _ (List.mem_of_getElem? h1)
    cases hp
    rw [hc] at hc'; cases hc'
  | notCallable h1 hp =>
    intro hq _
    obtain ⟨n, d', he, -⟩ := hQ _ hq _ (List.mem_of_getElem? h1)
    exact hp n he

/-- **C65.** If no processor makes the list longer, the loop ends, after at most as many calls as the list has items. -/
theorem C65_ends (call : Nat → V → Option V) (field : Str)
    (hl : ∀ n d d', call n d = some d' → (listedIn d' field).length ≤ (listedIn d field).length) (doc : V) :
    ∃ log r, Iterates call field 0 doc log r ∧ log.length ≤ (listedIn doc field).length := by
  suffices ∀ m i doc, (listedIn doc field).length ≤ i + m → ∃ log r, Iterates call field i doc log r ∧ log.length ≤ m from
    this _ 0 doc (by omega)
  intro m
  induction m with
  | zero => exact fun i doc hi => ⟨[], _, .done (by omega), Nat.le_refl _⟩
  | succ m ih =>
    intro i doc hi
    cases hg : (listedIn doc field)[i]? with
    | none => exact ⟨[], _, .done (List.getElem?_eq_none_iff.1 hg), by simp⟩
    | some p =>
      by_cases hp : ∃ n, p = .proc n
      · obtain ⟨n, rfl⟩ := hp
        cases hc : call n doc with
        | none => exact ⟨_, _, .fail hg hc, by simp⟩
        | some doc' =>
          obtain ⟨log, r, h1, h2⟩ := ih (i + 1) doc' (by have := hl _ _ _ hc; omega)
          exact ⟨_, _, .step hg hc h1, by simpa using h2⟩
      · exact ⟨_, _, .notCallable hg fun n e => hp ⟨n, e⟩, by simp⟩

/-- **C65.** If each class, when called, removes itself from the list, only every other class is called: those at positions 0,
2, 4, …; the others stay in the list. -/
theorem C65_removing (call : Nat → V → Option V) (field : Str)
    (hl : ∀ n d (ms : List Nat), listedIn d field = ms.map .proc → n ∈ ms →
      ∃ d', call n d = some d' ∧ listedIn d' field = (ms.erase n).map .proc)
    (doc : V) (ns : List Nat) (hn : ns.Nodup) (hd : listedIn doc field = ns.map .proc) :
    ∃ log d, Iterates call field 0 doc log (some d) ∧ log.map (·.1) = evens ns ∧ listedIn d field = (odds ns).map .proc := by
  suffices ∀ (rest before : List Nat) doc, (before ++ rest).Nodup → listedIn doc field = (before ++ rest).map .proc →
      ∃ log d, Iterates call field before.length doc log (some d) ∧ log.map (·.1) = evens rest ∧
        listedIn d field = (before ++ odds rest).map .proc by
    simpa using this ns [] doc (by simpa using hn) (by simpa using hd)
  intro rest
  induction rest using evens.induct with
  | case1 =>
    intro before doc _ hd
    exact ⟨[], doc, .done (by simp [hd]), rfl, hd⟩
  | case2 a =>
    intro before doc hn hd
    have ha : a ∉ before := by simp only [List.nodup_append, List.mem_singleton] at hn; exact fun h => hn.2.2 a h a rfl rfl
    obtain ⟨d', hc, he⟩ := hl a doc _ hd (by simp)
    rw [List.erase_append_right _ ha] at he
    simp only [List.erase_cons_head, List.append_nil] at he
    exact ⟨[(a, doc)], d', .step (by simp [hd]) hc (.done (by simp [he])), rfl, by simpa [odds] using he⟩
  | case3 a b l ih =>
    intro before doc hn hd
    have ha : a ∉ before := by
      simp only [List.nodup_append] at hn; exact fun h => hn.2.2 a h a (by simp) rfl
    obtain ⟨d', hc, he⟩ := hl a doc _ hd (by simp)
    rw [List.erase_append_right _ ha] at he
    simp only [List.erase_cons_head] at he
    have hn' : ((before ++ [b]) ++ l).Nodup := by
      refine List.Nodup.sublist ?_ hn
      simp only [List.append_assoc, List.singleton_append]
      exact List.Sublist.append_left (List.sublist_cons_self _ _) _
    obtain ⟨log, d, h1, h2, h3⟩ := ih (before ++ [b]) d' hn' (by simpa using he)
    refine ⟨(a, doc) :: log, d, .step (by simp [hd]) hc (by simpa using h1), by simp [evens, h2], by simpa [odds] using h3⟩

/-- **C65.** Validators that a converter adds to `extra_validators` are called: if validators only look at the document, a
document that is made is accepted by all the validators that are in its list at the end. -/
theorem C65_checked (call : Nat → V → Option V) (doc : V) (log : List (Nat × V)) (d : V) (h : LiveProcessed call doc log (some d))
    (hv : ∀ n e e', .proc n ∈ listedIn e p!"extra_validators" → call n e = some e' → e' = e) (p : V)
    (hp : p ∈ listedIn d p!"extra_validators") : ∃ n, p = .proc n ∧ call n d = some d := by
  cases h with
  | ran _ h =>
    suffices ∀ field i e log r, Iterates call field i e log r → field = p!"extra_validators" → r = some d →
        e = d ∧ ∀ (j : Nat) p, i ≤ j → (listedIn d field)[j]? = some p → ∃ n, p = .proc n ∧ call n d = some d by
      obtain ⟨j, hj⟩ := List.getElem?_of_mem hp
      exact (this _ 0 _ _ _ h rfl rfl).2 j p (by omega) hj
    clear h hp
    intro field i e log r h hf
    subst hf
    induction h with
    | done h =>
      rintro ⟨⟩
      exact ⟨rfl, fun j p hij hj => absurd (List.getElem?_eq_some_iff.1 hj).1 (by omega)⟩
    | @step i _ _ _ _ _ h1 hc _ ih =>
      intro hr
      obtain ⟨rfl, h3⟩ := ih hr
      have := hv _ _ _ (List.mem_of_getElem? h1) hc
      subst this
      refine ⟨rfl, fun j p hij hj => ?_⟩
      by_cases hj' : j = i
      · subst hj'
        rw [h1] at hj; cases hj
        exact ⟨_, rfl, hc⟩
      · exact h3 j p (by omega) hj
    | fail => nofun
    | notCallable => nofun

/-! ### Construction -/

/-- **C65.** If no processor changes the two lists, everything is as C32 says: the same calls, the same outcome. -/
theorem C65_same (E : Env) (hl : ∀ n doc doc', E.call n doc = some doc' →
      listedIn doc' p!"extra_converters" = listedIn doc p!"extra_converters" ∧
      listedIn doc' p!"extra_validators" = listedIn doc p!"extra_validators") (doc : V) (log : List (Nat × V)) (r : Option V) :
    LiveProcessed E.call doc log r ↔ runProcessors E doc = (log, r) := by
  have hc := C65_unchanged E.call p!"extra_converters" fun n e e' h => (hl n e e' h).1
  have hv := C65_unchanged E.call p!"extra_validators" fun n e e' h => (hl n e e' h).2
  unfold runProcessors
  rw [listedIn_eq]
  constructor
  · intro h
    cases h with
    | converterFailed h => rw [(runs_iff E).1 ((hc _ _ _).1 h)]
    | ran h h' => simp only [(runs_iff E).1 ((hc _ _ _).1 h), listedIn_eq, (runs_iff E).1 ((hv _ _ _).1 h')]
  · intro h
    split at h
    · rename_i h1; cases h; exact .converterFailed ((hc _ _ _).2 ((runs_iff E).2 h1))
    · rename_i h1
      cases h
      exact .ran ((hc _ _ _).2 ((runs_iff E).2 h1)) ((hv _ _ _).2 ((runs_iff E).2 (by rw [listedIn_eq])))

/-- **C65**, construction: `AsyncAPI3.model_validate` comes to an end exactly if the fields are not right, and then no
processor is called, or the processors, run on the document with these fields, come to an end; the outcome is theirs. -/
theorem C65_build (E : Env) (d : List (Str × V)) (log : List (Nat × V)) (r : Option V) :
    (∃ k, Live.build E k (.dict d) = some (log, r)) ↔
      ((∀ i, ¬ FieldsRight E d i) ∧ log = [] ∧ r = none) ∨ ∃ i, FieldsRight E d i ∧ LiveProcessed E.call i log r := by
  unfold Live.build
  cases hv : validate (idle E) .AsyncAPI3 (.dict d) with
  | none =>
    have hno : ∀ i, ¬ FieldsRight E d i := by
      intro i h
      rw [← validate_idle, hv] at h
      cases h
    simp only [exists_const, Option.some.injEq, Prod.mk.injEq]
    constructor
    · rintro ⟨rfl, rfl⟩; exact .inl ⟨hno, rfl, rfl⟩
    · rintro (⟨_, rfl, rfl⟩ | ⟨i, h, _⟩)
      · exact ⟨rfl, rfl⟩
      · exact absurd h (hno i)
  | some i =>
    have hi := (validate_idle E d i).1 hv
    rw [C65_exact]
    constructor
    · exact fun h => .inr ⟨i, hi, h⟩
    · rintro (⟨h, _⟩ | ⟨j, h1, h2⟩)
      · exact absurd hi (h i)
      · have := (validate_idle E d j).2 h1
        rw [hv] at this
        cases this
        exact h2

/-! ### Documents and processors that meet the assumptions -/

/-- Change a list. -/
def onList (f : List V → List V) : V → V
  | .list l => .list (f l)
  | v => v

/-- Change the list in a field of the document, in place. -/
def editList (field : Str) (f : List V → List V) : V → V
  | .inst c fs ex set => .inst c (fs.map fun e => if e.1 = field then (e.1, onList f e.2) else e) ex set
  | v => v

theorem lookup_edit (field : Str) (f : List V → List V) (fs : List (Str × V)) :
    lookup field (fs.map fun e => if e.1 = field then (e.1, onList f e.2) else e) = (lookup field fs).map (onList f) := by
  induction fs with
  | nil => rfl
  | cons e fs ih =>
    obtain ⟨k, v⟩ := e
    by_cases he : k = field
    · subst he; simp [lookup]
    · simpa [lookup, he] using ih

theorem lookup_unedited (field k : Str) (f : List V → List V) (fs : List (Str × V)) (hk : k ≠ field) :
    lookup k (fs.map fun e => if e.1 = field then (e.1, onList f e.2) else e) = lookup k fs := by
  induction fs with
  | nil => rfl
  | cons e fs ih =>
    obtain ⟨j, v⟩ := e
    by_cases he : j = field
    · subst he; simpa [lookup, Ne.symm hk] using ih
    · simp only [List.map_cons, he, if_false, lookup, ih]

theorem listed_edit {field : Str} {f : List V → List V} {doc : V} (h : listedIn doc field ≠ []) :
    listedIn (editList field f doc) field = f (listedIn doc field) := by
  unfold listedIn at h ⊢
  cases doc with
  | inst c fs ex set =>
    simp only [V.attr, editList, lookup_edit] at h ⊢
    cases hl : lookup field fs with
    | none => rw [hl] at h; exact absurd rfl h
    | some v =>
      rw [hl] at h
      cases v with
      | list l => rfl
      | _ => exact absurd rfl h
  | _ => exact absurd rfl h

/-- `l.remove(cls)`, of Python. -/
def removeFirst (n : Nat) : List V → List V
  | [] => []
  | .proc m :: l => if m = n then l else .proc m :: removeFirst n l
  | p :: l => p :: removeFirst n l

theorem removeFirst_map (n : Nat) (ms : List Nat) : removeFirst n (ms.map .proc) = (ms.erase n).map .proc := by
  induction ms with
  | nil => rfl
  | cons m ms ih =>
    by_cases h : m = n
    · subst h; simp [removeFirst]
    · simp [removeFirst, h, List.erase_cons, ih]

/-- Converters that remove themselves from the list. -/
def removing (n : Nat) (doc : V) : Option V := some (editList p!"extra_converters" (removeFirst n) doc)

/-- Converters that put themselves at the end of the list. -/
def adding (n : Nat) (doc : V) : Option V := some (editList p!"extra_converters" (· ++ [.proc n]) doc)

theorem removing_removes (n : Nat) (d : V) (ms : List Nat) (h : listedIn d p!"extra_converters" = ms.map .proc) (hn : n ∈ ms) :
    ∃ d', removing n d = some d' ∧ listedIn d' p!"extra_converters" = (ms.erase n).map .proc := by
  refine ⟨_, rfl, ?_⟩
  rw [listed_edit, h, removeFirst_map]
  rw [h]
  intro e
  rw [List.map_eq_nil_iff] at e
  subst e
  cases hn

/-- A document with the converters 0, 1 and 2. -/
def threeInput : List (Str × V) := [(p!"info", .dict [(p!"title", .str p!"t"), (p!"version", .str p!"1")]),
  (p!"extra_converters", .list [.proc 0, .proc 1, .proc 2])]

def three : V := (validate (idle plainEnv) .AsyncAPI3 (.dict threeInput)).getD .none

theorem three_lists : listedIn three p!"extra_converters" = [0, 1, 2].map .proc := by rfl

/-- Of the three, 0 and 2 are called; 1 stays in the list. -/
example : ∃ log d, Iterates removing p!"extra_converters" 0 three log (some d) ∧ log.map (·.1) = [0, 2] ∧
    listedIn d p!"extra_converters" = [.proc 1] :=
  C65_removing removing _ removing_removes three [0, 1, 2] (by decide) three_lists

/-- If they add themselves, there is no end. -/
example : ¬ ∃ log r, Iterates adding p!"extra_converters" 0 three log r := by
  refine C65_endless adding _ (fun d => ∀ p ∈ listedIn d p!"extra_converters", ∃ n, p = .proc n) (fun d hd p hp => ?_) three
    (by rw [three_lists]; simp) (by rw [three_lists]; simp)
  obtain ⟨n, rfl⟩ := hd p hp
  have he := listed_edit (f := (· ++ [.proc n])) (List.ne_nil_of_mem hp)
  refine ⟨n, _, rfl, rfl, ?_, ?_⟩
  · rw [he]
    intro q hq
    rcases List.mem_append.1 hq with hq | hq
    · exact hd q hq
    · rw [List.mem_singleton] at hq; exact ⟨n, hq⟩
  · rw [he]; simp

/-- Converter 0 adds converter 5. -/
def adds5 (n : Nat) (doc : V) : Option V := if n = 0 then some (editList p!"extra_converters" (· ++ [.proc 5]) doc) else some doc

theorem adds5_prefix (n : Nat) (d d' : V) (h : adds5 n d = some d') : listedIn d p!"extra_converters" <+: listedIn d' p!"extra_converters" := by
  unfold adds5 at h
  split at h <;> cases h
  · by_cases hd : listedIn d p!"extra_converters" = []
    · rw [hd]; exact List.nil_prefix
    · rw [listed_edit hd]; exact List.prefix_append _ _
  · exact List.prefix_rfl

/-- It is called in the same run. -/
example : ∃ log d, Iterates adds5 p!"extra_converters" 0 three log (some d) ∧ log.map (fun e => V.proc e.1) = listedIn d p!"extra_converters" ∧
    log.map (·.1) = [0, 1, 2, 5] := by
  obtain ⟨d, hd⟩ : ∃ d, d = editList p!"extra_converters" (· ++ [.proc 5]) three := ⟨_, rfl⟩
  have hl : listedIn d p!"extra_converters" = [.proc 0, .proc 1, .proc 2, .proc 5] := by
    rw [hd, listed_edit (by rw [three_lists]; simp), three_lists]; rfl
  have h : Iterates adds5 p!"extra_converters" 0 three _ (some d) :=
    .step (n := 0) (by rw [three_lists]; rfl) (by rw [hd]; rfl) (.step (n := 1) (by rw [hl]; rfl) rfl (.step (n := 2) (by rw [hl]; rfl) rfl
      (.step (n := 5) (by rw [hl]; rfl) rfl (.done (by rw [hl]; decide)))))
  exact ⟨_, d, h, C65_appended adds5 _ adds5_prefix _ _ _ h, rfl⟩

/-- The claim of C32 for all processors that do not assign to the document: each converter is called. -/
def C65_Claim : Prop := ∀ (call : Nat → V → Option V) (doc : V) (log : List (Nat × V)) (d : V), LiveProcessed call doc log (some d) →
  ∀ p ∈ listedIn doc p!"extra_converters", ∃ e ∈ log, p = .proc e.1

/-- **C65.** It does not hold if converters remove themselves from the list. -/
theorem C65_refuted : ¬ C65_Claim := by
  intro h
  obtain ⟨log, d, h1, h2, h3⟩ := C65_removing removing _ removing_removes three [0, 1, 2] (by decide) three_lists
  have hv : ∀ doc : V, listedIn doc p!"extra_validators" = [] → Iterates removing p!"extra_validators" 0 doc [] (some doc) :=
    fun doc h => .done (by simp [h])
  have hd : listedIn d p!"extra_validators" = [] := by
    suffices ∀ field i doc log r, Iterates removing field i doc log r → listedIn doc p!"extra_validators" = [] → ∀ d, r = some d →
      listedIn d p!"extra_validators" = [] from this _ _ _ _ _ h1 (by rfl) d rfl
    intro field i doc log r h
    induction h with
    | done => rintro hd _ ⟨⟩; exact hd
    | @step _ doc _ _ _ _ _ hc _ ih =>
      intro hd
      refine ih ?_
      cases hc
      unfold listedIn at hd ⊢
      cases doc with
      | inst c fs ex set =>
        simp only [V.attr, editList] at hd ⊢
        rw [lookup_unedited]
        · exact hd
        · decide
      | _ => exact hd
    | fail => nofun
    | notCallable => nofun
  obtain ⟨e, he, hp⟩ := h removing three _ d (.ran h1 (hv d hd)) (.proc 1) (by rw [three_lists]; simp)
  have : e.1 ∈ evens [0, 1, 2] := h2 ▸ List.mem_map.2 ⟨e, by simpa using he, rfl⟩
  rw [← V.proc.inj hp] at this
  revert this
  simp [evens]

end Verif.Props
