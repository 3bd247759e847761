import Verif.Lemmas.Objects
import Verif.Props.Live
/-!
# C69: processors that assign to the document and change its lists in place
-/
namespace Verif.Props
open Verif Verif.Spec Verif.Pyd Verif.Gen Verif.Mutate Verif.Reenter

/-- **C69.** What the interpreter does, given enough steps, is what the specification says. -/
theorem C69_exact (E : Env) (P : Actors) (t : Job P.State) (w : World P.Memory) (log : List (Nat × V)) (w' : World P.Memory)
    (ok : Bool) : (∃ k, Objects.exec E P k t w = some (log, w', ok)) ↔ Plays (prepared E) (Good E) P t w log w' ok :=
  ⟨fun ⟨k, h⟩ => goes_of_exec E P k t w log w' ok h, exec_of_goes E P⟩

/-- **C69.** There is at most one way it can end. -/
theorem C69_determined (E : Env) (P : Actors) (t : Job P.State) (w : World P.Memory) (log log' : List (Nat × V))
    (w1 w2 : World P.Memory) (ok ok' : Bool) (h : Plays (prepared E) (Good E) P t w log w1 ok)
    (h' : Plays (prepared E) (Good E) P t w log' w2 ok') : log = log' ∧ w1 = w2 ∧ ok = ok' :=
  goes_unique h h'

/-! ### List objects keep their identity -/

theorem proper_assigned {M : Type} {w w' : World M} {name : Str} {new : V} (hw : Proper w) (h : Assigned w name new w') :
    Proper w' ∧ w.made ≤ w'.made := by
  obtain ⟨h1, h2, h3⟩ := hw
  have hne : ¬ (p!"extra_converters" : Str) = p!"extra_validators" := by decide
  have hne' : ¬ (p!"extra_validators" : Str) = p!"extra_converters" := by decide
  obtain ⟨-, -, a3, a4, a5, -⟩ := h
  by_cases e1 : name = p!"extra_converters"
  · subst e1
    rw [if_pos rfl] at a3
    rw [if_neg hne] at a4
    rw [if_pos (.inl rfl)] at a5
    exact ⟨⟨by omega, by omega, by omega⟩, by omega⟩
  · by_cases e2 : name = p!"extra_validators"
    · subst e2
      rw [if_neg hne'] at a3
      rw [if_pos rfl] at a4
      rw [if_pos (.inr rfl)] at a5
      exact ⟨⟨by omega, by omega, by omega⟩, by omega⟩
    · rw [if_neg e1] at a3
      rw [if_neg e2] at a4
      rw [if_neg (by rintro (h | h); exacts [e1 h, e2 h])] at a5
      exact ⟨⟨by omega, by omega, by omega⟩, by omega⟩

/-- Two different objects stay the attributes. -/
theorem goes_proper {takes good} {P : Actors} {t : Job P.State} {w : World P.Memory} {l : List (Nat × V)} {w' : World P.Memory}
    {ok : Bool} (h : Plays takes good P t w l w' ok) (hw : Proper w) : Proper w' ∧ w.made ≤ w'.made := by
  induction h with
  | stop => exact ⟨⟨hw.1, hw.2, hw.3⟩, Nat.le_refl _⟩
  | assigns _ _ _ ih1 ih2 =>
    obtain ⟨h1, h2⟩ := ih1 ⟨hw.1, hw.2, hw.3⟩
    obtain ⟨h3, h4⟩ := ih2 h1
    exact ⟨h3, Nat.le_trans h2 h4⟩
  | refused => exact ⟨hw, Nat.le_refl _⟩
  | taken _ ha _ ih =>
    obtain ⟨h1, h2⟩ := proper_assigned hw ha
    obtain ⟨h3, h4⟩ := ih h1
    exact ⟨h3, Nat.le_trans h2 h4⟩
  | bad => exact ⟨hw, Nat.le_refl _⟩
  | converterFailed _ _ ih => exact ih hw
  | ran _ _ _ ih1 ih2 =>
    obtain ⟨h1, h2⟩ := ih1 hw
    obtain ⟨h3, h4⟩ := ih2 h1
    exact ⟨h3, Nat.le_trans h2 h4⟩
  | done => exact ⟨hw, Nat.le_refl _⟩
  | next _ _ _ ih1 ih2 =>
    obtain ⟨h1, h2⟩ := ih1 hw
    obtain ⟨h3, h4⟩ := ih2 h1
    exact ⟨h3, Nat.le_trans h2 h4⟩
  | failed _ _ ih => exact ih hw
  | notCallable => exact ⟨hw, Nat.le_refl _⟩

theorem items_converters {M : Type} (w : World M) : w.items w.converters = (w.doc.attr p!"extra_converters").items := by
  unfold World.items; rw [if_pos rfl]

theorem items_validators {M : Type} {w : World M} (hw : Proper w) :
    w.items w.validators = (w.doc.attr p!"extra_validators").items := by
  unfold World.items; rw [if_neg hw.apart.symm, if_pos rfl]

theorem listsOf_prepared {E : Env} {cs vs doc : V} (h : ListsOf cs vs doc) {name : Str} {x new : V}
    (hp : prepared E doc name x = some new) : ∃ cs' vs', ListsOf cs' vs' new ∧ (name ≠ p!"extra_converters" → cs' = cs) ∧
      (name ≠ p!"extra_validators" → vs' = vs) := by
  obtain ⟨fs, ex, set, rfl, h1, h2, h3, h4⟩ := h
  obtain ⟨v, -, -, rfl⟩ := prepared_cases hp
  have hfield : ∀ k, k = p!"extra_converters" ∨ k = p!"extra_validators" →
      ∃ f ∈ (classDef Cls.AsyncAPI3).fields, f.name = k := by
    intro k hk
    have h1 : (classDef Cls.AsyncAPI3).fields.any (fun f => f.name = p!"extra_converters") = true := by decide
    have h2 : (classDef Cls.AsyncAPI3).fields.any (fun f => f.name = p!"extra_validators") = true := by decide
    rcases hk with rfl | rfl
    · simpa using h1
    · simpa using h2
  have hattr : ∀ k, k = p!"extra_converters" ∨ k = p!"extra_validators" → lookup k ex = none → name ≠ k →
      (rebuild .AsyncAPI3 (dictSet (update fs ex) name v) (addSet set name)).attr k = (V.inst .AsyncAPI3 fs ex set).attr k := by
    intro k hk he hn
    obtain ⟨f, hf, rfl⟩ := hfield k hk
    rw [attr_rebuild hf, lookup_dictSet, if_neg hn.symm, lookup_update, he]; rfl
  refine ⟨_, _, ⟨_, _, _, rfl, rfl, rfl, ?_, ?_⟩, ?_, ?_⟩
  · exact (lookup_filter_key (fun k => (fieldOf .AsyncAPI3 k).isNone) _ _).trans (if_neg (by decide))
  · exact (lookup_filter_key (fun k => (fieldOf .AsyncAPI3 k).isNone) _ _).trans (if_neg (by decide))
  · intro hn; exact (hattr _ (.inl rfl) h3 hn).trans h1
  · intro hn; exact (hattr _ (.inr rfl) h4 hn).trans h2

/-- Assigning changes no list object there is. -/
theorem items_assigned {E : Env} {M : Type} {w w' : World M} {name : Str} {x new cs vs : V} (hw : Proper w)
    (hl : ListsOf cs vs w.doc) (hp : prepared E w.doc name x = some new) (h : Assigned w name new w') (j : Nat) (hj : j < w.made) :
    w'.items j = w.items j := by
  obtain ⟨cs', vs', hn, hc, hv⟩ := listsOf_prepared hl hp
  have hne : ¬ (p!"extra_converters" : Str) = p!"extra_validators" := by decide
  have hne' : ¬ (p!"extra_validators" : Str) = p!"extra_converters" := by decide
  obtain ⟨_, _, _, -, n1, n2, -, -⟩ := hn
  obtain ⟨_, _, _, -, o1, o2, -, -⟩ := hl
  obtain ⟨p1, p2, p3⟩ := hw
  obtain ⟨a1, -, a3, a4, a5, a6⟩ := h
  unfold World.items
  rw [a1, n1, n2, o1, o2, a3, a4, a6 j]
  by_cases e1 : name = p!"extra_converters"
  · subst e1
    have := hv hne
    subst this
    simp only [if_true, true_and, hne, false_and, or_false]
    have hjm : ¬ j = w.made := by omega
    rw [if_neg hjm]
    by_cases ec : j = w.converters
    · subst ec
      simp [p1, items_converters, o1]
    · simp [ec]
  · have := hc e1
    subst this
    by_cases e2 : name = p!"extra_validators"
    · subst e2
      simp only [if_true, hne', if_false, true_and, false_and, false_or]
      have hjm : ¬ j = w.made := by omega
      by_cases ec : j = w.converters
      · rw [if_pos ec, if_pos ec]
      · rw [if_neg ec, if_neg ec, if_neg hjm]
        by_cases ev : j = w.validators
        · subst ev
          rw [if_pos rfl, if_pos rfl, items_validators ⟨p1, p2, p3⟩, o2]
        · rw [if_neg ev, if_neg ev]
    · have := hv e2
      subst this
      simp only [e1, e2, if_false, false_and, false_or]

/-! ### C62 is the case in which lists are not changed in place -/

theorem items_changed {M : Type} {w : World M} {st : Store M} {cs vs : V} (ho : st.others = w.others)
    (h : ListsOf cs vs w.doc) (h' : ListsOf cs vs st.doc) (j : Nat) : (w.changed st).items j = w.items j := by
  obtain ⟨_, _, _, -, n1, n2, -, -⟩ := h
  obtain ⟨_, _, _, -, o1, o2, -, -⟩ := h'
  unfold World.items World.changed
  simp only [o1, o2, n1, n2, ho]

/-- What is the same for a job here and a task there. -/
def Fits (P : Programs) (w : World (plainly P).Memory) : Job (plainly P).State → Task P.State → Prop
  | .body s, .body s' => s = s'
  | .assign name x, .assign name' x' => name = name' ∧ x = x'
  | .after, .after => True
  | .loop j i, .calls ps => j < w.made ∧ ps = (w.items j).drop i
  | _, _ => False

theorem act_plainly {P : Programs} (s : (plainly P).State) (w : World (plainly P).Memory) : (plainly P).act s w = match P.act s w.doc with
    | .stop d ok => .stop ⟨d, w.others, ()⟩ ok
    | .assign d name x next => .assign ⟨d, w.others, ()⟩ name x next := rfl

theorem goes_to_ends {E : Env} {P : Programs} (hP : KeepsLists P) {t : Job (plainly P).State} {w : World (plainly P).Memory} {l : List (Nat × V)}
    {w' : World (plainly P).Memory} {ok : Bool} (h : Plays (prepared E) (Good E) (plainly P) t w l w' ok) (hw : Proper w)
    (hl : ∃ cs vs, ListsOf cs vs w.doc) :
    (∀ t', Fits P w t t' → Ends (prepared E) (Good E) P t' w.doc l w'.doc ok) ∧ (∃ cs vs, ListsOf cs vs w'.doc) ∧
      ∀ j < w.made, w'.items j = w.items j := by
  induction h with
  | @stop s w st ok h =>
    obtain ⟨cs, vs, hl⟩ := hl
    have hk := hP cs vs s w.doc hl
    rw [act_plainly] at h
    cases ha : P.act s w.doc with
    | stop d ok' =>
      rw [ha] at h hk
      cases h
      refine ⟨?_, ⟨cs, vs, hk⟩, fun j _ => items_changed (st := ⟨d, w.others, ()⟩) rfl hl hk j⟩
      intro t' ht
      cases t' <;> simp only [Fits] at ht
      subst ht; exact .stop ha
    | assign => rw [ha] at h; cases h
  | @assigns s w st name x next l w1 ok l' w2 ok' h h1 h2 ih1 ih2 =>
    obtain ⟨cs, vs, hl⟩ := hl
    have hk := hP cs vs s w.doc hl
    rw [act_plainly] at h
    cases ha : P.act s w.doc with
    | stop d ok' => rw [ha] at h; cases h
    | assign d _ _ _ =>
      rw [ha] at h hk
      cases h
      have hw1 : Proper (w.changed ⟨d, w.others, ()⟩) := ⟨hw.1, hw.2, hw.3⟩
      obtain ⟨a1, a2, a3⟩ := ih1 hw1 ⟨cs, vs, hk⟩
      obtain ⟨p1, p2⟩ := goes_proper h1 hw1
      obtain ⟨b1, b2, b3⟩ := ih2 p1 a2
      refine ⟨?_, b2, fun j hj => ?_⟩
      · intro t' ht
        cases t' <;> simp only [Fits] at ht
        subst ht
        exact .assigns ha (a1 (.assign _ _) ⟨rfl, rfl⟩) (b1 (.body _) rfl)
      · rw [b3 j (Nat.lt_of_lt_of_le hj p2), a3 j hj]
        exact items_changed (st := ⟨d, w.others, ()⟩) rfl hl hk j
  | refused h =>
    refine ⟨?_, hl, fun _ _ => rfl⟩
    intro t' ht
    cases t' <;> simp only [Fits] at ht
    obtain ⟨rfl, rfl⟩ := ht
    exact .refused h
  | @taken w name x new w1 l w2 ok h ha h1 ih =>
    obtain ⟨cs, vs, hl⟩ := hl
    obtain ⟨p1, p2⟩ := proper_assigned hw ha
    obtain ⟨cs', vs', hn, -, -⟩ := listsOf_prepared hl h
    have hd := ha.doc
    obtain ⟨a1, a2, a3⟩ := ih p1 ⟨cs', vs', by rw [hd]; exact hn⟩
    refine ⟨?_, a2, fun j hj => ?_⟩
    · intro t' ht
      cases t' <;> simp only [Fits] at ht
      obtain ⟨rfl, rfl⟩ := ht
      have := a1 .after trivial
      rw [hd] at this
      exact .taken h this
    · rw [a3 j (Nat.lt_of_lt_of_le hj p2)]
      exact items_assigned hw hl h ha j hj
  | bad h =>
    refine ⟨?_, hl, fun _ _ => rfl⟩
    intro t' ht
    cases t' <;> simp only [Fits] at ht
    exact .bad h
  | @converterFailed w l w1 hg h1 ih =>
    obtain ⟨a1, a2, a3⟩ := ih hw hl
    refine ⟨?_, a2, a3⟩
    intro t' ht
    cases t' <;> simp only [Fits] at ht
    have := a1 (.calls _) ⟨hw.converters, rfl⟩
    rw [List.drop_zero, items_converters] at this
    exact .converterFailed hg (listed_processorsOf _) this
  | @ran w l w1 l' w2 ok hg h1 h2 ih1 ih2 =>
    obtain ⟨a1, a2, a3⟩ := ih1 hw hl
    obtain ⟨p1, p2⟩ := goes_proper h1 hw
    obtain ⟨b1, b2, b3⟩ := ih2 p1 a2
    refine ⟨?_, b2, fun j hj => (b3 j (Nat.lt_of_lt_of_le hj p2)).trans (a3 j hj)⟩
    intro t' ht
    cases t' <;> simp only [Fits] at ht
    have t1 := a1 (.calls _) ⟨hw.converters, rfl⟩
    have t2 := b1 (.calls _) ⟨p1.validators, rfl⟩
    rw [List.drop_zero, items_converters] at t1
    rw [List.drop_zero, items_validators p1] at t2
    exact .ran hg (listed_processorsOf _) t1 (listed_processorsOf _) t2
  | done h =>
    refine ⟨?_, hl, fun _ _ => rfl⟩
    intro t' ht
    cases t' <;> simp only [Fits] at ht
    obtain ⟨-, rfl⟩ := ht
    rw [List.drop_of_length_le h]
    exact .none
  | @next w j i n l w1 l' w2 ok hj h1 h2 ih1 ih2 =>
    obtain ⟨a1, a2, a3⟩ := ih1 hw hl
    obtain ⟨p1, p2⟩ := goes_proper h1 hw
    obtain ⟨b1, b2, b3⟩ := ih2 p1 a2
    refine ⟨?_, b2, fun j hj => (b3 j (Nat.lt_of_lt_of_le hj p2)).trans (a3 j hj)⟩
    intro t' ht
    cases t' <;> simp only [Fits] at ht
    obtain ⟨hlt, rfl⟩ := ht
    rw [drop_of_get hj]
    refine .next (a1 (.body _) rfl) (b1 (.calls _) ⟨Nat.lt_of_lt_of_le hlt p2, ?_⟩)
    rw [a3 _ hlt]
  | @failed w j i n l w1 hj h1 ih =>
    obtain ⟨a1, a2, a3⟩ := ih hw hl
    refine ⟨?_, a2, a3⟩
    intro t' ht
    cases t' <;> simp only [Fits] at ht
    obtain ⟨hlt, rfl⟩ := ht
    rw [drop_of_get hj]
    exact .failed (a1 (.body _) rfl)
  | notCallable hj hp =>
    refine ⟨?_, hl, fun _ _ => rfl⟩
    intro t' ht
    cases t' <;> simp only [Fits] at ht
    obtain ⟨-, rfl⟩ := ht
    rw [drop_of_get hj]
    exact .notCallable hp

theorem ends_to_goes {E : Env} {P : Programs} (hP : KeepsLists P) {t : Task P.State} {doc : V} {l : List (Nat × V)}
    {d : V} {ok : Bool} (h : Ends (prepared E) (Good E) P t doc l d ok) :
    ∀ (w : World (plainly P).Memory) (t' : Job (plainly P).State), w.doc = doc → Fits P w t' t → Proper w → (∃ cs vs, ListsOf cs vs w.doc) →
      ∃ w', Plays (prepared E) (Good E) (plainly P) t' w l w' ok ∧ w'.doc = d := by
  induction h with
  | stop ha =>
    rintro w t' rfl ht hw hl
    cases t' <;> simp only [Fits] at ht
    subst ht
    exact ⟨_, .stop (st := ⟨_, w.others, ()⟩) (by rw [act_plainly, ha]), rfl⟩
  | @assigns s doc d _ _ _ _ _ _ _ _ _ ha h1 h2 ih1 ih2 =>
    rintro w t' rfl ht hw ⟨cs, vs, hl⟩
    cases t' <;> simp only [Fits] at ht
    subst ht
    have hk := hP cs vs _ w.doc hl |> (ha ▸ ·)
    have hw1 : Proper (w.changed ⟨d, w.others, ()⟩) := ⟨hw.1, hw.2, hw.3⟩
    obtain ⟨w1, g1, e1⟩ := ih1 (w.changed ⟨d, w.others, ()⟩) (.assign _ _) rfl ⟨rfl, rfl⟩ hw1 ⟨cs, vs, hk⟩
    obtain ⟨-, a2, -⟩ := goes_to_ends hP g1 hw1 ⟨cs, vs, hk⟩
    obtain ⟨p1, -⟩ := goes_proper g1 hw1
    obtain ⟨w2, g2, e2⟩ := ih2 w1 (.body _) e1 rfl p1 a2
    exact ⟨w2, .assigns (st := ⟨d, w.others, ()⟩) (by rw [act_plainly, ha]) g1 g2, e2⟩
  | refused ha =>
    rintro w t' rfl ht hw hl
    cases t' <;> simp only [Fits] at ht
    obtain ⟨rfl, rfl⟩ := ht
    exact ⟨_, .refused ha, rfl⟩
  | @taken doc name x new l d ok ha h1 ih =>
    rintro w t' rfl ht hw ⟨cs, vs, hl⟩
    cases t' <;> simp only [Fits] at ht
    obtain ⟨rfl, rfl⟩ := ht
    rename_i nm _
    have hi := (assigned_iff w nm new _).2 rfl
    obtain ⟨cs', vs', hn, -, -⟩ := listsOf_prepared hl ha
    obtain ⟨w1, g1, e1⟩ := ih _ .after hi.doc trivial (proper_assigned hw hi).1 ⟨cs', vs', by rw [hi.doc]; exact hn⟩
    exact ⟨w1, .taken ha hi g1, e1⟩
  | bad hg =>
    rintro w t' rfl ht hw hl
    cases t' <;> simp only [Fits] at ht
    exact ⟨_, .bad hg, rfl⟩
  | converterFailed hg hc _ ih =>
    rintro w t' rfl ht hw hl
    cases t' <;> simp only [Fits] at ht
    obtain ⟨w1, g1, e1⟩ := ih w (.loop w.converters 0) rfl
      ⟨hw.converters, by rw [List.drop_zero, items_converters]; exact (listed_eq hc).symm⟩ hw hl
    exact ⟨w1, .converterFailed hg g1, e1⟩
  | ran hg hc _ hv _ ih1 ih2 =>
    rintro w t' rfl ht hw hl
    cases t' <;> simp only [Fits] at ht
    obtain ⟨w1, g1, e1⟩ := ih1 w (.loop w.converters 0) rfl
      ⟨hw.converters, by rw [List.drop_zero, items_converters]; exact (listed_eq hc).symm⟩ hw hl
    obtain ⟨-, a2, -⟩ := goes_to_ends hP g1 hw hl
    obtain ⟨p1, -⟩ := goes_proper g1 hw
    obtain ⟨w2, g2, e2⟩ := ih2 w1 (.loop w1.validators 0) e1
      ⟨p1.validators, by rw [List.drop_zero, items_validators p1, e1]; exact (listed_eq hv).symm⟩ p1 a2
    exact ⟨w2, .ran hg g1 g2, e2⟩
  | none =>
    rintro w t' rfl ht hw hl
    cases t' <;> simp only [Fits] at ht
    exact ⟨_, .done (List.drop_eq_nil_iff.1 ht.2.symm), rfl⟩
  | @next n ps _ _ _ _ _ _ _ _ ih1 ih2 =>
    rintro w t' rfl ht hw hl
    cases t' with
    | loop j i =>
      simp only [Fits] at ht
      obtain ⟨hlt, he⟩ := ht
      have hj : (w.items j)[i]? = some (.proc n) := by
        have := congrArg (·[0]?) he
        simpa [eq_comm] using this
      rw [drop_of_get hj] at he
      obtain ⟨w1, g1, e1⟩ := ih1 w (.body ((plainly P).start n)) rfl rfl hw hl
      obtain ⟨-, a2, a3⟩ := goes_to_ends hP g1 hw hl
      obtain ⟨p1, p2⟩ := goes_proper g1 hw
      obtain ⟨w2, g2, e2⟩ := ih2 w1 (.loop j (i + 1)) e1
        ⟨Nat.lt_of_lt_of_le hlt p2, by rw [a3 j hlt]; exact (List.cons.inj he).2⟩ p1 a2
      exact ⟨w2, .next hj g1 g2, e2⟩
    | _ => simp only [Fits] at ht
  | @failed n _ _ _ _ _ ih =>
    rintro w t' rfl ht hw hl
    cases t' with
    | loop j i =>
      simp only [Fits] at ht
      obtain ⟨hlt, he⟩ := ht
      have hj : (w.items j)[i]? = some (.proc n) := by
        have := congrArg (·[0]?) he
        simpa [eq_comm] using this
      obtain ⟨w1, g1, e1⟩ := ih w (.body ((plainly P).start n)) rfl rfl hw hl
      exact ⟨w1, .failed hj g1, e1⟩
    | _ => simp only [Fits] at ht
  | notCallable hp =>
    rintro w t' rfl ht hw hl
    cases t' with
    | loop j i =>
      simp only [Fits] at ht
      obtain ⟨hlt, he⟩ := ht
      have hj := congrArg (·[0]?) he
      exact ⟨w, .notCallable (by simpa [eq_comm] using hj) hp, rfl⟩
    | _ => simp only [Fits] at ht

/-- **C69.** If no processor changes the two lists in place, remembers anything or keeps other lists, everything is as C62
says: also if it assigns new lists. -/
theorem C69_in_place (E : Env) (P : Programs) (hP : KeepsLists P) (w : World (plainly P).Memory) (hw : Proper w)
    (hl : ∃ cs vs, ListsOf cs vs w.doc) (log : List (Nat × V)) (d : V) (ok : Bool) :
    (∃ w', Plays (prepared E) (Good E) (plainly P) .after w log w' ok ∧ w'.doc = d) ↔
      Ends (prepared E) (Good E) P .after w.doc log d ok := by
  constructor
  · rintro ⟨w', h, rfl⟩
    exact (goes_to_ends hP h hw hl).1 .after trivial
  · intro h
    exact ends_to_goes hP h w .after rfl trivial hw hl

/-! ### C65 is the case in which processors do not assign -/

theorem quiet_body {E : Env} {P : Programs} (hq : Quiet P) {n : Nat} {w w' : World (plainly P).Memory} {l : List (Nat × V)}
    {ok : Bool} (h : Plays (prepared E) (Good E) (plainly P) (.body ((plainly P).start n)) w l w' ok) :
    l = [] ∧ w'.converters = w.converters ∧ w'.validators = w.validators ∧
      callOf P n w.doc = if ok then some w'.doc else none := by
  obtain ⟨d, ok', ha⟩ := hq n w.doc
  have ha' : P.act ((plainly P).start n) w.doc = .stop d ok' := ha
  cases h with
  | stop h =>
    rw [act_plainly, ha'] at h
    cases h
    refine ⟨rfl, rfl, rfl, ?_⟩
    unfold callOf
    rw [ha]
    cases ok <;> rfl
  | assigns h _ _ => rw [act_plainly, ha'] at h; cases h

theorem quiet_called {E : Env} {P : Programs} (hq : Quiet P) (n : Nat) (w : World (plainly P).Memory) :
    (∀ d, callOf P n w.doc = some d → Plays (prepared E) (Good E) (plainly P) (.body ((plainly P).start n)) w []
      (w.changed ⟨d, w.others, ()⟩) true) ∧
    (callOf P n w.doc = none → ∃ d, Plays (prepared E) (Good E) (plainly P) (.body ((plainly P).start n)) w []
      (w.changed ⟨d, w.others, ()⟩) false) := by
  obtain ⟨d, ok, ha⟩ := hq n w.doc
  have hact : (plainly P).act ((plainly P).start n) w = .stop ⟨d, w.others, ()⟩ ok := by
    rw [act_plainly, show (plainly P).start n = P.start n from rfl, ha]
  unfold callOf
  rw [ha]
  cases ok with
  | true => exact ⟨fun d' h => by cases h; exact .stop hact, fun h => by cases h⟩
  | false => exact ⟨fun d' h => (by cases h), fun _ => ⟨d, .stop hact⟩⟩

/-- The list object `j` is the attribute `field`. -/
def At {M : Type} (w : World M) (j : Nat) (field : Str) : Prop :=
  j = w.converters ∧ field = p!"extra_converters" ∨ j = w.validators ∧ j ≠ w.converters ∧ field = p!"extra_validators"

theorem at_items {M : Type} {w : World M} {j : Nat} {field : Str} (h : At w j field) : w.items j = listedIn w.doc field := by
  have : ∀ v : V, v.items = match v with | .list l => l | _ => [] := fun v => by cases v <;> rfl
  rcases h with ⟨rfl, rfl⟩ | ⟨rfl, h, rfl⟩
  · rw [items_converters, this]; rfl
  · unfold World.items; rw [if_neg h, if_pos rfl, this]; rfl

theorem goes_iterates {E : Env} {P : Programs} (hq : Quiet P) {t : Job (plainly P).State} {w w' : World (plainly P).Memory}
    {l : List (Nat × V)} {ok : Bool} (h : Plays (prepared E) (Good E) (plainly P) t w l w' ok) {j i : Nat}
    (ht : t = .loop j i) {field : Str} (ha : At w j field) :
    w'.converters = w.converters ∧ w'.validators = w.validators ∧
      Iterates (callOf P) field i w.doc l (if ok then some w'.doc else none) := by
  induction h generalizing i with
  | done h => cases ht; exact ⟨rfl, rfl, .done (by rw [← at_items ha]; exact h)⟩
  | next hj h1 h2 _ ih =>
    cases ht
    obtain ⟨rfl, e1, e2, hc⟩ := quiet_body hq h1
    have ha' := ha
    unfold At at ha'
    rw [← e1, ← e2] at ha'
    obtain ⟨i1, i2, i3⟩ := ih rfl ha'
    exact ⟨i1.trans e1, i2.trans e2, .step (by rw [← at_items ha]; exact hj) hc i3⟩
  | failed hj h1 _ =>
    cases ht
    obtain ⟨rfl, e1, e2, hc⟩ := quiet_body hq h1
    exact ⟨e1, e2, .fail (by rw [← at_items ha]; exact hj) hc⟩
  | notCallable hj hp => cases ht; exact ⟨rfl, rfl, .notCallable (by rw [← at_items ha]; exact hj) hp⟩
  | _ => cases ht

theorem iterates_goes {E : Env} {P : Programs} (hq : Quiet P) {field : Str} {i : Nat} {doc : V} {l : List (Nat × V)} {r : Option V}
    (h : Iterates (callOf P) field i doc l r) : ∀ (w : World (plainly P).Memory) (j : Nat), w.doc = doc → At w j field →
      ∃ w' ok, Plays (prepared E) (Good E) (plainly P) (.loop j i) w l w' ok ∧ r = if ok then some w'.doc else none := by
  induction h with
  | done h =>
    rintro w j rfl ha
    exact ⟨w, true, .done (by rw [at_items ha]; exact h), rfl⟩
  | @step i doc n doc' log r h hc _ ih =>
    rintro w j rfl ha
    have hb := (quiet_called (E := E) hq n w).1 _ hc
    obtain ⟨w', ok, hg, hr⟩ := ih (w.changed ⟨doc', w.others, ()⟩) j rfl ha
    exact ⟨w', ok, .next (l := []) (by rw [at_items ha]; exact h) hb hg, hr⟩
  | @fail i doc n h hc =>
    rintro w j rfl ha
    obtain ⟨d, hb⟩ := (quiet_called (E := E) hq n w).2 hc
    exact ⟨_, false, .failed (by rw [at_items ha]; exact h) hb, rfl⟩
  | notCallable h hp =>
    rintro w j rfl ha
    exact ⟨w, false, .notCallable (by rw [at_items ha]; exact h) hp, rfl⟩

/-- **C69.** If no processor assigns, remembers anything or keeps other lists, everything is as C65 says: also if it
changes the two lists in place. -/
theorem C69_unassigned (E : Env) (P : Programs) (hq : Quiet P) (w : World (plainly P).Memory) (hw : Proper w)
    (hg : Good E w.doc) (log : List (Nat × V)) (r : Option V) :
    (∃ w' ok, Plays (prepared E) (Good E) (plainly P) .after w log w' ok ∧ r = if ok then some w'.doc else none) ↔
      LiveProcessed (callOf P) w.doc log r := by
  constructor
  · rintro ⟨w', ok, h, rfl⟩
    cases h with
    | bad h => exact absurd hg h
    | converterFailed _ h => exact .converterFailed (goes_iterates hq h rfl (.inl ⟨rfl, rfl⟩)).2.2
    | @ran _ l w1 _ _ _ _ h1 h2 =>
      obtain ⟨e1, e2, h3⟩ := goes_iterates hq h1 rfl (.inl ⟨rfl, rfl⟩)
      exact .ran h3 (goes_iterates hq h2 rfl (.inr ⟨rfl, by rw [e1, e2]; exact hw.apart.symm, rfl⟩)).2.2
  · intro h
    cases h with
    | converterFailed h =>
      obtain ⟨w', ok, h1, h2⟩ := iterates_goes (E := E) hq h w w.converters rfl (.inl ⟨rfl, rfl⟩)
      cases ok with
      | true => cases h2
      | false => exact ⟨w', false, .converterFailed hg h1, rfl⟩
    | ran h h' =>
      obtain ⟨w1, ok, h1, h2⟩ := iterates_goes (E := E) hq h w w.converters rfl (.inl ⟨rfl, rfl⟩)
      cases ok with
      | false => cases h2
      | true =>
        cases h2
        obtain ⟨e1, e2, -⟩ := goes_iterates hq h1 rfl (.inl ⟨rfl, rfl⟩)
        obtain ⟨w2, ok, h3, h4⟩ := iterates_goes (E := E) hq h' w1 w1.validators rfl
          (.inr ⟨rfl, by rw [e1, e2]; exact hw.apart.symm, rfl⟩)
        exact ⟨w2, ok, .ran hg h1 h3, h4⟩

/-! ### A list that was replaced, and one that was emptied -/

/-- A list that is not in the document any more stays as it is, if nobody keeps it. -/
theorem dropped_list {takes good} {P : Actors} (hP : DropsLists P) {t : Job P.State} {w : World P.Memory}
    {l : List (Nat × V)} {w' : World P.Memory} {ok : Bool} (h : Plays takes good P t w l w' ok) (j : Nat) (hj : j < w.made)
    (hc : j ≠ w.converters) (hv : j ≠ w.validators) : w'.items j = w.items j ∧ j < w'.made ∧ j ≠ w'.converters ∧
      j ≠ w'.validators := by
  have hitems : ∀ w : World P.Memory, j ≠ w.converters → j ≠ w.validators → w.items j = w.others j := by
    intro w h1 h2; unfold World.items; rw [if_neg h1, if_neg h2]
  have key : w'.others j = w.others j ∧ j < w'.made ∧ j ≠ w'.converters ∧ j ≠ w'.validators := by
    induction h with
    | @stop s w st ok h =>
      have := hP s w
      rw [h] at this
      exact ⟨congrFun this j, hj, hc, hv⟩
    | @assigns s w st _ _ _ _ _ _ _ _ _ h _ _ ih1 ih2 =>
      have := hP s w
      rw [h] at this
      obtain ⟨a1, a2, a3, a4⟩ := ih1 hj hc hv
      obtain ⟨b1, b2, b3, b4⟩ := ih2 a2 a3 a4
      exact ⟨b1.trans (a1.trans (congrFun this j)), b2, b3, b4⟩
    | refused => exact ⟨rfl, hj, hc, hv⟩
    | @taken w name x new w1 _ _ _ _ ha _ ih =>
      obtain ⟨-, -, a3, a4, a5, a6⟩ := ha
      have hm : w.made ≤ w1.made := by rw [a5]; split <;> omega
      have h3 : j ≠ w1.converters := by rw [a3]; split <;> omega
      have h4 : j ≠ w1.validators := by rw [a4]; split <;> omega
      obtain ⟨b1, b2, b3, b4⟩ := ih (by omega) h3 h4
      refine ⟨?_, b2, b3, b4⟩
      rw [b1, a6 j, if_neg]
      rintro (⟨-, h⟩ | ⟨-, h⟩)
      exacts [hc h, hv h]
    | bad => exact ⟨rfl, hj, hc, hv⟩
    | converterFailed _ _ ih => exact ih hj hc hv
    | ran _ _ _ ih1 ih2 =>
      obtain ⟨a1, a2, a3, a4⟩ := ih1 hj hc hv
      obtain ⟨b1, b2, b3, b4⟩ := ih2 a2 a3 a4
      exact ⟨b1.trans a1, b2, b3, b4⟩
    | done => exact ⟨rfl, hj, hc, hv⟩
    | next _ _ _ ih1 ih2 =>
      obtain ⟨a1, a2, a3, a4⟩ := ih1 hj hc hv
      obtain ⟨b1, b2, b3, b4⟩ := ih2 a2 a3 a4
      exact ⟨b1.trans a1, b2, b3, b4⟩
    | failed _ _ ih => exact ih hj hc hv
    | notCallable => exact ⟨rfl, hj, hc, hv⟩
  refine ⟨?_, key.2⟩
  rw [hitems _ hc hv, hitems _ key.2.2.1 key.2.2.2]
  exact key.1

theorem loop_dropped {takes good} {P : Actors} (hP : DropsLists P) {t : Job P.State} {w : World P.Memory}
    {l : List (Nat × V)} {w' : World P.Memory} {ok : Bool} (h : Plays takes good P t w l w' ok) {j i : Nat} (ht : t = .loop j i)
    (hok : ok = true) (hj : j < w.made) (hc : j ≠ w.converters) (hv : j ≠ w.validators) :
    ((w.items j).drop i).Sublist (l.map fun e => V.proc e.1) := by
  induction h generalizing i with
  | done h => cases ht; rw [List.drop_of_length_le h]; exact List.nil_sublist _
  | next hget h1 _ _ ih =>
    cases ht
    obtain ⟨a1, a2, a3, a4⟩ := dropped_list hP h1 j hj hc hv
    rw [drop_of_get hget, List.map_cons, List.map_append, ← a1]
    exact ((ih rfl hok a2 a3 a4).trans (List.sublist_append_right _ _)).cons_cons _
  | failed => cases hok
  | notCallable => cases hok
  | _ => cases ht

/-- **C69.** Replacing the list of converters does not stop the loop that is running: if the converter at position `i` assigns
a new list to `extra_converters` (the empty one, say) and everything succeeds, then the converters of the new list and the
validators are called at once, and after that all the classes behind position `i` of the old list. -/
theorem C69_replaced (E : Env) (P : Actors) (hP : DropsLists P) (w : World P.Memory) (hw : Proper w) (i n : Nat)
    (hn : (w.items w.converters)[i]? = some (.proc n)) (st : Store P.Memory) (x : V) (next : Bool → P.State)
    (hact : P.act (P.start n) w = .assign st p!"extra_converters" x next)
    (hst : st.doc.attr p!"extra_converters" = w.doc.attr p!"extra_converters") (new : V)
    (hnew : prepared E st.doc p!"extra_converters" x = some new) (log : List (Nat × V)) (w' : World P.Memory)
    (h : Plays (prepared E) (Good E) P (.loop w.converters i) w log w' true) :
    ∃ w1 w2 inner ok rest, Assigned (w.changed st) p!"extra_converters" new w1 ∧
      Plays (prepared E) (Good E) P .after w1 inner w2 ok ∧ log = (n, w.doc) :: (inner ++ rest) ∧
      ((w.items w.converters).drop (i + 1)).Sublist (rest.map fun e => V.proc e.1) := by
  generalize hj : w.converters = j at h hn ⊢
  cases h with
  | done h => rw [List.getElem?_eq_none h] at hn; cases hn
  | next hget h1 h2 =>
    rw [hn] at hget; cases hget
    cases h1 with
    | stop h => rw [hact] at h; cases h
    | @assigns _ _ _ _ _ _ l w2 ok l' w3 _ h ha hb =>
      rw [hact] at h; cases h
      cases ha with
      | refused h => rw [show (w.changed st).doc = st.doc from rfl, hnew] at h; cases h
      | @taken _ _ _ _ w1 _ _ _ h ha h1 =>
        rw [show (w.changed st).doc = st.doc from rfl, hnew] at h; cases h
        have hne : ¬ (p!"extra_converters" : Str) = p!"extra_validators" := by decide
        have a3 := ha.converters
        have a4 := ha.validators
        have a5 := ha.made
        have a6 := ha.others
        rw [if_pos rfl] at a3
        rw [if_neg hne] at a4
        rw [if_pos (.inl rfl)] at a5
        change w1.converters = w.made at a3
        change w1.validators = w.validators at a4
        change w1.made = w.made + 1 at a5
        have hlt := hw.converters
        have hap := hw.apart
        have b1 : j < w1.made := by omega
        have b2 : j ≠ w1.converters := by omega
        have b3 : j ≠ w1.validators := by omega
        have hitems : w1.items j = w.items j := by
          have e1 : w1.items j = w1.others j := by unfold World.items; rw [if_neg b2, if_neg b3]
          rw [e1, a6 j, if_pos (.inl ⟨rfl, hj.symm⟩)]
          subst hj
          show (w.changed st).items (w.changed st).converters = _
          rw [items_converters, items_converters, show (w.changed st).doc = st.doc from rfl, hst]
        obtain ⟨c1, c2, c3, c4⟩ := dropped_list hP h1 j b1 b2 b3
        obtain ⟨d1, d2, d3, d4⟩ := dropped_list hP hb j c2 c3 c4
        refine ⟨w1, w2, l, ok, l' ++ _, ha, h1, by rw [List.append_assoc], ?_⟩
        rw [List.map_append, ← hitems, ← c1, ← d1]
        exact (loop_dropped hP h2 rfl rfl d2 d3 d4).trans (List.sublist_append_right _ _)

/-- **C69.** Emptying the list in place (`extra_converters.clear()`) does stop it: nothing is called after the converter that
leaves the list no longer than its position. -/
theorem C69_cleared (E : Env) (P : Actors) (w : World P.Memory) (j i n : Nat) (hn : (w.items j)[i]? = some (.proc n))
    (st : Store P.Memory) (hact : P.act (P.start n) w = .stop st true) (hst : ((w.changed st).items j).length ≤ i + 1)
    (log : List (Nat × V)) (w' : World P.Memory) (ok : Bool) :
    Plays (prepared E) (Good E) P (.loop j i) w log w' ok ↔ log = [(n, w.doc)] ∧ w' = w.changed st ∧ ok = true := by
  have hrun : Plays (prepared E) (Good E) P (.loop j i) w ((n, w.doc) :: ([] ++ [])) (w.changed st) true :=
    .next hn (.stop hact) (.done hst)
  constructor
  · exact fun h => goes_unique h hrun
  · rintro ⟨rfl, rfl, rfl⟩
    exact hrun

/-! ### What the validators have seen -/

theorem validators_look {takes good} {P : Actors} {accepts : Nat → V → Prop} {t : Job P.State} {w : World P.Memory}
    {l : List (Nat × V)} {w' : World P.Memory} {ok : Bool} (h : Plays takes good P t w l w' ok) {j i : Nat}
    (ht : t = .loop j i) (hok : ok = true) (hw : Proper w) (hj : j = w.validators)
    (hlook : ∀ n, .proc n ∈ w.items j → OnlyLooks P n (accepts n)) :
    w'.doc = w.doc ∧ w'.validators = w.validators ∧ ∀ (m : Nat) p, i ≤ m → (w.items j)[m]? = some p →
      ∃ n, p = .proc n ∧ accepts n w.doc := by
  induction h generalizing i with
  | done h =>
    cases ht
    exact ⟨rfl, rfl, fun m p hm hp => absurd (List.getElem?_eq_some_iff.1 hp).1 (by omega)⟩
  | @next w _ i' n l w1 l' w2 ok hget h1 h2 _ ih =>
    cases ht
    obtain ⟨st, ok, ha, hd, hacc⟩ := hlook n (List.mem_of_getElem? hget)  w
    cases h1 with
    | assigns h => rw [ha] at h; cases h
    | stop h =>
      rw [ha] at h; cases h
      have hw1 : Proper (w.changed st) := ⟨hw.1, hw.2, hw.3⟩
      have hitems : (w.changed st).items j = w.items j := by
        subst hj
        rw [items_validators hw, show w.validators = (w.changed st).validators from rfl, items_validators hw1,
          show (w.changed st).doc = st.doc from rfl, hd]
      obtain ⟨i1, i2, i3⟩ := ih rfl hok hw1 hj (by rw [hitems]; exact hlook)
      rw [hitems, show (w.changed st).doc = st.doc from rfl, hd] at i3
      refine ⟨i1.trans hd, i2, fun m p hm hp => ?_⟩
      by_cases hme : m = i'
      · subst hme
        rw [hget] at hp; cases hp
        exact ⟨n, rfl, hacc.1 rfl⟩
      · exact i3 m p (by omega) hp
  | failed => cases hok
  | notCallable => cases hok
  | _ => cases ht

/-- **C69.** Whatever the converters did, to the document, to the lists, by assignment or in place: if the validators that are in
the list after them only look at the document, then a run without an error leaves a document that all the validators in
its list accept. -/
theorem C69_checked (E : Env) (P : Actors) (accepts : Nat → V → Prop) (w : World P.Memory) (hw : Proper w)
    (log : List (Nat × V)) (w' : World P.Memory) (h : Plays (prepared E) (Good E) P .after w log w' true)
    (hlook : ∀ l (mid : World P.Memory) n, Plays (prepared E) (Good E) P (.loop w.converters 0) w l mid true →
      .proc n ∈ (mid.doc.attr p!"extra_validators").items → OnlyLooks P n (accepts n)) :
    ∀ p ∈ (w'.doc.attr p!"extra_validators").items, ∃ n, p = .proc n ∧ accepts n w'.doc := by
  intro p hp
  cases h with
  | ran _ h1 h2 =>
    have hw1 := (goes_proper h1 hw).1
    obtain ⟨a1, -, a3⟩ := validators_look (accepts := accepts) h2 rfl rfl hw1 rfl (by
      rw [items_validators hw1]; exact fun n => hlook _ _ n h1)
    rw [items_validators hw1] at a3
    rw [a1] at hp ⊢
    obtain ⟨m, hm⟩ := List.getElem?_of_mem hp
    exact a3 m p (Nat.zero_le _) hm

theorem goes_keep {E : Env} {P : Actors} (hP : KeepsValidators P) {vs : V} {t : Job P.State} {w : World P.Memory}
    {l : List (Nat × V)} {w' : World P.Memory} {ok : Bool} (h : Plays (prepared E) (Good E) P t w l w' ok)
    (ht : ∀ name x, t = .assign name x → name ≠ p!"extra_validators") (hd : ∃ cs, ListsOf cs vs w.doc) :
    ∃ cs, ListsOf cs vs w'.doc := by
  induction h with
  | @stop s w st ok h => have := hP vs s w hd; rw [h] at this; exact this
  | @assigns s w st _ _ _ _ _ _ _ _ _ h _ _ ih1 ih2 =>
    have := hP vs s w hd
    rw [h] at this
    exact ih2 (fun _ _ h => by cases h) (ih1 (fun _ _ h => by cases h; exact this.2) this.1)
  | refused => exact hd
  | taken h ha _ ih =>
    obtain ⟨cs, hd⟩ := hd
    obtain ⟨cs', vs', hn, -, he⟩ := listsOf_prepared hd h
    have := he (ht _ _ rfl)
    subst this
    exact ih (fun _ _ h => by cases h) ⟨cs', by rw [ha.doc]; exact hn⟩
  | bad => exact hd
  | converterFailed _ _ ih => exact ih (fun _ _ h => by cases h) hd
  | ran _ _ _ ih1 ih2 => exact ih2 (fun _ _ h => by cases h) (ih1 (fun _ _ h => by cases h) hd)
  | done => exact hd
  | next _ _ _ ih1 ih2 => exact ih2 (fun _ _ h => by cases h) (ih1 (fun _ _ h => by cases h) hd)
  | failed _ _ ih => exact ih (fun _ _ h => by cases h) hd
  | notCallable => exact hd

/-- **C69.** If no processor changes the list of validators (the converters they may change as they like), and those in the
list only look at the document, then every construction, and every assignment to another attribute, from inside or
outside, that succeeds leaves a document that all of them accept. -/
theorem C69_accepted (E : Env) (P : Actors) (hP : KeepsValidators P) (accepts : Nat → V → Prop) (cs : V) (vs : List V)
    (hlook : ∀ n, .proc n ∈ vs → OnlyLooks P n (accepts n)) (w : World P.Memory) (hw : Proper w)
    (hd : ListsOf cs (.list vs) w.doc) (t : Job P.State)
    (ht : t = .after ∨ ∃ name x, t = .assign name x ∧ name ≠ p!"extra_validators") (log : List (Nat × V))
    (w' : World P.Memory) (h : Plays (prepared E) (Good E) P t w log w' true) :
    w'.doc.attr p!"extra_validators" = .list vs ∧ ∀ n, .proc n ∈ vs → accepts n w'.doc := by
  have key : ∀ w : World P.Memory, Proper w → (∃ cs, ListsOf cs (.list vs) w.doc) → Plays (prepared E) (Good E) P .after w log w' true →
      w'.doc.attr p!"extra_validators" = .list vs ∧ ∀ n, .proc n ∈ vs → accepts n w'.doc := by
    intro w hw hd h
    obtain ⟨cs', _, _, _, -, -, hfin, -, -⟩ := goes_keep hP h (fun _ _ h => by cases h) hd
    refine ⟨hfin, fun n hn => ?_⟩
    obtain ⟨m, hm, ha⟩ := C69_checked E P accepts w hw log w' h (by
      intro l mid n h1 h2
      obtain ⟨_, _, _, _, -, -, hm, -, -⟩ := goes_keep hP h1 (fun _ _ h => by cases h) hd
      rw [hm] at h2
      exact hlook n h2) (.proc n) (by rw [hfin]; exact hn)
    cases hm
    exact ha
  rcases ht with rfl | ⟨name, x, rfl, hn⟩
  · exact key w hw ⟨_, hd⟩ h
  · cases h with
    | taken h1 ha h2 =>
      obtain ⟨cs', vs', hl, -, he⟩ := listsOf_prepared hd h1
      have := he hn
      subst this
      exact key _ (proper_assigned hw ha).1 ⟨cs', by rw [ha.doc]; exact hl⟩ h2

/-- **C69.** With the package's reference validator in the list, and whatever converters that leave the list of validators alone:
every document that a construction or an assignment without error leaves has all its references right. -/
theorem C69_references (E : Env) (P : Actors) (hP : KeepsValidators P) (p : Nat)
    (hp : ∀ w, ∃ st, P.act (P.start p) w = .stop st (Document.unified E.U w.doc).isSome ∧ st.doc = w.doc) (cs : V) (vs : List V)
    (hm : .proc p ∈ vs) (hlook : ∀ n, .proc n ∈ vs → ∃ accepts, OnlyLooks P n accepts) (w : World P.Memory) (hw : Proper w)
    (hd : ListsOf cs (.list vs) w.doc) (t : Job P.State)
    (ht : t = .after ∨ ∃ name x, t = .assign name x ∧ name ≠ p!"extra_validators") (log : List (Nat × V))
    (w' : World P.Memory) (h : Plays (prepared E) (Good E) P t w log w' true)
    (hv : Valid E.U E.digits w'.doc (.model .AsyncAPI3)) (hs : Sound E.U E.digits w'.doc) : ReferencesRight E.U w'.doc := by
  have hacc : ∀ n, .proc n ∈ vs → OnlyLooks P n (fun doc => ∀ u : World P.Memory, u.doc = doc →
      ∃ st, P.act (P.start n) u = .stop st true) := by
    intro n hn u
    obtain ⟨accepts, ha⟩ := hlook n hn
    obtain ⟨st, ok, h1, h2, h3⟩ := ha u
    refine ⟨st, ok, h1, h2, fun hok u' hu' => ?_, fun h => ?_⟩
    · obtain ⟨st', ok', h1', -, h3'⟩ := ha u'
      rw [hu'] at h3'
      have := h3'.2 (h3.1 hok)
      subst this
      exact ⟨st', h1'⟩
    · obtain ⟨st', h'⟩ := h u rfl
      rw [h1] at h'; cases h'; rfl
  obtain ⟨st, h1⟩ := (C69_accepted E P hP _ cs vs hacc w hw hd t ht log w' h).2 p hm w' rfl
  obtain ⟨st', h2, -⟩ := hp w'
  rw [h1] at h2
  injection h2 with _ h2
  have := Option.isSome_iff_exists.1 h2.symm
  obtain ⟨d', hd'⟩ := this
  unfold Document.unified at hd'
  split at hd'
  · rename_i hok
    exact (C47_unified (graphOf_valid hv) hs).1 hok
  · cases hd'

/-! ### Construction -/

/-- **C69**, construction: `AsyncAPI3.model_validate` comes to an end exactly if the fields are not right, and then no
processor is called, or the processors, run on the document with these fields, come to an end; the outcome is theirs. -/
theorem C69_build (E : Env) (P : Actors) (m : P.Memory) (d : List (Str × V)) (log : List (Nat × V)) (r : Option V) :
    (∃ k, Objects.build E P k m (.dict d) = some (log, r)) ↔
      ((∀ i, ¬ FieldsRight E d i) ∧ log = [] ∧ r = none) ∨
      ∃ i w' ok, FieldsRight E d i ∧ Plays (prepared E) (Good E) P .after ⟨⟨i, fun _ => [], m⟩, 0, 1, 2⟩ log w' ok ∧
        r = if ok then some w'.doc else none := by
  unfold Objects.build
  cases hv : validate (idle E) .AsyncAPI3 (.dict d) with
  | none =>
    have hno : ∀ i, ¬ FieldsRight E d i := by
      intro i h
      rw [← validate_idle, hv] at h
      cases h
    simp only [exists_const, Option.some.injEq, Prod.mk.injEq]
    constructor
    · rintro ⟨rfl, rfl⟩; exact .inl ⟨hno, rfl, rfl⟩
    · rintro (⟨_, rfl, rfl⟩ | ⟨i, _, _, h, _⟩)
      · exact ⟨rfl, rfl⟩
      · exact absurd h (hno i)
  | some i =>
    have hi := (validate_idle E d i).1 hv
    simp only [Option.map_eq_some_iff]
    constructor
    · rintro ⟨k, ⟨l, e, ok⟩, h, he⟩
      cases he
      exact .inr ⟨i, e, ok, hi, goes_of_exec E P _ _ _ _ _ _ h, rfl⟩
    · rintro (⟨h, _⟩ | ⟨j, e, ok, h1, h2, rfl⟩)
      · exact absurd hi (h i)
      · have := (validate_idle E d j).2 h1
        rw [hv] at this
        cases this
        obtain ⟨k, hk⟩ := exec_of_goes E P h2
        exact ⟨k, _, hk, rfl⟩

/-! ### A converter that remembers that it has run -/

theorem look_loop {takes good} {P : Actors} {w : World P.Memory} (hw : Proper w) (ns : List Nat)
    (hv : w.doc.attr p!"extra_validators" = .list (ns.map .proc))
    (hlook : ∀ m ∈ ns, P.act (P.start m) w = .stop w.toStore true) :
    Plays takes good P (.loop w.validators 0) w (ns.map (·, w.doc)) w true := by
  have hitems : w.items w.validators = ns.map .proc := by rw [items_validators hw, hv]; rfl
  suffices ∀ (k i : Nat), i + k = ns.length → Plays takes good P (.loop w.validators i) w ((ns.drop i).map (·, w.doc)) w true by
    simpa using this ns.length 0 (by omega)
  intro k
  induction k with
  | zero =>
    intro i hi
    rw [List.drop_of_length_le (by omega)]
    exact .done (by rw [hitems, List.length_map]; omega)
  | succ k ih =>
    intro i hi
    have hlt : i < ns.length := by omega
    rw [List.drop_eq_getElem_cons hlt, List.map_cons]
    exact .next (l := []) (by rw [hitems]; simp [hlt]) (.stop (hlook _ (List.getElem_mem hlt))) (ih (i + 1) (by omega))

/-- **C69.** A converter that assigns on its first call only, because it remembers it (C62_always is about one that does
not): as the only converter it is called twice, and each validator twice, on the new document. -/
theorem C69_once (E : Env) (P : Actors) (n : Nat) (seen : P.Memory → Bool) (mark : P.Memory → P.Memory)
    (hmark : ∀ m, seen (mark m) = true) (name : Str) (x : V) (next : Bool → P.State)
    (hname : name ≠ p!"extra_converters" ∧ name ≠ p!"extra_validators")
    (hfirst : ∀ w, seen w.memory = false → P.act (P.start n) w = .assign ⟨w.doc, w.others, mark w.memory⟩ name x next)
    (hlater : ∀ w, seen w.memory = true → P.act (P.start n) w = .stop w.toStore true)
    (hnext : ∀ w, P.act (next true) w = .stop w.toStore true) (ns : List Nat) (w : World P.Memory) (hw : Proper w)
    (new : V) (hnew : prepared E w.doc name x = some new)
    (hlook : ∀ m ∈ ns, ∀ u, u.doc = new → P.act (P.start m) u = .stop u.toStore true)
    (hseen : seen w.memory = false) (hg : Good E w.doc) (hg' : Good E new)
    (hl : w.doc.attr p!"extra_converters" = .list [.proc n]) (hl' : new.attr p!"extra_converters" = .list [.proc n])
    (hv : new.attr p!"extra_validators" = .list (ns.map .proc)) (log : List (Nat × V)) (w' : World P.Memory) (ok : Bool) :
    Plays (prepared E) (Good E) P .after w log w' ok ↔
      log = (n, w.doc) :: (n, new) :: (ns.map (·, new) ++ ns.map (·, new)) ∧
        w' = ⟨⟨new, w.others, mark w.memory⟩, w.converters, w.validators, w.made⟩ ∧ ok = true := by
  obtain ⟨u, hu⟩ : ∃ u : World P.Memory, u = ⟨⟨new, w.others, mark w.memory⟩, w.converters, w.validators, w.made⟩ := ⟨_, rfl⟩
  rw [← hu]
  have hud : u.doc = new := by rw [hu]
  have hum : seen u.memory = true := by rw [hu]; exact hmark _
  have huw : Proper u := by rw [hu]; exact ⟨hw.1, hw.2, hw.3⟩
  have huv : u.doc.attr p!"extra_validators" = .list (ns.map .proc) := by rw [hud]; exact hv
  have huc : u.items u.converters = [.proc n] := by rw [items_converters, hud, hl']; rfl
  have hwc : w.items w.converters = [.proc n] := by rw [items_converters, hl]; rfl
  have hvs := look_loop (takes := prepared E) (good := Good E) huw ns huv fun m hm => hlook m hm u hud
  have hinner : Plays (prepared E) (Good E) P .after u ([(n, u.doc)] ++ ns.map (·, u.doc)) u true :=
    .ran (by rw [hud]; exact hg')
      (.next (l := []) (l' := []) (by rw [huc]; rfl) (.stop (hlater u hum)) (.done (by
        rw [show (u.changed u.toStore) = u from rfl, huc]; exact Nat.le_refl _))) hvs
  have hass : Assigned (w.changed ⟨w.doc, w.others, mark w.memory⟩) name new u := by
    rw [assigned_iff, hu]
    unfold Objects.install
    rw [if_neg hname.1, if_neg hname.2]; rfl
  have hbody : Plays (prepared E) (Good E) P (.body (P.start n)) w (([(n, u.doc)] ++ ns.map (·, u.doc)) ++ []) u true :=
    .assigns (hfirst w hseen) (.taken hnew hass hinner) (.stop (hnext u))
  have hall : Plays (prepared E) (Good E) P .after w
      (((n, w.doc) :: ((([(n, u.doc)] ++ ns.map (·, u.doc)) ++ []) ++ [])) ++ ns.map (·, u.doc)) u true :=
    .ran hg (.next (by rw [hwc]; rfl) hbody (.done (by
      have : w.converters = u.converters := by rw [hu]
      rw [this, huc]; exact Nat.le_refl _))) hvs
  have hall' : Plays (prepared E) (Good E) P .after w ((n, w.doc) :: (n, new) :: (ns.map (·, new) ++ ns.map (·, new))) u true := by
    rw [hud] at hall
    simpa using hall
  constructor
  · exact fun h => goes_unique h hall'
  · rintro ⟨rfl, rfl, rfl⟩
    exact hall'

/-! ### Concrete cases -/

/-- Processor 0 executes `doc.extra_converters = []`; 1 `doc.extra_converters.clear()`; 2 `l = doc.extra_converters;
doc.extra_converters = []; l.clear()`; 3 sets the default content type on its first call only; the others do nothing. -/
def tricks : Actors where
  State := Nat × Nat
  Memory := Bool
  start n := (n, 0)
  act s w := match s with
    | (0, 0) => .assign w.toStore p!"extra_converters" (.list []) fun _ => (0, 1)
    | (1, 0) => .stop ⟨editList p!"extra_converters" (fun _ => []) w.doc, w.others, w.memory⟩ true
    | (2, 0) => .assign w.toStore p!"extra_converters" (.list []) fun _ => (2, w.converters + 1)
    | (2, j + 1) => .stop ⟨w.doc, fun i => if i = j then [] else w.others i, w.memory⟩ true
    | (3, 0) => if w.memory then .stop w.toStore true
      else .assign ⟨w.doc, w.others, true⟩ p!"default_content_type" (.str p!"application/json") fun _ => (3, 1)
    | _ => .stop w.toStore true

/-- A document with these converters and one validator, 9. -/
def tricksInput (cs : List Nat) : List (Str × V) := [(p!"info", .dict [(p!"title", .str p!"t"), (p!"version", .str p!"1")]),
  (p!"extra_converters", .list (cs.map .proc)), (p!"extra_validators", .list [.proc 9])]

/-- Which classes were called, and whether a document resulted. -/
def tricksRun (cs : List Nat) : Option (List Nat × Bool) :=
  (Objects.build plainEnv tricks 30 false (.dict (tricksInput cs))).map fun r => (r.1.map (·.1), r.2.isSome)

/-- The loop goes on over the old list. -/
example : tricksRun [0, 5, 6] = some ([0, 9, 5, 6, 9], true) := by decide +kernel
/-- The loop ends. -/
example : tricksRun [1, 5, 6] = some ([1, 9], true) := by decide +kernel
/-- The old list is emptied as well. -/
example : tricksRun [2, 5, 6] = some ([2, 9, 9], true) := by decide +kernel
/-- A converter with a memory. -/
example : tricksRun [3] = some ([3, 3, 9, 9], true) := by decide +kernel
/-- First the list is replaced, and then, from the loop over the old one, the new one is emptied: the old goes on. -/
example : tricksRun [0, 1, 5] = some ([0, 9, 1, 5, 9], true) := by decide +kernel

/-- The same without the one that keeps a list. -/
def honest : Actors where
  State := Nat
  Memory := Bool
  start n := n
  act s w := match s with
    | 0 => .assign w.toStore p!"extra_converters" (.list []) fun _ => 7
    | 1 => .stop ⟨editList p!"extra_converters" (fun _ => []) w.doc, w.others, w.memory⟩ true
    | 3 => if w.memory then .stop w.toStore true
      else .assign ⟨w.doc, w.others, true⟩ p!"default_content_type" (.str p!"application/json") fun _ => 7
    | _ => .stop w.toStore true

theorem honest_drops : DropsLists honest := by
  intro (s : Nat) (w : World Bool)
  match s with
  | 0 => rfl
  | 1 => rfl
  | 2 => rfl
  | 3 => cases h : w.memory <;> simp [honest, h]
  | n + 4 => rfl

/-- The world of a document with these converters. -/
def honestWorld (cs : List Nat) : World Bool := ⟨⟨.inst .AsyncAPI3 [(p!"asyncapi", .str p!"3.0.0"), (p!"id", .none),
  (p!"info", .inst .Info [(p!"title", .str p!"t"), (p!"version", .str p!"1")] [] []), (p!"servers", .none),
  (p!"default_content_type", .none), (p!"channels", .none), (p!"operations", .none), (p!"components", .none),
  (p!"extra_converters", .list (cs.map .proc)), (p!"extra_validators", .list [.proc 9])] [] [], fun _ => [], false⟩, 0, 1, 2⟩

theorem honest_proper (cs : List Nat) : Proper (honestWorld cs) := ⟨by show 0 ≠ 1; decide, by show 0 < 2; decide, by show 1 < 2; decide⟩

/-- The assumptions of `C69_replaced` are met. -/
example : ∃ log w' new, (Plays (prepared plainEnv) (Good plainEnv) honest (.loop 0 0) (honestWorld [0, 5, 6]) log w' true) ∧
    log.map (·.1) = [0, 9, 5, 6] ∧ prepared plainEnv (honestWorld [0, 5, 6]).doc p!"extra_converters" (.list []) = some new := by
  have hrun : ∃ r, Objects.exec plainEnv honest 30 (.loop 0 0) (honestWorld [0, 5, 6]) = some r ∧ r.1.map (·.1) = [0, 9, 5, 6] ∧
      r.2.2 = true := by
    exact ⟨_, rfl, by decide +kernel, by decide +kernel⟩
  obtain ⟨⟨log, w', ok⟩, h1, h2, h3⟩ := hrun
  simp only at h3
  subst h3
  exact ⟨log, w', _, goes_of_exec _ _ _ _ _ _ _ _ h1, h2, rfl⟩

example (log : List (Nat × V)) (w' : World Bool)
    (h : Plays (prepared plainEnv) (Good plainEnv) honest (.loop 0 0) (honestWorld [0, 5, 6]) log w' true) :
    ∃ inner rest, log = (0, (honestWorld [0, 5, 6]).doc) :: (inner ++ rest) ∧ [V.proc 5, .proc 6].Sublist (rest.map fun e => V.proc e.1) := by
  obtain ⟨_, _, inner, _, rest, -, -, h1, h2⟩ := C69_replaced plainEnv honest honest_drops (honestWorld [0, 5, 6]) (honest_proper _) 0 0 rfl _ _ _ rfl rfl
    _ rfl log w' h
  exact ⟨inner, rest, h1, h2⟩

/-- Those of `C69_cleared`. -/
example (log : List (Nat × V)) (w' : World Bool) (ok : Bool) :
    Plays (prepared plainEnv) (Good plainEnv) honest (.loop 0 0) (honestWorld [1, 5, 6]) log w' ok ↔
      log = [(1, (honestWorld [1, 5, 6]).doc)] ∧ w' = (honestWorld [1, 5, 6]).changed
        ⟨editList p!"extra_converters" (fun _ => []) (honestWorld [1, 5, 6]).doc, fun _ => [], false⟩ ∧ ok = true :=
  C69_cleared plainEnv honest (honestWorld [1, 5, 6]) 0 0 1 rfl _ rfl (by decide +kernel) log w' ok

/-- Those of `C69_once`. -/
example (log : List (Nat × V)) (w' : World Bool) (ok : Bool)
    (h : Plays (prepared plainEnv) (Good plainEnv) honest .after (honestWorld [3]) log w' ok) :
    log.map (·.1) = [3, 3, 9, 9] ∧ ok = true := by
  have := (C69_once plainEnv honest 3 id (fun _ => true) (fun _ => rfl) p!"default_content_type" (.str p!"application/json")
    (fun _ => (7 : Nat)) ⟨by decide, by decide⟩ (fun w hw => by have : w.memory = false := hw; simp [honest, this])
    (fun w hw => by have : w.memory = true := hw; simp [honest, this]) (fun _ => rfl) [9] (honestWorld [3]) (honest_proper _) _ rfl
    (fun m hm u _ => by simp at hm; subst hm; rfl) rfl (by intro _ e he; cases he) (by intro _ e he; cases he) rfl rfl rfl log w' ok).1 h
  obtain ⟨rfl, -, rfl⟩ := this
  exact ⟨rfl, rfl⟩

theorem honest_keeps : KeepsValidators honest := by
  intro vs (s : Nat) (w : World Bool) hl
  match s with
  | 0 => exact ⟨hl, by decide⟩
  | 1 =>
    obtain ⟨cs, fs, ex, set, hd, -, h2, h3, h4⟩ := hl
    refine ⟨_, _, _, _, by show editList _ _ w.doc = _; rw [hd]; rfl, rfl, ?_, h3, h4⟩
    show (editList _ _ w.doc).attr _ = _
    rw [← h2, hd]
    simp only [editList, V.attr, lookup_unedited _ _ _ _ (show (p!"extra_validators" : Str) ≠ p!"extra_converters" by decide)]
  | 2 => exact hl
  | 3 =>
    cases h : w.memory <;> simp only [honest, h]
    · exact ⟨hl, by decide⟩
    · exact hl
  | n + 4 => exact hl

/-- Those of `C69_accepted`, with a converter that replaces, one that empties and one that assigns. -/
example (log : List (Nat × V)) (w' : World Bool) (h : Plays (prepared plainEnv) (Good plainEnv) honest .after (honestWorld [0, 3, 1]) log w' true) :
    w'.doc.attr p!"extra_validators" = .list [.proc 9] :=
  (C69_accepted plainEnv honest honest_keeps (fun _ _ => True) _ [.proc 9]
    (fun n hn w => ⟨w.toStore, true, by simp at hn; subst hn; rfl, rfl, by simp⟩) _ (honest_proper _)
    ⟨_, _, _, rfl, rfl, rfl, rfl, rfl⟩ .after (.inl rfl) log w' h).1

/-- … and they do come to an end. -/
example : ((Objects.exec plainEnv honest 60 .after (honestWorld [0, 3, 1])).map fun r => (r.1.map (·.1), r.2.2)) =
    some ([0, 9, 3, 9, 1, 9], true) := by decide +kernel

/-- Those of `C69_in_place`: the processors of C62 leave the lists as they are. -/
example : KeepsLists demo := by
  intro cs vs s doc h
  match s with
  | none => exact h
  | some 0 => cases ht : doc.attr p!"default_content_type" <;> simp only [demo, ht] <;> exact h
  | some 1 => exact h
  | some (n + 2) => exact h
example : ListsOf (.list [.proc 0]) (.list [.proc 2, .proc 3]) (demoDoc 0 .none []) := ⟨_, _, _, rfl, rfl, rfl, rfl, rfl⟩

/-- Those of `C69_unassigned`: a converter that removes itself (C65). -/
example : Quiet ⟨Nat, id, fun n doc => .stop (editList p!"extra_converters" (removeFirst n) doc) true⟩ :=
  fun n doc => ⟨_, _, rfl⟩

/-- Those of `C69_references`: every class is the reference validator. -/
def checking (E : Env) : Actors := ⟨Unit, Unit, fun _ => (), fun _ w => .stop w.toStore (Document.unified E.U w.doc).isSome⟩
example (E : Env) : KeepsValidators (checking E) := fun _ _ _ h => h
example (E : Env) (n : Nat) : OnlyLooks (checking E) n fun doc => (Document.unified E.U doc).isSome = true :=
  fun w => ⟨_, _, rfl, rfl, Iff.rfl⟩
example (E : Env) (w : World Unit) : ∃ st, (checking E).act ((checking E).start 0) w = .stop st (Document.unified E.U w.doc).isSome ∧
    st.doc = w.doc := ⟨_, rfl, rfl⟩

end Verif.Props
