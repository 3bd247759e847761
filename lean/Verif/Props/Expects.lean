import Verif.Spec.Expects
import Verif.Props.Unified
import Verif.Props.Slots
/-!
# C10, C11, C14 in terms of the table

`Path.expectedType` is exactly the relation `Expects`, and `Path.normalize` exactly `Normal`.
-/
namespace Verif.Props
open Verif Verif.Spec Verif.Unified

/-! ### Normal paths -/

theorem replaceAux_drop (old new s r : Str) : Str.replaceAux old new s.length (s ++ r) = Str.replaceAux old new 0 r := by
  induction s with
  | nil => rfl
  | cons c s ih => simpa [Str.replaceAux] using ih

theorem unrooted_iff (s t : Str) : Str.replace s p!".root." p!"." = t ↔ Unrooted s t := by
  constructor
  · rintro rfl
    unfold Str.replace
    induction hn : s.length using Nat.strongRecOn generalizing s with
    | _ n ih =>
      subst hn
      cases s with
      | nil => exact .nil
      | cons c s =>
        by_cases h : p!".root.".isPrefixOf (c :: s) = true
        · obtain ⟨r, hr⟩ := List.isPrefixOf_iff_prefix.1 h
          have e : Str.replaceAux p!".root." p!"." 0 (c :: s) = '.' :: Str.replaceAux p!".root." p!"." 0 r := by
            rw [Str.replaceAux, if_pos h]
            rw [show s = p!"root." ++ r from (List.cons.inj hr).2.symm]
            show '.' :: _ = _
            exact congrArg _ (replaceAux_drop _ _ p!"root." r)
          rw [e, ← hr]
          exact .root (ih r.length (by rw [← hr]; simp; omega) r rfl)
        · rw [Str.replaceAux, if_neg h]
          exact .char (fun r hr => h (List.isPrefixOf_iff_prefix.2 ⟨r, hr.symm⟩)) (ih s.length (by simp) s rfl)
  · intro h
    unfold Str.replace
    induction h with
    | nil => rfl
    | @root s t _ ih =>
      have : Str.replaceAux p!".root." p!"." 0 (p!".root." ++ s) = '.' :: Str.replaceAux p!".root." p!"." 5 (p!"root." ++ s) := by
        show Str.replaceAux p!".root." p!"." 0 ('.' :: (p!"root." ++ s)) = _
        rw [Str.replaceAux, if_pos (by simp [List.isPrefixOf])]
        rfl
      rw [this, ← ih]
      exact congrArg _ (replaceAux_drop _ _ p!"root." s)
    | char hno _ ih =>
      rw [Str.replaceAux, if_neg, ih]
      intro h
      obtain ⟨r, hr⟩ := List.isPrefixOf_iff_prefix.1 h
      exact hno r hr.symm

theorem untailed_iff (s t : Str) : (if Str.endsWith s p!".root" then s.take (s.length - 5) else s) = t ↔ Untailed s t := by
  unfold Str.endsWith
  constructor
  · rintro rfl
    split
    · rename_i h
      obtain ⟨r, rfl⟩ := List.isSuffixOf_iff_suffix.1 h
      have : (r ++ p!".root").take ((r ++ p!".root").length - 5) = r := by simp
      rw [this]
      exact .root
    · rename_i h
      exact .other fun r hr => h (List.isSuffixOf_iff_suffix.2 ⟨r, hr.symm⟩)
  · intro h
    cases h with
    | root => rw [if_pos (List.isSuffixOf_iff_suffix.2 ⟨t, rfl⟩)]; simp
    | other h =>
      rw [if_neg]
      intro h'
      obtain ⟨r, hr⟩ := List.isSuffixOf_iff_suffix.1 h'
      exact h r hr.symm

theorem takeWhile_index (U : Uni) {ds : Str} (hd : ∀ c ∈ ds, U.digit c = true) (r : Str) : (ds ++ ']' :: r).takeWhile U.digit = ds := by
  have hb : U.digit ']' = false := by rw [U.digit_ascii ']' (by decide)]; decide
  induction ds with
  | nil => simp [hb]
  | cons c ds ih => rw [List.cons_append, List.takeWhile_cons, if_pos (hd c (List.mem_cons_self ..)), ih fun d h => hd d (List.mem_cons_of_mem _ h)]

/-- The condition of `subIdxAux`. -/
theorem index_iff (U : Uni) (c : Char) (s : Str) :
    (c = '[' ∧ s.takeWhile U.digit ≠ [] ∧ (s.drop (s.takeWhile U.digit).length).head? = some ']') ↔
      ∃ i r, IndexText U i ∧ c :: s = i ++ r := by
  constructor
  · rintro ⟨rfl, hn, hh⟩
    cases hd : s.drop (s.takeWhile U.digit).length with
    | nil => rw [hd] at hh; cases hh
    | cons b r =>
      rw [hd] at hh
      obtain rfl : b = ']' := Option.some.inj hh
      refine ⟨'[' :: (s.takeWhile U.digit ++ [']']), r, ⟨_, rfl, hn, fun c hc => ?_⟩, ?_⟩
      · exact List.all_eq_true.1 List.all_takeWhile c hc
      · have h2 : s.take (s.takeWhile U.digit).length = s.takeWhile U.digit := by
          have := List.takeWhile_prefix U.digit (l := s)
          exact (List.prefix_iff_eq_take.1 this).symm
        have := List.take_append_drop (s.takeWhile U.digit).length s
        rw [hd, h2] at this
        show '[' :: s = '[' :: ((s.takeWhile U.digit ++ [']']) ++ r)
        rw [List.append_assoc]
        exact congrArg _ this.symm
  · rintro ⟨i, r, ⟨ds, rfl, hn, hds⟩, e⟩
    obtain ⟨rfl, e'⟩ := List.cons.inj e
    obtain rfl : s = ds ++ ']' :: r := e'.trans (List.append_assoc ds [']'] r)
    rw [takeWhile_index U hds r]
    exact ⟨rfl, hn, by simp⟩

theorem subIdxAux_drop (U : Uni) (s r : Str) : Path.subIdxAux U s.length (s ++ r) = Path.subIdxAux U 0 r := by
  induction s with
  | nil => rfl
  | cons c cs ih => simpa [Path.subIdxAux] using ih

theorem subIdx_index (U : Uni) {i : Str} (hi : IndexText U i) (r : Str) : Path.subIdxAux U 0 (i ++ r) = Path.subIdxAux U 0 r := by
  obtain ⟨ds, rfl, hn, hds⟩ := hi
  have hw := takeWhile_index U hds r
  show Path.subIdxAux U 0 ('[' :: ((ds ++ [']']) ++ r)) = _
  rw [List.append_assoc, List.singleton_append, Path.subIdxAux]
  simp only [hw]
  rw [if_pos ⟨trivial, hn, by simp⟩]
  have := subIdxAux_drop U (ds ++ [']']) r
  simpa using this

theorem unindexed_iff (U : Uni) (s t : Str) : Path.subIdx U s = t ↔ Unindexed U s t := by
  unfold Path.subIdx
  constructor
  · rintro rfl
    induction hn : s.length using Nat.strongRecOn generalizing s with
    | _ n ih =>
      subst hn
      cases s with
      | nil => exact .nil
      | cons c s =>
        by_cases h : ∃ i r, IndexText U i ∧ c :: s = i ++ r
        · obtain ⟨i, r, hi, e⟩ := h
          rw [e, subIdx_index U hi r]
          refine .index hi (ih r.length ?_ r rfl)
          rw [e]
          obtain ⟨ds, rfl, _⟩ := hi
          simp; omega
        · have : Path.subIdxAux U 0 (c :: s) = c :: Path.subIdxAux U 0 s := by
            rw [Path.subIdxAux]
            exact if_neg fun h' => h ((index_iff U c s).1 h')
          rw [this]
          exact .char (fun i r hi e => h ⟨i, r, hi, e⟩) (ih s.length (by simp) s rfl)
  · intro h
    induction h with
    | nil => rfl
    | index hi _ ih => rw [subIdx_index U hi, ih]
    | char hno _ ih =>
      rw [Path.subIdxAux, ← ih]
      refine if_neg fun h' => ?_
      obtain ⟨i, r, hi, e⟩ := (index_iff U _ _).1 h'
      exact hno i r hi e

/-- **C14.** How the text of a location is changed before it is compared with the patterns. -/
theorem C14_normal (U : Uni) (s t : Str) : Path.normalize U s = t ↔ Normal U s t := by
  unfold Path.normalize
  simp only
  rw [unindexed_iff]
  constructor
  · intro h
    exact ⟨_, _, (unrooted_iff s _).1 rfl, (untailed_iff _ _).1 rfl, h⟩
  · rintro ⟨a, b, h1, h2, h3⟩
    rw [(unrooted_iff s a).2 h1, (untailed_iff a b).2 h2]
    exact h3

/-! ### The table -/

theorem fits_iff (p : Str) (segs : List Str) : PatternFits p segs ↔ Aligns (Path.splitPath p) segs :=
  ⟨fun ⟨_, h, ha⟩ => by rwa [← (C12_segments p _).2 h] at ha, fun h => ⟨_, (C12_segments p _).1 rfl, h⟩⟩

theorem beats_iff (p q : Str) : PatternBeats p q ↔ MoreSpecific (Path.splitPath p) (Path.splitPath q) :=
  ⟨fun ⟨_, _, h, h', hm⟩ => by rwa [← (C12_segments p _).2 h, ← (C12_segments q _).2 h'] at hm,
    fun h => ⟨_, _, (C12_segments p _).1 rfl, (C12_segments q _).1 rfl, h⟩⟩

theorem bestLoop_append {τ : Type} (path : Str) (l m : List (Str × τ)) (best) :
    Path.bestLoop path (l ++ m) best = Path.bestLoop path m (Path.bestLoop path l best) := by
  induction l generalizing best with
  | nil => rfl
  | cons e l ih =>
    obtain ⟨p, t⟩ := e
    rw [List.cons_append, Path.bestLoop, Path.bestLoop]
    split
    · exact ih _
    · simp only
      split
      · exact ih _
      · split <;> exact ih _

theorem bestLoop_stays {τ : Type} (path : Str) (l : List (Str × τ)) (t : τ) (sc) (h : ∀ e ∈ l, Path.pathMatches e.1 path = true →
    Path.scoreLt sc (Path.specificity e.1) = false) : Path.bestLoop path l (some (t, sc)) = some (t, sc) := by
  induction l with
  | nil => rfl
  | cons e l ih =>
    obtain ⟨p, t'⟩ := e
    rw [Path.bestLoop]
    split
    · exact ih fun e he => h e (List.mem_cons_of_mem _ he)
    · rename_i hm
      simp only
      rw [if_neg]
      · exact ih fun e he => h e (List.mem_cons_of_mem _ he)
      · rw [h (p, t') (List.mem_cons_self ..) (by simpa using hm)]
        simp

theorem bestLoop_split {τ : Type} (path : Str) (M : List (Str × τ)) : ∀ t sc, Path.bestLoop path M none = some (t, sc) →
    ∃ before pattern after, M = before ++ (pattern, t) :: after ∧ Path.specificity pattern = sc ∧ Path.pathMatches pattern path = true ∧
      (∀ e ∈ before, Path.pathMatches e.1 path = true → Path.scoreLt (Path.specificity e.1) sc = true) ∧
      (∀ e ∈ after, Path.pathMatches e.1 path = true → Path.scoreLt sc (Path.specificity e.1) = false) := by
  suffices h : ∀ R : List (Str × τ), ∀ t sc, Path.bestLoop path R.reverse none = some (t, sc) →
      ∃ before pattern after, R.reverse = before ++ (pattern, t) :: after ∧ Path.specificity pattern = sc ∧
        Path.pathMatches pattern path = true ∧
        (∀ e ∈ before, Path.pathMatches e.1 path = true → Path.scoreLt (Path.specificity e.1) sc = true) ∧
        (∀ e ∈ after, Path.pathMatches e.1 path = true → Path.scoreLt sc (Path.specificity e.1) = false) by
    have := h M.reverse
    rwa [List.reverse_reverse] at this
  intro R
  induction R with
  | nil => intro t sc h; cases h
  | cons e R ih =>
    intro t sc h
    obtain ⟨p, ty⟩ := e
    rw [List.reverse_cons] at h ⊢
    rw [bestLoop_append, Path.bestLoop] at h
    obtain ⟨hs1, hs2⟩ := Path.bestLoop_spec path R.reverse none
    split at h
    · rename_i hm
      obtain ⟨before, pattern, after, e1, e2, e3, e4, e5⟩ := ih t sc h
      refine ⟨before, pattern, after ++ [(p, ty)], by rw [e1]; simp, e2, e3, e4, fun e he hme => ?_⟩
      rcases List.mem_append.1 he with he | he
      · exact e5 e he hme
      · obtain rfl := List.mem_singleton.1 he
        rw [hme] at hm; simp at hm
    · rename_i hm
      have hm : Path.pathMatches p path = true := by simpa using hm
      simp only at h
      split at h
      · rename_i hb
        obtain ⟨rfl, rfl⟩ := Prod.mk.inj (Option.some.inj h)
        refine ⟨R.reverse, p, [], rfl, rfl, hm, fun e he hme => ?_, by simp⟩
        rw [(hs1.1 hb).2 e he] at hme; cases hme
      · rename_i bt bs hb
        obtain ⟨before, pattern, after, e1, e2, e3, e4, e5⟩ := ih bt bs hb
        split at h
        · rename_i hlt
          obtain ⟨rfl, rfl⟩ := Prod.mk.inj (Option.some.inj h)
          refine ⟨R.reverse, p, [], rfl, rfl, hm, fun e he hme => ?_, by simp⟩
          rcases Path.scoreLt_of_not ((hs2 bt bs hb).2.1 e he hme) with h' | h'
          · exact Path.scoreLt_trans h' hlt
          · rw [← h']; exact hlt
        · rename_i hlt
          obtain ⟨rfl, rfl⟩ := Prod.mk.inj (Option.some.inj h)
          refine ⟨before, pattern, after ++ [(p, ty)], by rw [e1]; simp, e2, e3, e4, fun e he hme => ?_⟩
          rcases List.mem_append.1 he with he | he
          · exact e5 e he hme
          · obtain rfl := List.mem_singleton.1 he
            simpa using hlt

/-- **C14.** The expected type is that of the most specific pattern that fits, the first of them if there are several. -/
theorem C14_exact {τ : Type} (U : Uni) (M : List (Str × τ)) (path : Str) (t : τ) :
    Path.expectedType U M path = some t ↔ Expects U M path t := by
  have hm : ∀ p : Str, Path.pathMatches p (Path.normalize U path) = true ↔ PatternFits p (Path.splitPath (Path.normalize U path)) :=
    fun p => (Path.matchParts_iff _ _).trans (fits_iff p _).symm
  unfold Path.expectedType
  constructor
  · intro h
    obtain ⟨⟨t', sc⟩, hsc, rfl⟩ := Option.map_eq_some_iff.1 h
    obtain ⟨before, pattern, after, e1, e2, e3, e4, e5⟩ := bestLoop_split _ M t' sc hsc
    subst e2
    refine ⟨_, _, before, pattern, after, (C14_normal U path _).1 rfl, (C12_segments _ _).1 rfl, e1, (hm _).1 e3, fun e he hf => ?_,
      fun e he hf hb => ?_⟩
    · exact (beats_iff _ _).2 ((Path.scoreLt_iff _ _).1 (e4 e he ((hm _).2 hf)))
    · have := e5 e he ((hm _).2 hf)
      rw [(Path.scoreLt_iff _ _).2 ((beats_iff _ _).1 hb)] at this
      cases this
  · rintro ⟨norm, segs, before, pattern, after, hn, hs, rfl, hf, hb, ha⟩
    obtain rfl := (C14_normal U path _).2 hn
    obtain rfl := (C12_segments _ _).2 hs
    rw [bestLoop_append, Path.bestLoop, if_neg (by rw [(hm _).2 hf]; simp)]
    have hafter : Path.bestLoop (Path.normalize U path) after (some (t, Path.specificity pattern)) = some (t, Path.specificity pattern) := by
      refine bestLoop_stays _ _ _ _ fun e he hme => ?_
      rw [Bool.eq_false_iff]
      intro hlt
      exact ha e he ((hm _).1 hme) ((beats_iff _ _).2 ((Path.scoreLt_iff _ _).1 hlt))
    simp only
    obtain ⟨hs1, hs2⟩ := Path.bestLoop_spec (Path.normalize U path) before none
    cases hbest : Path.bestLoop (Path.normalize U path) before none with
    | none => simp only; rw [hafter]; rfl
    | some b =>
      obtain ⟨bt, bs⟩ := b
      rcases (hs2 bt bs hbest).1 with h | ⟨e, he, hme, _, rfl⟩
      · cases h
      · simp only
        rw [if_pos ((Path.scoreLt_iff _ _).2 ((beats_iff _ _).1 (hb e he ((hm _).1 hme)))), hafter]
        rfl

section
variable {C : Type} [DecidableEq C] {n : Nat} {T : ClassTable C} {D : Doc C n}

omit [DecidableEq C] in
theorem graphRightAt_iff (U : Uni) (M : List (Str × List C)) (steps : List LocStep) (s : Str) :
    RefOk T D (Path.expectedType U M (render steps)) s ↔ RightAt T U M D steps s := by
  unfold RefOk RightAt
  simp only [C14_exact]

/-- **C10.** The validator accepts exactly when every Reference is right at each location where it occurs, by the table. -/
theorem C10_exact (W : WF T D) (Un : Unambiguous T) (U : Uni) (M : List (Str × List C)) :
    validate T U M D = some (.ok ()) ↔ ∀ steps s, Occurs T D steps s → RightAt T U M D steps s := by
  rw [C10_accepts_iff W Un]
  simp only [graphRightAt_iff]

/-- **C11.** In an accepted document every reachable Reference leads to an external URL or to an existing object of a type that the table has
for the location; in particular its chain is not circular. -/
theorem C11_sound (W : WF T D) (Un : Unambiguous T) (U : Uni) (M : List (Str × List C))
    (h : validate T U M D = some (.ok ())) {steps b s} (hd : Descends T D D.spec steps b) (hb : IsReference T D (.ptr b) s) :
    (∃ steps', Occurs T D steps' s ∧ RightAt T U M D steps' s) ∧ ¬ Cyclic T D s := by
  obtain ⟨steps', ho⟩ := C10_every_reference_checked hd hb
  exact ⟨⟨steps', ho, (C10_exact W Un U M).1 h steps' s ho⟩, (C11_accepted_sound W Un U M h hd hb).2⟩

/-- **C11.** When it rejects, the error names a location where a Reference occurs that is not right. -/
theorem C11_rejected (W : WF T D) (Un : Unambiguous T) (U : Uni) (M : List (Str × List C)) (e : Err C)
    (h : validate T U M D = some (.error e)) :
    ∃ steps s, Occurs T D steps s ∧ ¬ RightAt T U M D steps s ∧
      ((∃ m, e = .invalidRef (render steps) m) ∨ (∃ p ty cs, e = .typeMismatch (render steps) p ty cs) ∨
        ∃ norm, Normal U (render steps) norm ∧ e = .unknownType norm) := by
  obtain ⟨steps, s, ho, hn, he⟩ := C11_rejection_is_located W Un U M e h
  refine ⟨steps, s, ho, fun h => hn ((graphRightAt_iff U M steps s).2 h), ?_⟩
  rcases he with he | he | he
  · exact .inl he
  · exact .inr (.inl he)
  · exact .inr (.inr ⟨_, (C14_normal U _ _).1 rfl, he⟩)
end

/-- **C15** (partial, see `C15_expected_is_declared_partial`), by the table: the entry for every place where a Reference may stand is the
declared type, and nothing else. -/
theorem C15_expects_partial (U : Uni) {steps owner cs} (h : Slot steps owner cs) (hk : OrdinaryKeys steps)
    (hi : ¬ InlineTraitField steps owner) (cs' : List Gen.Cls) : Expects U Gen.mappings (render steps) cs' ↔ cs' = cs := by
  rw [← C14_exact, C15_expected_is_declared_partial U h hk hi]
  exact ⟨fun h => (Option.some.inj h).symm, fun h => by rw [h]⟩

/-- **C16, exact**, by the table. -/
theorem C16_expects (U : Uni) : ∀ c ∈ collections, ∀ k : Str, (∀ x ∈ k, x ≠ '.' ∧ x ≠ '\\' ∧ x ≠ '[') →
    (Expects U Gen.mappings (render (entryAt c.1 k)) c.2 ↔ ¬ BadName c.1 c.2 k) := by
  intro c hc k hk
  rw [← C14_exact]
  exact C16_entry_names_exact U c hc k hk

/-- The location of a message in a channel, and the entry of the table for it. -/
example : Expects Uni.ascii Gen.mappings p!"spec.channels.root.c.messages.root.m[12]" [.Message] := (C14_exact _ _ _ _).1 (by decide +kernel)

/-- Two patterns fit, one of them more specific. -/
example : ∃ segs, Normal Uni.ascii p!"spec.operations.root.o.reply.channel" p!"spec.operations.o.reply.channel" ∧
    Segs p!"spec.operations.o.reply.channel" segs ∧ PatternFits p!"**.channel" segs ∧ PatternFits p!"**.reply.channel" segs ∧
    PatternBeats p!"**.reply.channel" p!"**.channel" := by
  refine ⟨_, (C14_normal _ _ _).1 (by decide +kernel), (C12_segments _ _).1 rfl, (fits_iff _ _).2 ((Path.matchParts_iff _ _).1 ?_),
    (fits_iff _ _).2 ((Path.matchParts_iff _ _).1 ?_), (beats_iff _ _).2 ((Path.scoreLt_iff _ _).1 ?_)⟩ <;> decide +kernel

end Verif.Props
