import Verif.Lemmas.Unified
import Verif.Gen.Mappings
import Verif.Props.ResolveExamples
/-!
# C09–C14: `UnifiedReferencesValidator`
-/
namespace Verif.Props
open Verif Verif.Spec Verif.Resolve Verif.Unified

section
variable {C : Type} [DecidableEq C] {n : Nat} {T : ClassTable C} {D : Doc C n}

/-- **C09.** The validator returns or raises on every object graph (`n` objects, any
sharing, any cycles, no well-formedness assumed) and for every mapping table. -/
theorem C09_terminates (T : ClassTable C) (U : Uni) (M : List (Str × List C)) (D : Doc C n) :
    ∃ out, validate T U M D = some out :=
  validateRec_some (n + 1) [] .nil (by simp) _ _

/-- **C09.** The recursion bound built into the model is not what stops it: any larger
bound gives the same outcome. -/
theorem C09_bound_irrelevant (T : ClassTable C) (U : Uni) (M : List (Str × List C)) (D : Doc C n)
    (k : Nat) (hk : n + 1 ≤ k) :
    validateRec T U M D k [] (.ptr D.spec) p!"spec" = validate T U M D := by
  obtain ⟨o, ho⟩ := C09_terminates T U M D
  rw [ho]
  have := validateRec_mono (n + 1) [] (.ptr D.spec) p!"spec" ho (k - (n + 1))
  rwa [show n + 1 + (k - (n + 1)) = k by omega] at this

/-- **C10.** The validator accepts exactly when every Reference passes the
single-reference check at each location where it occurs. -/
theorem C10_accepts_iff (W : WF T D) (Un : Unambiguous T) (U : Uni) (M : List (Str × List C)) :
    validate T U M D = some (.ok ()) ↔
      ∀ steps s, Occurs T D steps s → RefOk T D (Path.expectedType U M (render steps)) s := by
  unfold validate
  rw [validateRec_ok W Un (n+1) [] .nil (by simp)]
  constructor
  · rintro h steps s ⟨objs, b, ht, hb⟩
    exact h steps objs b s ht (by simp) hb
  · intro h steps objs b s ht _ hb
    exact h steps s ⟨objs, b, ht, hb⟩

omit [DecidableEq C] in
/-- **C10.** Every reachable Reference object occurs at some location, so is checked. -/
theorem C10_every_reference_checked {steps b s} (h : Descends T D D.spec steps b)
    (hb : IsReference T D (.ptr b) s) : ∃ steps', Occurs T D steps' s := by
  obtain ⟨steps', objs, ht⟩ := trail_of_descends h
  exact ⟨steps', objs, b, ht, hb⟩

omit [DecidableEq C] in
theorem descends_mem {a steps objs b} (h : Trail T D a steps objs b) :
    ∀ o ∈ objs, ∃ ss, Descends T D a ss o := by
  induction h with
  | nil => intro o ho; simp at ho; subst ho; exact ⟨[], .nil⟩
  | cons h1 h2 _ _ ih =>
    intro o ho
    rcases List.mem_cons.1 ho with rfl | ho
    · exact ⟨[], .nil⟩
    · obtain ⟨ss, hs⟩ := ih o ho
      exact ⟨_, .cons h1 h2 hs⟩

omit [DecidableEq C] in
/-- **C10.** When no object contains itself, "occurs at" is simply "is reached by":
an object shared between several places is checked at each of them. -/
theorem C10_shared_checked_everywhere
    (acyclic : ∀ a st ss, ¬ Descends T D a (st :: ss) a) (steps : List LocStep) (s : Str) :
    Occurs T D steps s ↔ ∃ b, Descends T D D.spec steps b ∧ IsReference T D (.ptr b) s := by
  constructor
  · rintro ⟨objs, b, ht, hb⟩; exact ⟨b, descends_of_trail ht, hb⟩
  · rintro ⟨b, hd, hb⟩
    have : ∀ {a steps b}, Descends T D a steps b → ∃ objs, Trail T D a steps objs b := by
      intro a steps b hd
      induction hd with
      | nil => exact ⟨_, .nil⟩
      | @cons a st c ss b h1 h2 h3 ih =>
        obtain ⟨objs, ht⟩ := ih
        refine ⟨_, .cons h1 h2 ht fun hm => ?_⟩
        obtain ⟨ss', hs⟩ := descends_mem ht a hm
        exact acyclic a st ss' (.cons h1 h2 hs)
    obtain ⟨objs, ht⟩ := this hd
    exact ⟨objs, b, ht, hb⟩

/-- **C11.** In an accepted document every reachable Reference leads to an external URL or
to an existing object of the type expected where the Reference stands; in particular
its chain is not circular. -/
theorem C11_accepted_sound (W : WF T D) (Un : Unambiguous T) (U : Uni) (M : List (Str × List C))
    (h : validate T U M D = some (.ok ())) {steps b s} (hd : Descends T D D.spec steps b)
    (hb : IsReference T D (.ptr b) s) :
    ((∃ r, Hops T D s r ∧ External r) ∨
      ∃ steps' r v cs, Occurs T D steps' s ∧ Hops T D s r ∧ Lands T D r v ∧
        Path.expectedType U M (render steps') = some cs ∧ InstanceOf T (D.typeOf v) cs) ∧
    ¬ Cyclic T D s := by
  obtain ⟨steps', ho⟩ := C10_every_reference_checked hd hb
  have hok := (C10_accepts_iff W Un U M).1 h steps' s ho
  have hcyc : ¬ Cyclic T D s := by
    intro hc
    obtain ⟨r, hr⟩ := (C03_circular_iff W Un s).2 hc
    rcases hok with hx | ⟨r', v, cs, h1, h2, _⟩
    · rw [← (C03_other_outcomes W Un s).1, hr] at hx; cases hx
    · obtain ⟨ty, p, hv⟩ := (C02_result_is_end_of_chain W Un s v).2 ⟨r', h1, h2⟩
      rw [hr] at hv; cases hv
  refine ⟨?_, hcyc⟩
  rcases hok with hx | ⟨r', v, cs, h1, h2, h3, h4⟩
  · exact .inl hx
  · exact .inr ⟨steps', r', v, cs, ho, h1, h2, h3, h4⟩

/-- **C11.** When it rejects, the error names a location where a Reference occurs that does
not pass the check (so no valid document is rejected for anything else). -/
theorem C11_rejection_is_located (W : WF T D) (Un : Unambiguous T) (U : Uni) (M : List (Str × List C))
    (e : Err C) (h : validate T U M D = some (.error e)) :
    ∃ steps s, Occurs T D steps s ∧ ¬ RefOk T D (Path.expectedType U M (render steps)) s ∧
      ((∃ m, e = .invalidRef (render steps) m) ∨ (∃ p ty cs, e = .typeMismatch (render steps) p ty cs) ∨
        e = .unknownType (Path.normalize U (render steps))) := by
  obtain ⟨steps, objs, b, s, ht, _, hb, hx, he⟩ := validateRec_error W Un (n+1) [] .nil D.spec p!"spec" h
  exact ⟨steps, s, ⟨objs, b, ht, hb⟩, hx, he⟩
end

/-! ### C12 -/

/-- **C12.** Splitting undoes escaping and joining, for all segments. -/
theorem C12_split_join (segs : List Str) (h : segs ≠ []) :
    Path.splitPath (Str.join '.' (segs.map Path.escape)) = segs := by
  have : segs.map Path.escape = segs.map escapeSpec := by simp [Path.escape_eq]
  rw [this]; exact Path.splitPath_join segs h

/-- **C12.** Different lists of segments have different paths. -/
theorem C12_injective (s t : List Str) (hs : s ≠ []) (ht : t ≠ [])
    (h : Str.join '.' (s.map Path.escape) = Str.join '.' (t.map Path.escape)) : s = t := by
  rw [← C12_split_join s hs, h, C12_split_join t ht]

/-- **C12.** The path under which the traversal checks a location without list steps is of
that form. -/
theorem C12_render (steps : List LocStep) (h : ∀ st ∈ steps, (∃ k, st = .key k) ∨
      ∃ f, st = .field f ∧ ∀ c ∈ f, c ≠ '.' ∧ c ≠ '\\') :
    Path.splitPath (render steps) =
      p!"spec" :: steps.filterMap fun | .key k => some k | .field f => some f | .index _ => none := by
  have e : render steps = Str.join '.' ((p!"spec" :: steps.filterMap fun
      | .key k => some k | .field f => some f | .index _ => none).map escapeSpec) := by
    have aux : ∀ (x : Str) (steps : List LocStep), (∀ st ∈ steps, (∃ k, st = .key k) ∨
        ∃ f, st = .field f ∧ ∀ c ∈ f, c ≠ '.' ∧ c ≠ '\\') →
        x ++ steps.flatMap stepText = Str.join '.' (x :: (steps.filterMap fun
        | .key k => some k | .field f => some f | .index _ => none).map escapeSpec) := by
      intro x steps
      induction steps generalizing x with
      | nil => intro _; simp [Str.join]
      | cons st ss ih =>
        intro h
        have ih' := fun y => ih y fun st hst => h st (by simp [hst])
        rcases h st (by simp) with ⟨k, rfl⟩ | ⟨f, rfl, hf⟩
        · have := ih' (escapeSpec k)
          simp only [List.flatMap_cons, stepText, List.filterMap_cons, List.map_cons]
          rw [Str.join_cons _ _ (by simp), ← this]; simp
        · have := ih' f
          simp only [List.flatMap_cons, stepText, List.filterMap_cons, List.map_cons,
            Path.escapeSpec_plain (s := f) hf]
          rw [Str.join_cons _ _ (by simp), ← this]; simp
    have := aux p!"spec" steps h
    simpa [render, escapeSpec] using this
  rw [e]
  exact Path.splitPath_join _ (by simp)

/-- Keys full of dots and backslashes. -/
example : Path.splitPath (render [.field p!"channels", .key p!"a.b\\c\\.", .key []]) =
    [p!"spec", p!"channels", p!"a.b\\c\\.", []] :=
  C12_render _ (by simp)

/-- A limit of C12: list indices are not separated from keys, so a list item and a
key spelled `x[0]` share a path. -/
theorem C12_index_collision :
    render [.key p!"x", .index 0] = render [.key p!"x[0]"] := by decide

/-! ### C13 -/

/-- **C13.** A pattern (given by its segments; no `[...]` classes) matches a path exactly when
the segments can be aligned. -/
theorem C13_matches_iff (pat path : List Str) (h1 : pat ≠ []) (h2 : path ≠ [])
    (_noClass : ∀ p ∈ pat, '[' ∉ p) :
    Path.pathMatches (Str.join '.' (pat.map Path.escape)) (Str.join '.' (path.map Path.escape)) = true ↔
      Aligns pat path := by
  unfold Path.pathMatches
  rw [C12_split_join pat h1, C12_split_join path h2, Path.matchParts_iff]

theorem splitAux_cur (b : Bool) (cur s : Str) : ∃ x ss, Path.splitAux b [] s = x :: ss ∧ Path.splitAux b cur s = (cur ++ x) :: ss := by
  induction s generalizing b cur with
  | nil => cases b <;> simp [Path.splitAux]
  | cons c s ih =>
    cases b with
    | true =>
      obtain ⟨x, ss, h1, h2⟩ := ih false ([] ++ [c])
      obtain ⟨x', ss', h1', h2'⟩ := ih false (cur ++ [c])
      rw [h1] at h1'; cases h1'
      exact ⟨_, _, by rw [Path.splitAux, h2], by rw [Path.splitAux, h2']; simp⟩
    | false =>
      simp only [Path.splitAux]
      split
      · exact ih true cur
      · split
        · exact ⟨[], _, rfl, by simp⟩
        · obtain ⟨x, ss, h1, h2⟩ := ih false ([] ++ [c])
          obtain ⟨x', ss', h1', h2'⟩ := ih false (cur ++ [c])
          rw [h1] at h1'; cases h1'
          exact ⟨_, _, h2, by rw [h2']; simp⟩

/-- **C12.** How any path is split into segments. -/
theorem C12_segments (s : Str) (segs : List Str) : Path.splitPath s = segs ↔ Segs s segs := by
  have step : ∀ (c : Char) (s : Str) x ss, Path.splitPath s = x :: ss → Path.splitAux false ([] ++ [c]) s = (c :: x) :: ss := by
    intro c s x ss h
    obtain ⟨x', ss', h1, h2⟩ := splitAux_cur false ([] ++ [c]) s
    rw [Path.splitPath, h1] at h; cases h; exact h2
  constructor
  · rintro rfl
    have : ∀ n (s : Str), s.length ≤ n → Segs s (Path.splitPath s) := by
      intro n
      induction n with
      | zero => intro s h; cases s with
        | nil => exact .nil
        | cons => simp at h
      | succ n ih =>
        intro s h
        cases s with
        | nil => exact .nil
        | cons c s =>
          by_cases h1 : c = '\\'
          · subst h1
            cases s with
            | nil => exact .lone
            | cons c s =>
              obtain ⟨x, ss, hx, _⟩ := splitAux_cur false [] s
              have : Path.splitPath ('\\' :: c :: s) = (c :: x) :: ss := step c s x ss hx
              rw [this]
              exact .esc (hx ▸ ih s (by simp at h; omega))
          · by_cases h2 : c = '.'
            · subst h2
              have : Path.splitPath ('.' :: s) = [] :: Path.splitPath s := rfl
              rw [this]
              exact .dot (ih s (by simpa using h))
            · obtain ⟨x, ss, hx, _⟩ := splitAux_cur false [] s
              have : Path.splitPath (c :: s) = (c :: x) :: ss := by
                rw [Path.splitPath, Path.splitAux, if_neg h1, if_neg h2]; exact step c s x ss hx
              rw [this]
              exact .char h2 h1 (hx ▸ ih s (by simpa using h))
    exact this _ s (Nat.le_refl _)
  · intro h
    induction h with
    | nil => rfl
    | dot _ ih => rw [← ih]; rfl
    | esc _ ih => exact step _ _ _ _ ih
    | lone => rfl
    | char h2 h1 _ ih => rw [Path.splitPath, Path.splitAux, if_neg h1, if_neg h2]; exact step _ _ _ _ ih

/-- **C13**, for any two strings: they are read as segments, which must align. -/
theorem C13_strings (pattern path : Str) (_noClass : '[' ∉ pattern) :
    Path.pathMatches pattern path = true ↔ ∃ ps ss, Segs pattern ps ∧ Segs path ss ∧ Aligns ps ss := by
  unfold Path.pathMatches
  rw [Path.matchParts_iff]
  constructor
  · intro h; exact ⟨_, _, (C12_segments _ _).1 rfl, (C12_segments _ _).1 rfl, h⟩
  · rintro ⟨ps, ss, h1, h2, h⟩
    rw [(C12_segments _ _).2 h1, (C12_segments _ _).2 h2]; exact h

example : Segs p!"a\\.b.c\\" [p!"a.b", p!"c\\"] := (C12_segments _ _).1 rfl

/-- All patterns of the table are of that form: no escapes, no classes. -/
theorem C13_table : ∀ e ∈ Gen.mappings, ∃ pat : List Str, pat ≠ [] ∧ (∀ p ∈ pat, '[' ∉ p) ∧
    e.1 = Str.join '.' (pat.map Path.escape) := by
  intro e he
  refine ⟨Str.split '.' e.1, Str.split_ne_nil _ _, ?_⟩
  revert e
  decide +kernel

example : Aligns [p!"**", p!"*_bindings", p!"*", p!"key"]
    [p!"spec", p!"components", p!"message_bindings", p!"m", p!"key"] :=
  .dstar (ss := [p!"spec", p!"components"])
    (.seg (by decide) (.glob (by decide) (by decide)
      (.star (s := p!"message") (.char (by decide) (by decide) (.char (by decide) (by decide)
        (.char (by decide) (by decide) (.char (by decide) (by decide) (.char (by decide) (by decide)
        (.char (by decide) (by decide) (.char (by decide) (by decide) (.char (by decide) (by decide)
        (.char (by decide) (by decide) .nil)))))))))))
      (.seg (by decide) .star (.seg (by decide) (.lit (by decide)) .nil)))

/-! ### C14 -/

/-- **C14.** The expected type is that of a matching pattern to which no matching pattern is
preferred; there is none exactly when no pattern matches. -/
theorem C14_most_specific {τ : Type} (U : Uni) (M : List (Str × τ)) (path : Str) :
    (Path.expectedType U M path = none ↔
      ∀ e ∈ M, ¬ Aligns (Path.splitPath e.1) (Path.splitPath (Path.normalize U path))) ∧
    ∀ t, Path.expectedType U M path = some t → ∃ e ∈ M, e.2 = t ∧
      Aligns (Path.splitPath e.1) (Path.splitPath (Path.normalize U path)) ∧
      ∀ e' ∈ M, Aligns (Path.splitPath e'.1) (Path.splitPath (Path.normalize U path)) →
        ¬ MoreSpecific (Path.splitPath e'.1) (Path.splitPath e.1) := by
  obtain ⟨h1, h2⟩ := Path.bestLoop_spec (Path.normalize U path) M none
  have hm : ∀ e : Str × τ, Path.pathMatches e.1 (Path.normalize U path) = true ↔
      Aligns (Path.splitPath e.1) (Path.splitPath (Path.normalize U path)) :=
    fun e => Path.matchParts_iff _ _
  constructor
  · simp only [Path.expectedType, Option.map_eq_none_iff, h1, true_and, ← hm, Bool.not_eq_true]
  · intro t ht
    obtain ⟨⟨t', sc⟩, hsc, ht'⟩ := Option.map_eq_some_iff.1 ht
    cases ht'
    obtain ⟨ha, hb, _⟩ := h2 t' sc hsc
    rcases ha with ha | ⟨e, he, h3, h4, h5⟩
    · cases ha
    · refine ⟨e, he, h4, (hm e).1 h3, fun e' he' hal hms => ?_⟩
      have := hb e' he' ((hm e').2 hal)
      rw [← h5, Bool.eq_false_iff] at this
      exact this ((Path.scoreLt_iff e.1 e'.1).2 hms)

/-- **C14.** No path is matched by two patterns of the table that are equally specific and
expect different types. -/
theorem C14_no_ties (path : List Str) : ∀ e ∈ Gen.mappings, ∀ e' ∈ Gen.mappings,
    Aligns (Path.splitPath e.1) path → Aligns (Path.splitPath e'.1) path →
    ¬ MoreSpecific (Path.splitPath e.1) (Path.splitPath e'.1) →
    ¬ MoreSpecific (Path.splitPath e'.1) (Path.splitPath e.1) → e.2 = e'.2 := by
  intro e he e' he' h1 h2 h3 h4
  by_cases h : e.2 = e'.2
  · exact h
  exfalso
  rw [← Path.scoreLt_iff, Bool.not_eq_true] at h3 h4
  have := Path.table_conflict e he e' he' (Path.scoreLt_total h4 h3) h
  exact Path.conflict_disjoint this path h1 h2

/-- **C14.** Reordering the table never changes the answer. -/
theorem C14_order_irrelevant (U : Uni) (M : List (Str × List Gen.Cls)) (hM : M.Perm Gen.mappings)
    (path : Str) : Path.expectedType U M path = Path.expectedType U Gen.mappings path := by
  obtain ⟨a1, a2⟩ := C14_most_specific U M path
  obtain ⟨b1, b2⟩ := C14_most_specific U Gen.mappings path
  cases ha : Path.expectedType U M path with
  | none =>
    symm; rw [b1]
    exact fun e he => a1.1 ha e (hM.mem_iff.2 he)
  | some t =>
    cases hb : Path.expectedType U Gen.mappings path with
    | none =>
      exfalso
      obtain ⟨e, he, _, hal, _⟩ := a2 t ha
      exact b1.1 hb e (hM.mem_iff.1 he) hal
    | some t' =>
      obtain ⟨e, he, rfl, hal, hbest⟩ := a2 t ha
      obtain ⟨e', he', rfl, hal', hbest'⟩ := b2 t' hb
      congr 1
      exact C14_no_ties _ e (hM.mem_iff.1 he) e' he' hal hal' (hbest' e (hM.mem_iff.1 he) hal)
        (hbest e' (hM.mem_iff.2 he') hal')

end Verif.Props
