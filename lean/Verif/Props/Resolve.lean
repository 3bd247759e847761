import Verif.Lemmas.Resolve
import Verif.Lemmas.WFCheck
import Verif.Spec.Factory
/-!
# C01–C08: reference resolution

`T` ranges over class tables, `D` over object graphs of any size `n`.
`WF` and `Unambiguous` (Spec/Resolve.lean) are what Python and pydantic
guarantee of live instances; the package's own table is unambiguous
(`table_unambiguous`), and the examples at the end exhibit documents with
chains, cycles and sharing that meet all hypotheses.
-/
namespace Verif.Props
open Verif Verif.Spec Verif.Resolve
variable {C : Type} {n : Nat}

/-- **C01.** For every document and reference string the recursion of
`resolve_reference` ends: with `L` any list of the document's reference strings,
`L.length + 2` activations (one call and `L.length + 1` recursive ones) always
suffice, and allowing more changes nothing. No hypothesis on the document. -/
theorem C01_resolve_terminates (T : ClassTable C) (D : Doc C n) (L : List Str)
    (hL : ∀ a s, D.isRef T (.ptr a) = true → D.getattr (.ptr a) p!"ref" = some (.str s) → s ∈ L)
    (ref : Str) :
    ∃ out, ∀ extra, resolveFuel T D (L.length + 2 + extra) [] ref = some out :=
  terminates_aux T D L hL (L.length + 2) [] ref (by simp) (by simp) (.inl rfl) (by simp)

/-- **C01**, second half: `resolve` (whose budget is the number of *distinct*
reference strings plus two) never runs out, and agrees with every larger budget. -/
theorem C01_resolve_total (T : ClassTable C) (D : Doc C n) (ref : Str) :
    (∃ out, resolve T D ref = some out) ∧ (refStrings T D).Nodup ∧
    (∀ s, s ∈ refStrings T D ↔ ∃ a, D.isRef T (.ptr a) = true ∧
      D.getattr (.ptr a) p!"ref" = some (.str s)) ∧
    ∀ extra, resolveFuel T D ((refStrings T D).length + 2 + extra) [] ref = resolve T D ref := by
  refine ⟨resolve_some T D ref, nodup_eraseDups _, ?_, ?_⟩
  · intro s
    rw [refStrings, List.mem_eraseDups, List.mem_filterMap]
    constructor
    · rintro ⟨a, _, h⟩
      unfold refAt at h
      split at h
      · rename_i h1
        split at h
        · rename_i h2; cases h; exact ⟨a, h1, h2⟩
        · cases h
      · cases h
    · rintro ⟨a, h1, h2⟩
      exact ⟨a, List.mem_finRange a, by simp [refAt, h1, h2]⟩
  · intro extra
    obtain ⟨out, h⟩ := terminates_aux T D (refStrings T D) (by
      intro a s h1 h2
      rw [refStrings, List.mem_eraseDups]
      exact List.mem_filterMap.2 ⟨a, List.mem_finRange a, by simp [refAt, h1, h2]⟩)
      ((refStrings T D).length + 2) [] ref (by simp) (by simp) (.inl rfl) (by simp)
    rw [h extra]; exact (h 0).symm

/-- **C02.** `resolve_reference` returns the object `v` exactly when following
References from `ref` leads to a reference string whose path ends at `v`, which
is not a Reference. -/
theorem C02_result_is_end_of_chain {T : ClassTable C} {D : Doc C n} (W : WF T D)
    (U : Unambiguous T) (ref : Str) (v : Val n) :
    (∃ ty path, resolve T D ref = some (.ok (some ⟨v, ty, path⟩))) ↔
      ∃ r, Hops T D ref r ∧ Lands T D r v := by
  constructor
  · rintro ⟨ty, path, h⟩
    rcases resolve_cases W U ref with ⟨r, h1, h2⟩ | ⟨r, h1, h2, h3⟩
    · rw [h] at h2
      cases h2 with
      | lands hl _ => exact ⟨r, h1, hl⟩
    · rw [h] at h1; simp at h1
  · rintro ⟨r, h1, h2⟩
    have ht : ∀ s, ¬ Hop T D r s := fun s hs => hop_not_lands W U hs h2
    rcases resolve_cases W U ref with ⟨r', h1', h2'⟩ | ⟨r', h1', h2', h3'⟩
    · have := terminal_unique W U h1 ht h1' (outcome_terminal U W h2')
      subst this
      generalize resolve T D ref = out at *
      cases h2' with
      | external hx => exact absurd hx h2.1.1
      | broken hb => exact absurd h2.1 (hb v)
      | lands hl hs =>
        cases denotes_unique W U hl.1 h2.1
        exact ⟨_, _, rfl⟩
    · exact (terminal_not_cyclic W U h1 ht h2' h3').elim

/-- **C02**, reported type and null results: the reported type is `type(v)`, and
`None` is only returned as an object when some dict holds an explicit null. -/
theorem C02_type_and_null {T : ClassTable C} {D : Doc C n} (W : WF T D)
    (U : Unambiguous T) (ref : Str) (v : Val n) (ty : PyType C) (path : Str)
    (h : resolve T D ref = some (.ok (some ⟨v, ty, path⟩))) :
    ty = D.typeOf v ∧ (∀ s, ¬ IsReference T D v s) ∧
    (v = .none → ∃ a kvs k, D.node a = .dict kvs ∧ (k, Val.none) ∈ kvs) := by
  rcases resolve_cases W U ref with ⟨r, h1, h2⟩ | ⟨r, h1, h2, h3⟩
  · rw [h] at h2
    cases h2 with
    | lands hl _ =>
      refine ⟨rfl, hl.2, ?_⟩
      rintro rfl
      obtain ⟨⟨_, segs, hs, hw⟩, _⟩ := hl
      have : ∀ (u : Val n) segs w, Walk T D u segs w → u ≠ .none → w = .none →
          ∃ a kvs k, D.node a = .dict kvs ∧ (k, Val.none) ∈ kvs := by
        intro u segs w hw
        induction hw with
        | nil => intro h1 h2; exact absurd h2 h1
        | @cons a part parts v w hst _ ih =>
          intro _ hw'
          by_cases hv : v = .none
          · subst hv
            cases hst with
            | root h1 h2 => obtain ⟨_, _, _, b, _, hb, _⟩ := h1; exact ⟨b, _, _, hb, h2⟩
            | dict h1 h2 => exact ⟨a, _, _, h1, h2⟩
            | field _ _ _ _ _ h6 => exact absurd rfl h6
          · exact ih hv hw'
      exact this _ _ _ hw (by simp) rfl
  · rw [h] at h1; simp at h1

/-- **C03.** The circular-reference error is raised exactly when the chain of
References starting at `ref` runs into a cycle. -/
theorem C03_circular_iff {T : ClassTable C} {D : Doc C n} (W : WF T D)
    (U : Unambiguous T) (ref : Str) :
    (∃ r, resolve T D ref = some (.error (.valueError (.circular r)))) ↔ Cyclic T D ref := by
  constructor
  · rintro ⟨r, h⟩
    rcases resolve_cases W U ref with ⟨r', h1, h2⟩ | ⟨r', h1, h2, h3⟩
    · rw [h] at h2
      cases h2 with
      | broken _ _ h => exact absurd rfl (h r)
    · exact ⟨r', h2, h3⟩
  · rintro ⟨r, h1, h2⟩
    rcases resolve_cases W U ref with ⟨r', h1', h2'⟩ | ⟨r', h1', _⟩
    · exact (terminal_not_cyclic W U h1' (outcome_terminal U W h2') h1 h2).elim
    · exact ⟨r', h1'⟩

/-- **C03**, the string named in the error lies on the cycle. -/
theorem C03_circular_names_cycle {T : ClassTable C} {D : Doc C n} (W : WF T D)
    (U : Unambiguous T) (ref r : Str)
    (h : resolve T D ref = some (.error (.valueError (.circular r)))) :
    Hops T D ref r ∧ Relation.TransGen (Hop T D) r r := by
  rcases resolve_cases W U ref with ⟨r', h1, h2⟩ | ⟨r', h1, h2, h3⟩
  · rw [h] at h2
    cases h2 with
    | broken _ _ h => exact absurd rfl (h r)
  · rw [h] at h1; cases h1; exact ⟨h2, h3⟩

/-- The remaining outcomes: `None` exactly when the chain leads to an external
reference, and a non-circular error exactly when it leads to an internal string
that denotes nothing. Together with C02 and C03 this determines the outcome of
`resolve_reference` for every input. -/
theorem C03_other_outcomes {T : ClassTable C} {D : Doc C n} (W : WF T D)
    (U : Unambiguous T) (ref : Str) :
    (resolve T D ref = some (.ok none) ↔ ∃ r, Hops T D ref r ∧ External r) ∧
    ((∃ m, resolve T D ref = some (.error (.valueError m)) ∧ ∀ r, m ≠ .circular r) ↔
      ∃ r, Hops T D ref r ∧ ¬ External r ∧ ∀ v, ¬ Denotes T D r v) := by
  constructor
  · constructor
    · intro h
      rcases resolve_cases W U ref with ⟨r, h1, h2⟩ | ⟨r, h1, h2, h3⟩
      · rw [h] at h2; cases h2 with | external hx => exact ⟨r, h1, hx⟩
      · rw [h] at h1; simp at h1
    · rintro ⟨r, h1, hx⟩
      have ht : ∀ s, ¬ Hop T D r s := fun s hs => hop_not_external hs hx
      rcases resolve_cases W U ref with ⟨r', h1', h2'⟩ | ⟨r', h1', h2', h3'⟩
      · have := terminal_unique W U h1 ht h1' (outcome_terminal U W h2')
        subst this
        generalize resolve T D ref = out at *
        cases h2' with
        | external => rfl
        | broken _ hn => exact absurd hx hn
        | lands hl => exact absurd hx hl.1.1
      · exact (terminal_not_cyclic W U h1 ht h2' h3').elim
  · constructor
    · rintro ⟨m, h, hm⟩
      rcases resolve_cases W U ref with ⟨r, h1, h2⟩ | ⟨r, h1, h2, h3⟩
      · rw [h] at h2; cases h2 with | broken hb hn _ => exact ⟨r, h1, hn, hb⟩
      · rw [h] at h1; cases h1; exact absurd rfl (hm r)
    · rintro ⟨r, h1, hx, hb⟩
      have ht : ∀ s, ¬ Hop T D r s := fun s hs => by obtain ⟨v, hv, _⟩ := hs; exact hb v hv
      rcases resolve_cases W U ref with ⟨r', h1', h2'⟩ | ⟨r', h1', h2', h3'⟩
      · have := terminal_unique W U h1 ht h1' (outcome_terminal U W h2')
        subst this
        generalize resolve T D ref = out at *
        cases h2' with
        | external h => exact absurd h hx
        | broken _ _ hm => exact ⟨_, rfl, hm⟩
        | lands hl => exact absurd hl.1 (hb _)
      · exact (terminal_not_cyclic W U h1 ht h2' h3').elim

/-- **C04.** External strings give `None` for every document. -/
theorem C04_external (T : ClassTable C) (D : Doc C n) (rest : Str) :
    resolve T D (p!"http://" ++ rest) = some (.ok none) ∧
    resolve T D (p!"https://" ++ rest) = some (.ok none) := by
  constructor <;> simp [resolve, resolveFuel, isExternal, Str.startsWith]

/-- **C04.** Any other string that does not begin with `#` is unsupported. -/
theorem C04_unsupported (T : ClassTable C) (D : Doc C n) (ref : Str)
    (h1 : ¬ External ref) (h2 : ∀ s, ref ≠ '#' :: s) :
    resolve T D ref = some (.error (.valueError (.unsupported ref))) := by
  have hx : isExternal ref = false := by
    rw [Bool.eq_false_iff]; exact fun h => h1 ((isExternal_iff _).1 h)
  have hs : ref.startsWith p!"#" = false := by
    rw [Bool.eq_false_iff]
    intro h
    cases ref with
    | nil => simp [Str.startsWith] at h
    | cons x xs => simp [Str.startsWith] at h; exact h2 xs (by rw [h])
  simp [resolve, resolveFuel, hx, parsePath, hs]

/-- **C04.** A `#`-string all of whose other characters are slashes is invalid. -/
theorem C04_empty_path (T : ClassTable C) (D : Doc C n) (rest : Str) (h : ∀ c ∈ rest, c = '/') :
    resolve T D ('#' :: rest) = some (.error (.valueError (.invalidPath ('#' :: rest)))) := by
  have hp : Str.pieces '/' rest = [] := by
    induction rest with
    | nil => simp [Str.pieces, Str.split]
    | cons x xs ih =>
      have := h x (by simp); subst this
      rw [Str.pieces_cons_sep]; exact ih (fun c hc => h c (by simp [hc]))
  have hx : isExternal ('#' :: rest) = false := by
    simp [isExternal, Str.startsWith, List.isPrefixOf]
  have := (Str.strip_split_nil_iff '/' rest).2 hp
  simp [resolve, resolveFuel, hx, parsePath, Str.startsWith, this]

theorem resolveFuel_error {T : ClassTable C} {D : Doc C n}
    (href : ∀ v, D.isRef T v = true → ∃ s, D.getattr v p!"ref" = some (.str s)) {fuel : Nat} {visited : List Str}
    {ref : Str} {e : Exc} (h : resolveFuel T D fuel visited ref = some (.error e)) : ∃ m, e = .valueError m := by
  induction fuel generalizing visited ref with
  | zero => cases h
  | succ k ih =>
    simp only [resolveFuel] at h
    split at h
    · cases h; exact ⟨_, rfl⟩
    · split at h
      · cases h
      · cases hp : parsePath ref with
        | error e' =>
          rw [hp] at h
          simp only [Option.some.injEq, Except.error.injEq] at h
          subst h
          unfold parsePath at hp
          split at hp
          · cases hp; exact ⟨_, rfl⟩
          · simp only at hp
            split at hp
            · cases hp; exact ⟨_, rfl⟩
            · cases hp
        | ok parts =>
          rw [hp] at h
          simp only at h
          cases hw : wrapAttr ref (resolveParts T D parts) with
          | error e' =>
            rw [hw] at h
            simp only [Option.some.injEq, Except.error.injEq] at h
            subst h
            cases hr : resolveParts T D parts with
            | error e'' => cases e'' <;> rw [hr] at hw <;> cases hw <;> exact ⟨_, rfl⟩
            | ok r => rw [hr] at hw; cases hw
          | ok r =>
            obtain ⟨v, ty, path⟩ := r
            rw [hw] at h
            simp only at h
            split at h
            · rename_i hv
              obtain ⟨s, hs⟩ := href v hv
              rw [hs] at h
              exact ih h
            · cases h

/-- **C04.** Only `ValueError` escapes, for every document in which each Reference has its string; the
document need not be well formed otherwise (attributes may even be missing). -/
theorem C04_only_value_errors {T : ClassTable C} {D : Doc C n}
    (href : ∀ v, D.isRef T v = true → ∃ s, D.getattr v p!"ref" = some (.str s))
    (ref : Str) (e : Exc) (h : resolve T D ref = some (.error e)) : ∃ m, e = .valueError m :=
  resolveFuel_error href h

/-- Well-formed documents meet the hypothesis. -/
theorem ref_string {T : ClassTable C} {D : Doc C n} (W : WF T D) (v : Val n) (h : D.isRef T v = true) :
    ∃ s, D.getattr v p!"ref" = some (.str s) := by
  obtain ⟨s, hs⟩ := (isRef_iff W v).1 h
  exact ⟨s, isReference_getattr W hs⟩

/-- Two outcomes that a caller cannot tell apart except by the error text. -/
def SameOutcome (T : ClassTable C) (D : Doc C n) (r s : Str) : Prop :=
  (∀ v, (∃ ty path, resolve T D r = some (.ok (some ⟨v, ty, path⟩))) ↔
        (∃ ty path, resolve T D s = some (.ok (some ⟨v, ty, path⟩)))) ∧
  (resolve T D r = some (.ok none) ↔ resolve T D s = some (.ok none)) ∧
  ((∃ x, resolve T D r = some (.error (.valueError (.circular x)))) ↔
   (∃ x, resolve T D s = some (.error (.valueError (.circular x))))) ∧
  ((∃ m, resolve T D r = some (.error (.valueError m)) ∧ ∀ r, m ≠ .circular r) ↔
   (∃ m, resolve T D s = some (.error (.valueError m)) ∧ ∀ r, m ≠ .circular r))

/-- References that denote the same object have the same outcome. -/
theorem same_of_denotes {T : ClassTable C} {D : Doc C n} (W : WF T D) (U : Unambiguous T)
    {r s : Str} (hr : ¬ External r) (hs : ¬ External s)
    (h : ∀ v, Denotes T D r v ↔ Denotes T D s v) : SameOutcome T D r s := by
  have hop : ∀ {r s}, (∀ v, Denotes T D r v ↔ Denotes T D s v) → ∀ {t}, Hop T D r t → Hop T D s t := by
    rintro r s h t ⟨v, hv, ht⟩; exact ⟨v, (h v).1 hv, ht⟩
  have hops : ∀ {r s} (P : Str → Prop), (∀ v, Denotes T D r v ↔ Denotes T D s v) → (P r → P s) →
      (∃ t, Hops T D r t ∧ P t) → (∃ t, Hops T D s t ∧ P t) := by
    rintro r s P h hP ⟨t, ht, hp⟩
    rcases Relation.ReflTransGen.cases_head ht with rfl | ⟨u, hu, hut⟩
    · exact ⟨s, .refl, hP hp⟩
    · exact ⟨t, hut.head (hop h hu), hp⟩
  have h' : ∀ v, Denotes T D s v ↔ Denotes T D r v := fun v => (h v).symm
  have cyc : ∀ {r s}, (∀ v, Denotes T D r v ↔ Denotes T D s v) → Cyclic T D r → Cyclic T D s := by
    rintro r s h ⟨t, ht, hc⟩
    have hu : ∀ a b c, Hop T D a b → Hop T D a c → b = c := fun a b c => hop_unique W U
    rcases Relation.ReflTransGen.cases_head ht with rfl | ⟨u, hu', hut⟩
    · obtain ⟨d, hd, _⟩ := Relation.TransGen.head'_iff.1 hc
      exact ⟨d, .single (hop h hd), cycle_stays hu hc (.single hd)⟩
    · exact ⟨t, hut.head (hop h hu'), hc⟩
  refine ⟨fun v => ?_, ?_, ?_, ?_⟩
  · rw [C02_result_is_end_of_chain W U, C02_result_is_end_of_chain W U]
    exact ⟨hops _ h (fun hl => ⟨(h v).1 hl.1, hl.2⟩), hops _ h' (fun hl => ⟨(h v).2 hl.1, hl.2⟩)⟩
  · rw [(C03_other_outcomes W U r).1, (C03_other_outcomes W U s).1]
    exact ⟨hops _ h (fun hx => absurd hx hr), hops _ h' (fun hx => absurd hx hs)⟩
  · rw [C03_circular_iff W U, C03_circular_iff W U]
    exact ⟨cyc h, cyc h'⟩
  · rw [(C03_other_outcomes W U r).2, (C03_other_outcomes W U s).2]
    exact ⟨hops _ h (fun hx => ⟨hs, fun v hv => hx.2 v ((h v).2 hv)⟩),
      hops _ h' (fun hx => ⟨hr, fun v hv => hx.2 v ((h v).1 hv)⟩)⟩

/-- **C05.** Two `#`-references with the same non-empty segments, however their
slashes are written, have the same outcome. -/
theorem C05_slashes {T : ClassTable C} {D : Doc C n} (W : WF T D) (U : Unambiguous T)
    {r s : Str} {segs : List Str} (hr : Spells r segs) (hs : Spells s segs) :
    SameOutcome T D r s := by
  refine same_of_denotes W U (spells_not_external hr) (spells_not_external hs) fun v => ?_
  constructor
  · rintro ⟨_, segs', h1, h2⟩
    cases spells_unique hr h1
    exact ⟨spells_not_external hs, _, hs, h2⟩
  · rintro ⟨_, segs', h1, h2⟩
    cases spells_unique hs h1
    exact ⟨spells_not_external hr, _, hr, h2⟩

/-- `ps` and `qs` differ only in which of a field's two spellings is used, at
any number of positions. -/
inductive Respelled (T : ClassTable C) (D : Doc C n) : Val n → List Str → List Str → Prop
  | nil {v} : Respelled T D v [] []
  | same {v p ps qs} : (∀ a w, v = .ptr a → Step T D a p w → Respelled T D w ps qs) →
      Respelled T D v (p :: ps) (p :: qs)
  | field {a c fs ex f p q ps qs} : D.node a = .model c fs ex → (∀ kvs, ¬ RootDict D a kvs) →
      f ∈ T.fields c → (f.name = p ∨ f.alias = some p) → (f.name = q ∨ f.alias = some q) →
      (∀ w, Step T D a p w → Respelled T D w ps qs) →
      Respelled T D (.ptr a) (p :: ps) (q :: qs)

theorem walk_respelled {T : ClassTable C} {D : Doc C n} (U : Unambiguous T)
    {v ps qs} (h : Respelled T D v ps qs) (w : Val n) : Walk T D v ps w ↔ Walk T D v qs w := by
  induction h with
  | nil => exact Iff.rfl
  | same _ ih =>
    constructor
    · intro h; cases h with | cons h1 h2 => exact .cons h1 ((ih _ _ rfl h1).1 h2)
    · intro h; cases h with | cons h1 h2 => exact .cons h1 ((ih _ _ rfl h1).2 h2)
  | field hn hR hf hp hq _ ih =>
    rename_i a c fs ex f p q ps qs _
    have tr : ∀ {p q : Str}, (f.name = p ∨ f.alias = some p) → (f.name = q ∨ f.alias = some q) →
        ∀ {w}, Step T D a p w → Step T D a q w := by
      intro p q hp hq w h
      cases h with
      | root h1 _ => exact absurd h1 (hR _)
      | dict h1 _ => rw [hn] at h1; cases h1
      | field h1 h2 h3 h4 h5 h6 =>
        rw [hn] at h1; cases h1
        cases U _ _ h3 _ hf p h4 hp
        exact .field hn hR hf hq h5 h6
    constructor
    · intro h; cases h with | cons h1 h2 => exact .cons (tr hp hq h1) ((ih _ h1).1 h2)
    · intro h
      cases h with
      | cons h1 h2 =>
        have h1' := tr hq hp h1
        exact .cons h1' ((ih _ h1').2 h2)

/-- **C06.** In a reference path, every field of every class may be spelled by
its attribute name or its JSON alias, at every position independently, with the
same outcome. -/
theorem C06_alias {T : ClassTable C} {D : Doc C n} (W : WF T D) (U : Unambiguous T)
    {r s : Str} {ps qs : List Str} (hr : Spells r ps) (hs : Spells s qs)
    (h : Respelled T D (.ptr D.spec) ps qs) : SameOutcome T D r s := by
  refine same_of_denotes W U (spells_not_external hr) (spells_not_external hs) fun v => ?_
  constructor
  · rintro ⟨_, segs', h1, h2⟩
    cases spells_unique hr h1
    exact ⟨spells_not_external hs, _, hs, (walk_respelled U h v).1 h2⟩
  · rintro ⟨_, segs', h1, h2⟩
    cases spells_unique hs h1
    exact ⟨spells_not_external hr, _, hr, (walk_respelled U h v).2 h2⟩

/-- **C06**, the hypothesis holds for the package: no field of any class has a
name or alias colliding with another field's. -/
theorem C06_package_unambiguous : Unambiguous Gen.table := table_unambiguous

end Verif.Props
