import Verif.Lemmas.SlotsCheck
import Verif.Props.Unified
/-!
# C15, C16: expected types and entry names
-/
namespace Verif.Props
open Verif Verif.Spec Verif.Resolve Verif.Unified Verif.Gen Verif.Slots

theorem mem_traits_abs {l : List LocStep} :
    ASeg.lit p!"traits" ∈ (l.filterMap absStep).reverse ↔ LocStep.field p!"traits" ∈ l := by
  rw [List.mem_reverse, List.mem_filterMap]
  constructor
  · rintro ⟨s, hs, he⟩
    cases s with
    | field f =>
      simp only [absStep] at he
      split at he
      · cases he
      · cases he; exact hs
    | key k => cases he
    | index i => cases he
  · intro h; exact ⟨_, h, by simp [absStep]⟩

theorem slot_expected (U : Uni) {steps owner cs} (h : Slot steps owner cs) (hk : OrdinaryKeys steps) :
    (InlineTraitField steps owner → Path.expectedType U mappings (render steps) = some [owner.1]) ∧
    (¬ InlineTraitField steps owner → Path.expectedType U mappings (render steps) = some cs) := by
  obtain ⟨t, hd, href, rfl⟩ := h
  have hgood : Path.Good steps := by
    rcases declared_good hd hk with h | ⟨l', _, _, h3⟩
    · exact h
    · exfalso; cases t <;> simp_all [isDict, members]
  obtain ⟨n, hn⟩ := checkAll_sound all_slots hd
  have hany : (members t).any isReference = true := List.any_eq_true.2 ⟨_, href, rfl⟩
  cases n with
  | zero => cases hn
  | succ n =>
    simp only [checkAll, hany, Bool.not_true, Bool.false_or, Bool.and_eq_true, slotTest,
      decide_eq_true_eq] at hn
    have e := expectedType_abs U hgood (stands_names (steps := steps) fun k h => (hk k h).2)
    rw [e, hn.1]
    have hb : brokenA (steps.filterMap absStep).reverse owner = true ↔ InlineTraitField steps owner := by
      simp only [brokenA, Bool.and_eq_true, decide_eq_true_eq, mem_traits_abs, InlineTraitField]
    constructor
    · intro hi; rw [if_pos (hb.2 hi)]
    · intro hi; rw [if_neg (fun h => hi (hb.1 h))]; rfl

/-- **C15** (partial). At every place in the class graph where a Reference may stand, with
ordinary names on the way, and except for the listed fields of inline traits, the expected
type is the declared one. Missing from the full statement: those fields
(`C15_inline_traits_wrong`) and reserved names (C16). -/
theorem C15_expected_is_declared_partial (U : Uni) {steps owner cs} (h : Slot steps owner cs)
    (hk : OrdinaryKeys steps) (hi : ¬ InlineTraitField steps owner) :
    Path.expectedType U mappings (render steps) = some cs :=
  (slot_expected U h hk).2 hi

/-- **C15, refuted part.** In a trait written inline, a Reference in `tags`, `security`,
`externalDocs` or `correlationId` is expected to point to a trait. -/
theorem C15_inline_traits_wrong (U : Uni) {steps owner cs} (h : Slot steps owner cs)
    (hk : OrdinaryKeys steps) (hi : InlineTraitField steps owner) :
    Path.expectedType U mappings (render steps) = some [owner.1] :=
  (slot_expected U h hk).1 hi

theorem ordinary_of_check {k : Str} (h1 : (k.all fun c => c ≠ '.' && c ≠ '\\' && c ≠ '[') = true)
    (h2 : k ≠ p!"root") (h3 : (mappings.all fun e => !(Str.split '.' e.1).contains k) = true) : Ordinary k := by
  refine ⟨fun c hc => ?_, ?_⟩
  · have := List.all_eq_true.1 h1 c hc
    simp only [Bool.and_eq_true, decide_eq_true_eq] at this
    exact ⟨this.1.1, this.1.2, this.2⟩
  · rintro (h | ⟨e, he, hm⟩)
    · exact h2 h
    · have := List.all_eq_true.1 h3 e he
      simp_all

theorem ordinary_x : Ordinary p!"my-Entry_1" :=
  ordinary_of_check (by decide) (by decide) (by decide +kernel)

/-- A slot to which C15 applies: `channels.K.messages.K2.payload`. -/
theorem slot_payload (k k2 : Str) : Slot [.field p!"channels", .field p!"root", .key k, .field p!"messages",
    .field p!"root", .key k2, .field p!"payload"] (.Message, p!"payload") [.MultiFormatSchema, .Schema] := by
  have h0 := Declared.spec
  have h1 := h0.field (c := .AsyncAPI3) (f := ⟨p!"channels", none, .union [.model .Channels, .none], .null, false, true, none⟩) (by simp [members]) (by simp [classDef, defAsyncAPI3]) rfl
  have h2 := h1.field (c := .Channels) (f := ⟨p!"root", none, .dict (.union [.model .Channel, .model .Reference]), .required, false, false, none⟩) (by simp [members]) (by simp [classDef, defChannels]) rfl
  have h3 := h2.entry (k := k) (u := .union [.model .Channel, .model .Reference]) (by simp [members])
  have h4 := h3.field (c := .Channel) (f := ⟨p!"messages", none, .union [.model .Messages, .none], .null, false, true, none⟩) (by simp [members]) (by simp [classDef, defChannel]) rfl
  have h5 := h4.field (c := .Messages) (f := ⟨p!"root", none, .dict (.union [.model .Message, .model .Reference]), .required, false, false, none⟩) (by simp [members]) (by simp [classDef, defMessages]) rfl
  have h6 := h5.entry (k := k2) (u := .union [.model .Message, .model .Reference]) (by simp [members])
  have h7 := h6.field (c := .Message) (f := ⟨p!"payload", none, .union [.model .MultiFormatSchema, .model .Schema, .model .Reference, .none], .null, false, true, none⟩) (by simp [members]) (by simp [classDef, defMessage]) rfl
  exact ⟨_, h7, by simp [members], by decide⟩

example (U : Uni) : Path.expectedType U mappings (render [.field p!"channels", .field p!"root",
    .key p!"my-Entry_1", .field p!"messages", .field p!"root", .key p!"my-Entry_1", .field p!"payload"]) =
      some [.MultiFormatSchema, .Schema] :=
  C15_expected_is_declared_partial U (slot_payload _ _)
    (by intro k hk
        simp only [List.mem_cons, reduceCtorEq, LocStep.key.injEq, List.not_mem_nil, or_false, false_or, or_self] at hk
        subst hk; exact ordinary_x)
    (by intro h; exact absurd h.1 (by simp))

/-- A slot in an inline trait: `operations.K.traits[i].tags[j]`. -/
theorem slot_trait_tag (k : Str) (i j : Nat) : Slot [.field p!"operations", .field p!"root", .key k,
    .field p!"traits", .index i, .field p!"tags", .index j] (.OperationTrait, p!"tags") [.Tag] := by
  have h0 := Declared.spec
  have h1 := h0.field (c := .AsyncAPI3) (f := ⟨p!"operations", none, .union [.model .Operations, .none], .null, false, true, none⟩) (by simp [members]) (by simp [classDef, defAsyncAPI3]) rfl
  have h2 := h1.field (c := .Operations) (f := ⟨p!"root", none, .dict (.union [.model .Operation, .model .Reference]), .required, false, false, none⟩) (by simp [members]) (by simp [classDef, defOperations]) rfl
  have h3 := h2.entry (k := k) (u := .union [.model .Operation, .model .Reference]) (by simp [members])
  have h4 := h3.field (c := .Operation) (f := ⟨p!"traits", none, .union [.list (.union [.model .OperationTrait, .model .Reference]), .none], .null, false, true, none⟩) (by simp [members]) (by simp [classDef, defOperation]) rfl
  have h5 := h4.item (i := i) (u := .union [.model .OperationTrait, .model .Reference]) (by simp [members])
  have h6 := h5.field (c := .OperationTrait) (f := ⟨p!"tags", none, .union [.list (.union [.model .Tag, .model .Reference]), .none], .null, false, true, none⟩) (by simp [members]) (by simp [classDef, defOperationTrait]) rfl
  have h7 := h6.item (i := j) (u := .union [.model .Tag, .model .Reference]) (by simp [members])
  exact ⟨_, h7, by simp [members], by decide⟩

/-- **C15, refuted.** The full statement fails even for ordinary names. -/
theorem C15_refuted (U : Uni) : ¬ ∀ steps owner cs, Slot steps owner cs → OrdinaryKeys steps →
    Path.expectedType U mappings (render steps) = some cs := by
  intro h
  have hs := slot_trait_tag p!"my-Entry_1" 0 0
  have hk : OrdinaryKeys [.field p!"operations", .field p!"root", .key p!"my-Entry_1",
    .field p!"traits", .index 0, .field p!"tags", .index 0] := by
    intro k hk
    simp only [List.mem_cons, reduceCtorEq, LocStep.key.injEq, List.not_mem_nil, or_false, false_or, or_self] at hk
    subst hk; exact ordinary_x
  have h1 := h _ _ _ hs hk
  have h2 := C15_inline_traits_wrong U hs hk ⟨by simp, by simp⟩
  rw [h1] at h2; cases h2

/-! ### C16 -/

theorem Declared.rename {l l' o t} (h : Declared l o t) (hr : Renamed l l') : Declared l' o t := by
  have snoc : ∀ {l : List LocStep} {x l'}, Renamed (l ++ [x]) l' →
      ∃ m y, l' = m ++ [y] ∧ Renamed l m ∧ (x = y ∨ ∃ k k', x = .key k ∧ y = .key k') := by
    intro l x l' h
    induction l generalizing l' with
    | nil => cases h with | cons h h2 => cases h2; exact ⟨[], _, rfl, .nil, h⟩
    | cons a l ih =>
      cases h with
      | cons ha hl =>
        obtain ⟨m, y, rfl, hm, hy⟩ := ih hl
        exact ⟨_ :: m, y, rfl, .cons ha hm, hy⟩
  induction h generalizing l' with
  | spec => cases hr; exact .spec
  | item _ hm ih =>
    obtain ⟨m, y, rfl, h1, h2⟩ := snoc hr
    rcases h2 with rfl | ⟨k, k', h2, _⟩
    · exact (ih h1).item hm
    · cases h2
  | entry _ hm ih =>
    obtain ⟨m, y, rfl, h1, h2⟩ := snoc hr
    rcases h2 with rfl | ⟨k, k', h2, rfl⟩
    · exact (ih h1).entry hm
    · exact (ih h1).entry hm
  | field _ hm hf he ih =>
    obtain ⟨m, y, rfl, h1, h2⟩ := snoc hr
    rcases h2 with rfl | ⟨k, k', h2, _⟩
    · exact (ih h1).field hm hf he
    · cases h2

/-- **C16** (partial). Renaming entries from ordinary names to ordinary names, at every place
where a Reference may stand, does not change the expected type (hence neither the check, which
depends on the location only through it). Missing: reserved names. -/
theorem C16_ordinary_names_partial (U : Uni) {l l' owner cs} (h : Slot l owner cs) (hr : Renamed l l')
    (hl : OrdinaryKeys l) (hl' : OrdinaryKeys l') :
    Path.expectedType U mappings (render l) = Path.expectedType U mappings (render l') := by
  have hs' : Slot l' owner cs := by
    obtain ⟨t, hd, h2, h3⟩ := h
    exact ⟨t, Declared.rename hd hr, h2, h3⟩
  have hi : InlineTraitField l owner ↔ InlineTraitField l' owner := by
    have : LocStep.field p!"traits" ∈ l ↔ LocStep.field p!"traits" ∈ l' := by
      unfold Renamed at hr
      clear h hs' hl hl'
      induction hr with
      | nil => simp
      | cons hab _ ih =>
        simp only [List.mem_cons, ih]
        rcases hab with rfl | ⟨k, k', rfl, rfl⟩ <;> simp
    simp only [InlineTraitField, this]
  obtain ⟨a1, a2⟩ := slot_expected U h hl
  obtain ⟨b1, b2⟩ := slot_expected U hs' hl'
  by_cases hx : InlineTraitField l owner
  · rw [a1 hx, b1 (hi.1 hx)]
  · rw [a2 hx, b2 (fun h => hx (hi.2 h))]

theorem expectedType_no_index (U : Uni) (M : List (Str × List Cls)) (p : Str) (h : ∀ c ∈ p, c ≠ '[') :
    Path.expectedType U M p = Path.expectedType Uni.ascii M p := by
  have sub : ∀ (V : Uni) (s : Str), (∀ c ∈ s, c ≠ '[') → Path.subIdx V s = s := by
    intro V s hs
    have := Path.subIdxAux_pass V s [] hs
    simpa [Path.subIdx, Path.subIdxAux] using this
  have rep : ∀ k s, (∀ c ∈ s, c ≠ '[') → ∀ c ∈ Str.replaceAux p!".root." p!"." k s, c ≠ '[' := by
    intro k s
    induction s generalizing k with
    | nil => intro _ c hc; cases k <;> cases hc
    | cons x xs ih =>
      intro hs c hc
      cases k with
      | succ k => exact ih k (fun c hc => hs c (by simp [hc])) c hc
      | zero =>
        simp only [Str.replaceAux] at hc
        split at hc
        · rcases List.mem_append.1 hc with hc | hc
          · simp at hc; subst hc; decide
          · exact ih _ (fun c hc => hs c (by simp [hc])) c hc
        · rcases List.mem_cons.1 hc with rfl | hc
          · exact hs _ (by simp)
          · exact ih 0 (fun c hc => hs c (by simp [hc])) c hc
  have : Path.normalize U p = Path.normalize Uni.ascii p := by
    have hr := rep 0 p h
    unfold Path.normalize
    have hr' : ∀ c ∈ (if Str.endsWith (Str.replace p p!".root." p!".") p!".root" = true then
        (Str.replace p p!".root." p!".").take ((Str.replace p p!".root." p!".").length - 5)
        else Str.replace p p!".root." p!"."), c ≠ '[' := by
      split
      · intro c hc; exact hr c (List.mem_of_mem_take hc)
      · exact hr
    simp only [sub _ _ hr']
  rw [Path.expectedType, this, Path.expectedType]

theorem badB_iff (coll cs k) : badB coll cs k = true ↔ BadName coll cs k := by
  simp only [badB, BadName, Bool.or_eq_true, List.any_eq_true, Bool.and_eq_true, decide_eq_true_eq]
  refine or_congr ?_ Iff.rfl
  constructor
  · rintro ⟨⟨k', c⟩, h1, rfl, h2⟩; exact ⟨c, h1, h2⟩
  · rintro ⟨c, h1, h2⟩; exact ⟨(k, c), h1, rfl, h2⟩

theorem collections_tame : ∀ c ∈ collections, ∀ f ∈ c.1,
    (∀ x ∈ f, x ≠ '.' ∧ x ≠ '\\' ∧ x ≠ '[') ∧ f ≠ p!"root" := by decide +kernel

/-- **C16, exact.** For every collection and every entry name without `.`, `\`, `[` (the key
pattern excludes them): a Reference stored under that name gets the right expected type exactly
when the name is not one of the listed bad ones. -/
theorem C16_entry_names_exact (U : Uni) : ∀ c ∈ collections, ∀ k : Str,
    (∀ x ∈ k, x ≠ '.' ∧ x ≠ '\\' ∧ x ≠ '[') →
    (Path.expectedType U mappings (render (entryAt c.1 k)) = some c.2 ↔ ¬ BadName c.1 c.2 k) := by
  intro c hc k hk
  rw [← badB_iff]
  by_cases hr : k = p!"root"
  · subst hr
    rw [expectedType_no_index]
    · have := entry_root c hc
      by_cases hx : badB c.1 c.2 p!"root" = true
      · simpa [hx] using this
      · simpa [hx] using this
    · have : ∀ c ∈ collections, ∀ x ∈ render (entryAt c.1 p!"root"), x ≠ '[' := by decide +kernel
      exact this c hc
  · have hg : Path.Good (entryAt c.1 k) := by
      have hct := collections_tame c hc
      unfold entryAt
      generalize c.1 = fs at hct
      induction fs with
      | nil => exact .root hk hr .nil
      | cons f fs ih =>
        exact .field (hct f (by simp)).1 (hct f (by simp)).2 (ih fun g hg => hct g (by simp [hg]))
    have hnames : Path.names (entryAt c.1 k) = c.1 ++ [k] := by
      have hct := collections_tame c hc
      unfold entryAt Path.names
      generalize c.1 = fs at hct
      induction fs with
      | nil => simp [Path.dropRoot]
      | cons f fs ih =>
        have hf := (hct f (by simp)).2
        have := ih fun g hg => hct g (by simp [hg])
        simp only [List.map_cons, List.cons_append, Path.dropRoot, LocStep.field.injEq, hf, if_false,
          List.filterMap_cons, this]
    have stands : ∀ a, Stands k a → List.Forall₂ Stands (Path.names (entryAt c.1 k)) (entrySegs c.1 a) := by
      intro a ha
      rw [hnames, entrySegs]
      generalize c.1 = fs
      induction fs with
      | nil => exact .cons ha .nil
      | cons f fs ih => exact .cons .lit ih
    by_cases hw : k ∈ reservedWords
    · rw [expectedType_abs U hg (stands _ .lit)]
      have := entry_words c hc k hw hr
      by_cases hx : badB c.1 c.2 k = true
      · simpa [hx] using this
      · simpa [hx] using this
    · have hres : ¬ Reserved k := by
        rintro (h | ⟨e, he, hm⟩)
        · exact hr h
        · exact hw (List.mem_flatMap.2 ⟨e, he, hm⟩)
      rw [expectedType_abs U hg (stands _ (.key hres)), entry_other c hc]
      have hb : badB c.1 c.2 k = false := by
        rw [Bool.eq_false_iff]; intro hb
        rw [badB_iff] at hb
        rcases hb with ⟨d, hd, _⟩ | ⟨h, _⟩
        · have words : ∀ e ∈ [(p!"channel", Cls.Channel), (p!"correlation_id", .CorrelationID),
            (p!"external_docs", .ExternalDocumentation), (p!"messages", .Message), (p!"reply", .OperationReply),
            (p!"security", .SecurityScheme), (p!"servers", .Server), (p!"tags", .Tag)],
              e.1 ∈ reservedWords := by decide +kernel
          exact hw (words _ hd)
        · exact hr h
      simp [hb]

/-- **C16, refuted.** The expected type of an entry does depend on the entry's name. -/
theorem C16_refuted (U : Uni) :
    Path.expectedType U mappings (render (entryAt [p!"components", p!"messages"] p!"my-Entry_1")) = some [.Message] ∧
    Path.expectedType U mappings (render (entryAt [p!"components", p!"messages"] p!"channel")) = some [.Channel] ∧
    Path.expectedType U mappings (render (entryAt [p!"channels"] p!"root")) = none := by
  refine ⟨?_, ?_, ?_⟩ <;> rw [expectedType_no_index U _ _ (by decide)] <;> decide +kernel

end Verif.Props
