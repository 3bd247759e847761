import Verif.Props.Extract
/-!
# C67: putting objects in the place of References
-/
namespace Verif.Props
open Verif Verif.Gen Verif.Spec Verif.Pyd Verif.Mutate Verif.Document

section
variable {U : Uni} {limit : Option Nat} {doc doc' x x' : V} {steps : List LocStep} {c : Cls} {r : Str}

/-- What is right stays right when a Reference is replaced by an object of the class that it leads to. -/
theorem refOk_inlined {fs ex set} (hs : Sound U limit doc) (hat : TAt doc steps x) (hr : TRef x r) (hx' : x' = .inst c fs ex set)
    (h : Replaced x x' doc steps doc') (he : EndsIn doc r c) {e s} (hok : TRefOk doc e s) : TRefOk doc' e s := by
  have hx1 : ∃ c fs ex set, x = .inst c fs ex set := by obtain ⟨_, _, _, e, _⟩ := hr; exact ⟨_, _, _, _, e⟩
  have hx2 : ∃ c fs ex set, x' = .inst c fs ex set := ⟨_, _, _, _, hx'⟩
  have hsx : Sound U limit x := sound_within hs (at_within hat)
  -- a hop stays, or leads to the new object
  have hop : ∀ a b, THop doc a b → TRefOk doc e b → TRefOk doc' e b → TRefOk doc' e a := by
    rintro a b ⟨v, ⟨hne, segs, hsp, hw⟩, hb⟩ hokb hokb'
    rcases walk_changed hx1 hx2 h segs v hw with ⟨v', hw', ha⟩ | ⟨pre, suf, rfl, h1, h2, h3⟩
    · have hh : THop doc' a b := ⟨v', ⟨hne, segs, hsp, hw'⟩, alike_ref (by obtain ⟨_, _, _, _, rfl⟩ := hx1; simp) ha hb⟩
      rcases hokb' with ⟨z, h4, h5⟩ | ⟨z, c0, fs0, ex0, set0, cs, h4, h5⟩
      · exact .inl ⟨z, .head hh h4, h5⟩
      · exact .inr ⟨z, c0, fs0, ex0, set0, cs, .head hh h4, h5⟩
    · cases suf with
      | nil =>
        cases h3
        cases tref_unique hsx hb hr
        obtain ⟨cs, h4, h5⟩ := (ends_right hs he).1 hokb
        rw [List.append_nil] at hsp
        exact .inr ⟨a, c, fs, ex, set, cs, .refl, ⟨hne, pre, hsp, hx' ▸ h2⟩, he.1, h4, h5⟩
      | cons k ks =>
        rw [ref_walk hsx hr h3] at hb
        obtain ⟨_, _, _, e, _⟩ := hb
        cases e
  rcases hok with ⟨z, h1, h2⟩ | ⟨z, c0, fs0, ex0, set0, cs, h1, h2, h3, h4, h5⟩
  · have : TRefOk doc e s ∧ TRefOk doc' e s := by
      induction h1 using Relation.ReflTransGen.head_induction_on with
      | refl => exact ⟨.inl ⟨z, .refl, h2⟩, .inl ⟨z, .refl, h2⟩⟩
      | head h3 h4 ih => exact ⟨.inl ⟨z, .head h3 h4, h2⟩, hop _ _ h3 ih.1 ih.2⟩
    exact this.2
  · have : TRefOk doc e s ∧ TRefOk doc' e s := by
      induction h1 using Relation.ReflTransGen.head_induction_on with
      | refl =>
        refine ⟨.inr ⟨z, c0, fs0, ex0, set0, cs, .refl, h2, h3, h4, h5⟩, ?_⟩
        obtain ⟨hne, segs, hsp, hw⟩ := h2
        rcases walk_changed hx1 hx2 h segs _ hw with ⟨v', hw', ha⟩ | ⟨pre, suf, rfl, h6, h7, h8⟩
        · obtain ⟨fs', ex', set', rfl⟩ := alike_class ha rfl
          exact .inr ⟨z, c0, fs', ex', set', cs, .refl, ⟨hne, segs, hsp, hw'⟩, h3, h4, h5⟩
        · cases suf with
          | nil =>
            cases h8
            obtain ⟨_, _, _, e, _⟩ := hr
            cases e
            exact absurd rfl h3
          | cons k ks => cases ref_walk hsx hr h8
      | head h6 h7 ih => exact ⟨.inr ⟨z, c0, fs0, ex0, set0, cs, .head h6 h7, h2, h3, h4, h5⟩, hop _ _ h6 ih.1 ih.2⟩
    exact this.2

end

/-- **C67.** In an accepted document a Reference that leads to an object of class `c` is replaced by an object of that class. The
new document is accepted if and only if the References inside the new object are right where they now stand. -/
theorem C67_exact (U : Uni) (limit : Option Nat) (doc doc' x : V) (steps : List LocStep) (c : Cls) (fs ex : List (Str × V))
    (set : List Str) (r : Str) (hat : TAt doc steps x) (hr : TRef x r) (he : EndsIn doc r c)
    (h : Replaced x (.inst c fs ex set) doc steps doc')
    (hv : Valid U limit doc (.model .AsyncAPI3)) (hs : Sound U limit doc) (hcl : Clean doc (.model .AsyncAPI3))
    (hv' : Valid U limit doc' (.model .AsyncAPI3)) (hs' : Sound U limit doc') (hcl' : Clean doc' (.model .AsyncAPI3))
    (hp : Validator.unified.run U doc = some doc) :
    Validator.unified.run U doc' = some doc' ↔
      ∀ rest w s, TAt (.inst c fs ex set) rest w → TRef w s → TRightAt U mappings doc' (steps ++ rest) s := by
  have hxn : x ≠ .none := by obtain ⟨_, _, _, rfl, _⟩ := hr; simp
  have hnew : TAt doc' steps (.inst c fs ex set) := at_new (by simp) h hs ⟨_, hat⟩
  rw [run_iff hv' hs' hcl', demands_iff]
  have hd := demands_iff.1 ((run_iff hv hs hcl .unified doc).1 hp).2
  constructor
  · exact fun h1 rest w s ha hw => h1.2 _ w s (tat_append hnew ha) hw
  · refine fun h1 => ⟨rfl, fun ss w s ha hw => ?_⟩
    rcases at_changed (by simp) hxn h ha hw with ⟨w0, ha0, hw0⟩ | ⟨rest, rfl, hx⟩
    · exact rightAt_iff.2 (refOk_inlined hs hat hr rfl h he (rightAt_iff.1 (hd ss w0 s ha0 hw0)))
    · exact h1 rest w s hx hw

/-- **C67.** In particular the object may be the one that stands in the components (or anywhere else in the document): if its own References stand under
ordinary names (C16) in both places, and none in a place where a wrong type is expected (C15), the new document is accepted. -/
theorem C67_inline (U : Uni) (limit : Option Nat) (doc doc' x : V) (steps loc : List LocStep) (c : Cls) (fs ex : List (Str × V))
    (set : List Str) (r : Str) (hat : TAt doc steps x) (hr : TRef x r) (he : EndsIn doc r c)
    (hobj : TAt doc loc (.inst c fs ex set)) (h : Replaced x (.inst c fs ex set) doc steps doc')
    (hin : ∀ rest w s o cs, TAt (.inst c fs ex set) rest w → TRef w s → Slot (loc ++ rest) o cs → Slot (steps ++ rest) o cs →
      OrdinaryKeys (loc ++ rest) ∧ OrdinaryKeys (steps ++ rest) ∧ ¬ InlineTraitField (loc ++ rest) o ∧ ¬ InlineTraitField (steps ++ rest) o)
    (hv : Valid U limit doc (.model .AsyncAPI3)) (hs : Sound U limit doc) (hcl : Clean doc (.model .AsyncAPI3))
    (hv' : Valid U limit doc' (.model .AsyncAPI3)) (hs' : Sound U limit doc') (hcl' : Clean doc' (.model .AsyncAPI3))
    (hp : Validator.unified.run U doc = some doc) : Validator.unified.run U doc' = some doc' := by
  rw [C67_exact U limit doc doc' x steps c fs ex set r hat hr he h hv hs hcl hv' hs' hcl' hp]
  intro rest w s ha hw
  have hnew : TAt doc' steps (.inst c fs ex set) := at_new (by simp) h hs ⟨_, hat⟩
  have hnd : ¬ Data (V.inst c fs ex set) := by intro h; cases h
  have declared : ∀ {d : V} {l : List LocStep}, Clean d (.model .AsyncAPI3) → TAt d l (.inst c fs ex set) →
      ∃ o t, Declared l o t ∧ Ty.model c ∈ members t ∧ Clean (.inst c fs ex set) (.model c) := by
    intro d l hc ha
    obtain ⟨o0, t0, hd0, hcx⟩ := clean_at ha .spec hc hnd
    rw [List.nil_append] at hd0
    rcases clean_member hcx (declared_flat hd0) with h | ⟨m, hm, hcm, hnu⟩
    · exact absurd h hnd
    · cases hcm with
      | data h => exact absurd h hnd
      | union => exact absurd rfl (hnu _)
      | model a b => exact ⟨o0, t0, hd0, hm, .model a b⟩
  obtain ⟨o1, t1, hd1, hm1, hcx⟩ := declared hcl hobj
  obtain ⟨o2, t2, hd2, hm2, -⟩ := declared hcl' hnew
  have hrest : rest ≠ [] := by
    rintro rfl
    cases ha
    obtain ⟨_, _, _, e, _⟩ := hw
    cases e
    exact he.1 rfl
  have hwd : ¬ Data w := by
    obtain ⟨_, _, _, rfl, _⟩ := hw
    intro h; cases h
  obtain ⟨o, t, hd, hcw⟩ := clean_inside ha hcx hd1 hm1 hwd hrest
  have hdA := hd _ _ _ hd1 hm1
  have hdB := hd _ _ _ hd2 hm2
  have href : Ty.model .Reference ∈ members t := by
    obtain ⟨_, _, _, rfl, _⟩ := hw
    rcases clean_member hcw (declared_flat hdA) with h | ⟨m, hm, hcm, hnu⟩
    · exact absurd h hwd
    · cases hcm with
      | data h => exact absurd h hwd
      | union => exact absurd rfl (hnu _)
      | model a b => exact hm
  obtain ⟨cs', hsA, hsB⟩ := same_slot hdA hdB href
  obtain ⟨k1, k2, i1, i2⟩ := hin rest w s o cs' ha hw hsA hsB
  have hok : DemandsOf U doc (loc ++ rest) s .unified :=
    demands_iff.1 ((run_iff hv hs hcl .unified doc).1 hp).2 _ w s (tat_append hobj ha) hw
  rw [rightAt_iff, C15_expected_is_declared_partial U hsB k2 i2]
  exact refOk_inlined hs hat hr rfl h he ((demands_slot hsA k1 i1).1 hok)

/-- **C67.** The other validators want of the new object only that its own References are right where they now stand. -/
theorem C67_others (U : Uni) (limit : Option Nat) (doc doc' x x' : V) (steps : List LocStep) (r : Str) (hx' : x' ≠ .none) (hx2 : ∀ s, x' ≠ .str s)
    (hat : TAt doc steps x) (hr : TRef x r) (h : Replaced x x' doc steps doc')
    (hv : Valid U limit doc (.model .AsyncAPI3)) (hs : Sound U limit doc) (hcl : Clean doc (.model .AsyncAPI3))
    (hv' : Valid U limit doc' (.model .AsyncAPI3)) (hs' : Sound U limit doc') (hcl' : Clean doc' (.model .AsyncAPI3))
    (p : Validator) (hnot : p ≠ .unified) (hp : p.run U doc = some doc) :
    p.run U doc' = some doc' ↔ ∀ rest w s, TAt x' rest w → TRef w s → DemandsOf U doc' (steps ++ rest) s p := by
  have hxn : x ≠ .none := by obtain ⟨_, _, _, rfl, _⟩ := hr; simp
  have hnew : TAt doc' steps x' := at_new hx' h hs ⟨_, hat⟩
  obtain ⟨o, cs, hslot⟩ := C47_slots hcl hat hr
  have hkey : ∀ {F pre s}, TChecked doc F pre s → TChecked doc' F pre s := by
    rintro F pre s (h1 | ⟨rest, key, h1, h2, w, h3⟩)
    · exact .inl h1
    · rcases at_keeps hx' h h3 with h4 | ⟨h4, h5⟩
      · exact .inr ⟨rest, key, h1, h2, h4⟩
      · exact absurd (no_slot_above hslot h4) h5
  rw [run_iff hv' hs' hcl', demands_iff]
  have hd := demands_iff.1 ((run_iff hv hs hcl p doc).1 hp).2
  constructor
  · exact fun h1 rest w s ha hw => h1.2 _ w s (tat_append hnew ha) hw
  · refine fun h1 => ⟨rfl, fun ss w s ha hw => ?_⟩
    rcases at_changed hx2 hxn h ha hw with ⟨w0, ha0, hw0⟩ | ⟨rest, rfl, hxr⟩
    · have := hd ss w0 s ha0 hw0
      cases p
      case unified => exact absurd rfl hnot
      case tags => exact fun hpl => hkey (this hpl)
      case externalDocs => exact fun hpl => hkey (this hpl)
      all_goals trivial
    · exact h1 rest w s hxr hw

/-- **C67.** But an inlined trait is always refused if it has a Reference in `tags`, `security`, `externalDocs` or
`correlationId` that leads to what belongs there (C15). -/
theorem C67_traits (U : Uni) (limit : Option Nat) (doc doc' x x' : V) (steps rest : List LocStep) (o : Cls × Str) (cs : List Cls) (c : Cls) (w : V) (s : Str)
    (hat : TAt doc steps x) (h : Replaced x x' doc steps doc') (hx' : x' ≠ .none) (hw : TAt x' rest w) (hr : TRef w s)
    (hslot : Slot (steps ++ rest) o cs) (hk : OrdinaryKeys (steps ++ rest)) (hi : InlineTraitField (steps ++ rest) o)
    (he : EndsIn doc' s c) (hc : c ≠ o.1) (hs : Sound U limit doc)
    (hv' : Valid U limit doc' (.model .AsyncAPI3)) (hs' : Sound U limit doc') (hcl' : Clean doc' (.model .AsyncAPI3)) :
    Validator.unified.run U doc' ≠ some doc' := by
  intro hp
  rw [run_iff hv' hs' hcl', demands_iff] at hp
  have h1 : TRefOk doc' (Path.expectedType U mappings (render (steps ++ rest))) s :=
    rightAt_iff.1 (hp.2 _ w s (tat_append (at_new hx' h hs ⟨_, hat⟩) hw) hr)
  rw [C15_inline_traits_wrong U hslot hk hi, ends_right hs' he] at h1
  obtain ⟨cs, e, hm⟩ := h1
  cases e
  exact hc (List.mem_singleton.1 hm)

/-! ### Documents that meet the assumptions -/

set_option maxRecDepth 20000

theorem after_at : TAt after place newRef := valueAt_sound (sameResult_eq (by decide +kernel))

theorem after_entry : TAt after [.field p!"components", .field p!"messages", .field p!"root", .key p!"new"] messageObj :=
  valueAt_sound (sameResult_eq (by decide +kernel))

theorem after_between : edit (fun _ => messageObj) place after = between :=
  Option.some.inj (sameResult_eq (a := some _) (b := between) (by decide +kernel))

/-- All the assumptions of `C67_inline` hold of the document of C61, and so it is accepted when the message is put back. -/
example : Validator.unified.run .ascii between = some between := by
  obtain ⟨hv, hs, hc, -⟩ := C47_accepted packageEnv packageEnv_checks _ (plain_input rfl).2 after after_made
  obtain ⟨hv1, hs1, hc1, -⟩ := C47_accepted packageEnv packageEnv_checks _ (plain_input rfl).2 between between_made
  have hmsg : ∃ fs ex set, messageObj = .inst .Message fs ex set := by
    have : (match messageObj with | .inst .Message _ _ _ => true | _ => false) = true := by decide +kernel
    split at this
    · exact ⟨_, _, _, by assumption⟩
    · cases this
  have hnames : ∀ st ∈ namesIn messageObj, (∀ k, st ≠ .key k) ∧ st ≠ .field p!"traits" := by
    have : (namesIn messageObj).all (fun | .field n => !(n == p!"traits") | .key _ => false | _ => true) = true := by decide +kernel
    intro st hst
    have := List.all_eq_true.1 this st hst
    split at this
    · simp only [Bool.not_eq_true', beq_eq_false_iff_ne] at this
      exact ⟨by simp, by simpa using this⟩
    · cases this
    · rename_i h1 h2
      exact ⟨fun k e => h2 k e, fun e => h1 _ e⟩
  obtain ⟨fs, ex, set, hm⟩ := hmsg
  have h := C53_edit _ _ (fun _ => messageObj) after _ _ after_at hs
  have hobj := after_entry
  rw [after_between, hm] at h
  rw [hm] at hobj hnames
  obtain ⟨f, hf, hfn, hl⟩ := component_leads hv hs hobj
  have hspell : Spells p!"#/components/messages/new" [p!"components", p!"messages", p!"new"] := by
    rw [Resolve.spells_iff]
    decide +kernel
  have hends : EndsIn after p!"#/components/messages/new" .Message :=
    ⟨by decide, _, fs, ex, set, .refl, Resolve.spells_not_external hspell, _, hspell, leads_walk ⟨_, _, _, _, rfl⟩ (hl p!"messages" (.inl rfl))⟩
  refine C67_inline .ascii _ after between newRef place _ .Message fs ex set _ after_at ⟨_, _, _, rfl, by simp⟩ hends hobj h ?_ hv hs
    (hc (plain_input (U := .ascii) (limit := none) rfl).1) hv1 hs1 (hc1 (plain_input (U := .ascii) (limit := none) rfl).1) ?_
  · intro rest w s o cs ha hw _ _
    have hwn : w ≠ .none := by obtain ⟨_, _, _, rfl, _⟩ := hw; simp
    have hn := names_at ha hwn
    have keys : ∀ k, .key k ∉ rest := by
      intro k hk
      rcases hn _ hk with ⟨i, e⟩ | h
      · cases e
      · exact absurd rfl ((hnames _ h).1 k)
    have traits : .field p!"traits" ∉ rest := by
      intro hk
      rcases hn _ hk with ⟨i, e⟩ | h
      · cases e
      · exact absurd rfl (hnames _ h).2
    refine ⟨fun k hk => ?_, fun k hk => ?_, fun hi => ?_, fun hi => ?_⟩
    · rcases List.mem_append.1 hk with hk | hk
      · have : k = p!"new" := by simpa using hk
        subst this
        exact ordinaryB_sound (by decide +kernel)
      · exact absurd hk (keys k)
    · rcases List.mem_append.1 hk with hk | hk
      · have : k = p!"c" ∨ k = p!"m" := by simpa [place] using hk
        rcases this with rfl | rfl
        · exact ordinaryB_sound (by decide +kernel)
        · exact ordinaryB_sound (by decide +kernel)
      · exact absurd hk (keys k)
    · rcases List.mem_append.1 hi.1 with h | h
      · exact absurd h (by decide)
      · exact traits h
    · rcases List.mem_append.1 hi.1 with h | h
      · exact absurd h (by decide)
      · exact traits h
  · have : (Validator.unified.run .ascii after).isSome = true := by decide +kernel
    obtain ⟨x, hx⟩ := Option.isSome_iff_exists.1 this
    rw [hx, run_only_checks hx]

/-- A document with an operation that has the trait `t`, which has a tag. -/
def traitInput (t : V) : List (Str × V) := [
  (p!"asyncapi", .str p!"3.0.0"),
  (p!"info", .dict [(p!"title", .str p!"t"), (p!"version", .str p!"1")]),
  (p!"channels", .dict [(p!"c", .dict [(p!"address", .str p!"x")])]),
  (p!"operations", .dict [(p!"o", .dict [(p!"action", .str p!"send"), (p!"channel", .dict [(p!"$ref", .str p!"#/channels/c")]),
    (p!"traits", .list [t])])]),
  (p!"components", .dict [(p!"operationTraits", .dict [(p!"t", .dict [(p!"tags", .list [refTo p!"#/components/tags/a"])])]),
    (p!"tags", .dict [(p!"a", .dict [(p!"name", .str p!"a")])])])]

def traitRef : V := readAs (traitInput (refTo p!"#/components/operationTraits/t"))
def traitInline : V := readAs (traitInput (.dict [(p!"tags", .list [refTo p!"#/components/tags/a"])]))

theorem traitRef_made : validate packageEnv .AsyncAPI3 (.dict (traitInput (refTo p!"#/components/operationTraits/t"))) = some traitRef :=
  sameResult_eq (by decide +kernel)

theorem traitInline_made : validate packageEnv .AsyncAPI3 (.dict (traitInput (.dict [(p!"tags", .list [refTo p!"#/components/tags/a"])]))) = some traitInline :=
  sameResult_eq (by decide +kernel)

/-- `operations.o.traits[0]`. -/
def traitPlace : List LocStep := [.field p!"operations", .field p!"root", .key p!"o", .field p!"traits", .index 0]

def traitObj : V := (valueAt traitInline traitPlace).getD .none
def tagObj : V := (valueAt traitInline [.field p!"components", .field p!"tags", .field p!"root", .key p!"a"]).getD .none
def tagRef : V := .inst .Reference [(p!"ref", .str p!"#/components/tags/a")] [] [p!"ref"]

theorem traitRef_at : TAt traitRef traitPlace (.inst .Reference [(p!"ref", .str p!"#/components/operationTraits/t")] [] [p!"ref"]) :=
  valueAt_sound (sameResult_eq (by decide +kernel))

theorem traitObj_tag : TAt traitObj [.field p!"tags", .index 0] tagRef := valueAt_sound (sameResult_eq (by decide +kernel))

theorem tagObj_at : TAt traitInline [.field p!"components", .field p!"tags", .field p!"root", .key p!"a"] tagObj :=
  valueAt_sound (sameResult_eq (by decide +kernel))

theorem trait_inlined : edit (fun _ => traitObj) traitPlace traitRef = traitInline :=
  Option.some.inj (sameResult_eq (a := some _) (b := traitInline) (by decide +kernel))

/-- All the assumptions of `C67_traits` hold of this document, which is accepted before and refused after the trait was
inlined. -/
example : (Validator.unified.run .ascii traitRef).isSome = true ∧ Validator.unified.run .ascii traitInline ≠ some traitInline := by
  obtain ⟨hv, hs, hc, -⟩ := C47_accepted packageEnv packageEnv_checks _ (plain_input rfl).2 traitRef traitRef_made
  obtain ⟨hv1, hs1, hc1, -⟩ := C47_accepted packageEnv packageEnv_checks _ (plain_input rfl).2 traitInline traitInline_made
  refine ⟨by decide +kernel, ?_⟩
  have h := C53_edit _ _ (fun _ => traitObj) traitRef _ _ traitRef_at hs
  rw [trait_inlined] at h
  have hne : traitObj ≠ .none := by
    intro e
    have : TAt .none [.field p!"tags", .index 0] tagRef := e ▸ traitObj_tag
    cases this with
    | cons h _ => cases h
  have htag : ∃ fs ex set, tagObj = .inst .Tag fs ex set := by
    have : (match tagObj with | .inst .Tag _ _ _ => true | _ => false) = true := by decide +kernel
    split at this
    · exact ⟨_, _, _, by assumption⟩
    · cases this
  obtain ⟨fs, ex, set, ht⟩ := htag
  obtain ⟨f, hf, hfn, hl⟩ := component_leads hv1 hs1 (ht ▸ tagObj_at)
  have hspell : Spells p!"#/components/tags/a" [p!"components", p!"tags", p!"a"] := by
    rw [Resolve.spells_iff]
    decide +kernel
  have hends : EndsIn traitInline p!"#/components/tags/a" .Tag :=
    ⟨by decide, _, fs, ex, set, .refl, Resolve.spells_not_external hspell, _, hspell, leads_walk ⟨_, _, _, _, rfl⟩ (hl p!"tags" (.inl rfl))⟩
  refine C67_traits .ascii _ traitRef traitInline _ traitObj traitPlace [.field p!"tags", .index 0] _ _ .Tag tagRef _ traitRef_at h hne traitObj_tag
    ⟨_, _, _, rfl, by simp⟩ (slot_trait_tag p!"o" 0 0) ?_ ⟨by simp [traitPlace], by simp⟩ hends (by decide) hs hv1 hs1
    (hc1 (plain_input (U := .ascii) (limit := none) rfl).1)
  intro k hk
  have : k = p!"o" := by simpa [traitPlace] using hk
  subst this
  exact ordinaryB_sound (by decide +kernel)

end Verif.Props
