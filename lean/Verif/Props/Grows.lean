import Verif.Lemmas.Grows
import Verif.Props.Validators
import Verif.Props.Mutate
import Verif.Lemmas.Assign
import Verif.Lemmas.ValueEq
/-!
# C53: adding to a document

References that are right stay right when a document grows: a document accepted by a validator of the package is still
accepted after something was added to it, unless something added is a wrong Reference itself.
-/
namespace Verif.Props
open Verif Verif.Gen Verif.Spec Verif.Pyd Verif.Mutate Verif.Document

/-! ### Statement -/

/-- What a validator demands of a Reference with the string `s` at the location `steps`. -/
def DemandsOf (U : Uni) (doc : V) (steps : List LocStep) (s : Str) : Validator → Prop
  | .unified => TRightAt U mappings doc steps s
  | .tags => steps.map LocStep.shape ∈ tagPlaces → TChecked doc p!"tags" tagPrefix s
  | .externalDocs => steps.map LocStep.shape ∈ docPlaces → TChecked doc p!"external_docs" docPrefix s
  | _ => True

/-- What a validator demands of a document it demands of each Reference. -/
theorem demands_iff {U : Uni} {doc : V} {p : Validator} :
    Demands U doc p ↔ ∀ steps w s, TAt doc steps w → TRef w s → DemandsOf U doc steps s p := by
  cases p
  case unified => exact Iff.rfl
  case tags => exact ⟨fun h steps w s hat hr hp => h steps s ⟨hp, w, hat, hr⟩, fun h steps s ⟨hp, w, hat, hr⟩ => h steps w s hat hr hp⟩
  case externalDocs =>
    exact ⟨fun h steps w s hat hr hp => h steps s ⟨hp, w, hat, hr⟩, fun h steps s ⟨hp, w, hat, hr⟩ => h steps w s hat hr hp⟩
  all_goals exact ⟨fun _ _ _ _ _ _ => trivial, fun _ => trivial⟩

/-- **C53.** A Reference that is right stays right when the document grows, for each validator. -/
theorem C53_stays_right (U : Uni) (doc doc' : V) (h : Grows doc doc') (p : Validator) (steps : List LocStep) (s : Str)
    (hr : DemandsOf U doc steps s p) : DemandsOf U doc' steps s p := by
  cases p
  case unified => exact rightAt_iff.2 (grows_refOk h (rightAt_iff.1 hr))
  case tags => exact fun hp => grows_checked h (hr hp)
  case externalDocs => exact fun hp => grows_checked h (hr hp)
  all_goals trivial

/-- What is demanded of a Reference does not depend on positions in lists. -/
theorem demandsOf_place {U : Uni} {doc : V} {steps steps' : List LocStep} (h : SamePlace steps steps') {s : Str} {p : Validator}
    (hd : DemandsOf U doc steps s p) : DemandsOf U doc steps' s p := by
  cases p
  case unified =>
    unfold DemandsOf at hd ⊢
    rw [rightAt_iff] at hd ⊢
    rwa [← expectedType_place U mappings h]
  case tags => exact fun hp => hd (by rw [shape_place h]; exact hp)
  case externalDocs => exact fun hp => hd (by rw [shape_place h]; exact hp)
  all_goals trivial

/-- **C53.** A validator of the package that accepts a document accepts any valid document that has grown out of it, if
the new References are right; and only then. -/
theorem C53_accepts_grown (U : Uni) (limit : Option Nat) (doc doc' : V) (h : Grows doc doc')
    (hv : Valid U limit doc (.model .AsyncAPI3)) (hs : Sound U limit doc) (hc : Clean doc (.model .AsyncAPI3))
    (hv' : Valid U limit doc' (.model .AsyncAPI3)) (hs' : Sound U limit doc') (hc' : Clean doc' (.model .AsyncAPI3))
    (p : Validator) (hp : p.run U doc = some doc) :
    p.run U doc' = some doc' ↔ ∀ steps s, NewRef doc doc' steps s → DemandsOf U doc' steps s p := by
  rw [run_iff hv' hs' hc', demands_iff]
  have hd := demands_iff.1 ((run_iff hv hs hc p doc).1 hp).2
  constructor
  · rintro ⟨-, h1⟩ steps s ⟨⟨w, hat, hr⟩, -⟩
    exact h1 steps w s hat hr
  · refine fun h1 => ⟨rfl, fun steps w s hat hr => ?_⟩
    by_cases ho : ∃ steps' w, SamePlace steps' steps ∧ TAt doc steps' w ∧ TRef w s
    · obtain ⟨steps', w', hpl, hat', hr'⟩ := ho
      exact demandsOf_place hpl (C53_stays_right U doc doc' h p steps' s (hd steps' w' s hat' hr'))
    · exact h1 steps s ⟨⟨w, hat, hr⟩, ho⟩

/-- **C53.** Growth anywhere in a document, but in the string of a Reference, is growth of the document. -/
theorem C53_inside (u u' doc doc' : V) (steps : List LocStep) (h : Replaced u u' doc steps doc') (hu : Grows u u')
    (hn : IsPlain u → steps.getLast? ≠ some (.field p!"ref")) : Grows doc doc' := grows_replaced hu h hn

theorem dictSet_fresh {d : List (Str × V)} {k : Str} {v : V} (h : k ∉ d.map (·.1)) : dictSet d k v = d ++ [(k, v)] := by
  induction d with
  | nil => rfl
  | cons e d ih =>
    obtain ⟨h1, h2⟩ : e.1 ≠ k ∧ k ∉ d.map (·.1) := by
      simpa [List.map_cons, List.mem_cons, eq_comm] using h
    simp only [dictSet, h1, if_false, ih h2, List.cons_append]

/-- **C53.** A text, a number or a truth value may be replaced by another one anywhere but in the string of a Reference: a
document that is accepted stays accepted, if it stays valid. -/
theorem C53_text (U : Uni) (limit : Option Nat) (doc doc' u u' : V) (steps : List LocStep) (h : Replaced u u' doc steps doc')
    (hu : IsPlain u) (hu' : IsPlain u') (hn : steps.getLast? ≠ some (.field p!"ref"))
    (hv : Valid U limit doc (.model .AsyncAPI3)) (hs : Sound U limit doc) (hc : Clean doc (.model .AsyncAPI3))
    (hv' : Valid U limit doc' (.model .AsyncAPI3)) (hs' : Sound U limit doc') (hc' : Clean doc' (.model .AsyncAPI3))
    (p : Validator) (hp : p.run U doc = some doc) : p.run U doc' = some doc' := by
  have hg : Grows u u' := .plain hu hu'
  rw [C53_accepts_grown U limit doc doc' (grows_replaced hg h fun _ => hn) hv hs hc hv' hs' hc' p hp]
  rintro ss s ⟨⟨w, hat, hr⟩, hold⟩
  rcases at_replaced hg h (fun _ => hn) hat hr with ho | ⟨rest, rfl, ha, -⟩
  · exact absurd ⟨_, ho.choose, place_refl _, ho.choose_spec⟩ hold
  · cases ha with
    | nil => obtain ⟨_, _, _, rfl, _⟩ := hr; cases hu'
    | cons h _ => cases h <;> cases hu'

/-- **C53.** Putting an entry under a new key into a collection (`doc.components.schemas["new"] = …`). -/
theorem C53_new_entry (c : Cls) (d : List (Str × V)) (ex : List (Str × V)) (set : List Str) (k : Str) (v : V)
    (hk : k ∉ d.map (·.1)) :
    Grows (.inst c [(p!"root", .dict d)] ex set) (stepInst (.inst c [(p!"root", .dict d)] ex set) (.set k v)).1 := by
  simp only [stepInst, step, dictSet_fresh hk]
  have hd : Grows (.dict d) (.dict (d ++ [(k, v)])) := .ofDict fun j w hw => ⟨w, List.mem_append_left _ hw, grows_refl w⟩
  refine .ofInst (fun _ s => by simp) (fun j w hw => ?_) (fun j w hw => ?_) (fun w hw => ⟨w, hw, grows_refl w⟩) (fun w hw => ⟨w, hw, grows_refl w⟩)
  all_goals
    rw [List.mem_singleton] at hw
    cases hw
    exact ⟨_, List.mem_singleton_self _, .inr hd⟩

/-- **C53.** So a document stays accepted when an entry with right References (right in the new document, so they may
refer to the new entry) is put under a new key into one of its collections. -/
theorem C53_add (U : Uni) (limit : Option Nat) (doc doc' : V) (c : Cls) (d ex : List (Str × V)) (set : List Str)
    (steps : List LocStep) (k : Str) (v : V) (hk : k ∉ d.map (·.1))
    (h : Replaced (.inst c [(p!"root", .dict d)] ex set) (stepInst (.inst c [(p!"root", .dict d)] ex set) (.set k v)).1 doc steps doc')
    (hv : Valid U limit doc (.model .AsyncAPI3)) (hs : Sound U limit doc) (hc : Clean doc (.model .AsyncAPI3))
    (hv' : Valid U limit doc' (.model .AsyncAPI3)) (hs' : Sound U limit doc') (hc' : Clean doc' (.model .AsyncAPI3))
    (p : Validator) (hp : p.run U doc = some doc)
    (hnew : ∀ rest w s, TAt v rest w → TRef w s →
      DemandsOf U doc' (steps ++ .field p!"root" :: .key k :: rest) s p) : p.run U doc' = some doc' := by
  have hg := C53_new_entry c d ex set k v hk
  rw [C53_accepts_grown U limit doc doc' (grows_replaced hg h nofun) hv hs hc hv' hs' hc' p hp]
  rintro ss s ⟨⟨w, hat, hr⟩, hold⟩
  rcases at_replaced hg h nofun hat hr with ho | ⟨rest, rfl, ha, hb⟩
  · exact absurd ⟨_, ho.choose, place_refl _, ho.choose_spec⟩ hold
  · simp only [stepInst, step, dictSet_fresh hk] at ha
    cases ha with
    | nil =>
      obtain ⟨_, _, _, e, hm⟩ := hr
      cases e
      simp at hm
    | cons h1 h2 =>
      cases h1 with
      | field hf he hm hne =>
        rw [List.mem_singleton] at hm
        obtain ⟨hn, rfl⟩ := Prod.mk.inj hm
        cases h2 with
        | nil => obtain ⟨_, _, _, e, _⟩ := hr; cases e
        | cons h3 h4 =>
          cases h3 with
          | entry hm =>
            rcases List.mem_append.1 hm with hm | hm
            · refine absurd ⟨_, w, place_refl _, hb _ w (.cons (.field hf he (by rw [hn]; exact List.mem_singleton_self _) (by simp))
                (.cons (.entry hm) h4)) ?_, hr⟩ hold
              rintro rfl
              obtain ⟨_, _, _, e, _⟩ := hr; cases e
            · rw [List.mem_singleton] at hm
              cases hm
              rw [hn]
              exact hnew _ w s h4 hr

/-- **C53.** Putting items into a list, anywhere (`doc.info.tags.insert(0, …)`). -/
theorem C53_insert (l m l' : List V) : Grows (.list (l ++ l')) (.list (l ++ m ++ l')) := by
  refine .ofItems fun v hv => ⟨v, ?_, grows_refl v⟩
  simp only [List.mem_append] at hv ⊢
  tauto

/-- **C53.** Appending to a list (`doc.info.tags.append(…)`). -/
theorem C53_append (l l' : List V) : Grows (.list l) (.list (l ++ l')) := by
  refine .ofList fun i v hv => ⟨v, ?_, grows_refl v⟩
  rw [List.getElem?_append_left (by
    apply Classical.byContradiction
    intro hi
    rw [List.getElem?_eq_none (by omega)] at hv
    cases hv)]
  exact hv

/-- The field `ref` of a Reference is not null. -/
theorem ref_not_null {U : Uni} {limit : Option Nat} {i : V} (h : Valid U limit i (.model .Reference)) : i.attr p!"ref" ≠ .none := by
  cases h with
  | model _ h _ =>
    have := h (classDef .Reference).fields[0] (List.getElem_mem (by decide))
    intro e
    have hn : (classDef .Reference).fields[0].name = p!"ref" := rfl
    rw [hn, e] at this
    cases this

/-- **C53.** Setting a field that was null (`doc.info.description = …`), or an extra field not named `root`. -/
theorem C53_set_null (E : Env) (hc : OnlyChecks E.call) (rb : Bool) (c : Cls) (i : V)
    (hi : Valid E.U E.digits i (.model c)) (hsep : Separate i) (name : Str) (x j : V) (hroot : name ≠ p!"root")
    (hnull : ∀ f ∈ (classDef c).fields, f.name = name → i.attr name = .none)
    (h : assign E rb i name x = .done j) : Grows i j := by
  obtain ⟨fs, ex, set, fs', ex', set', rfl, rfl, hn, hn', hval, -, h1, h2, h3⟩ := assign_keeps hc hi hsep hroot h
  have hz : ∀ w, (name, w) ∈ fs → w = .none := by
    intro w hw
    obtain ⟨f, hf, e⟩ := hn name w hw
    have := hnull f hf e
    rwa [V.attr, hval _ _ hw] at this
  have href : c = .Reference → ∀ s, (p!"ref", .str s) ∈ fs ↔ (p!"ref", .str s) ∈ fs' := by
    rintro rfl s
    refine h1 _ _ ?_
    rintro rfl
    exact ref_not_null hi (hnull (classDef .Reference).fields[0] (List.getElem_mem (by decide)) rfl)
  refine .ofInst href (fun k w hw => ?_) (fun k w hw => ?_) (fun w hw => ⟨w, (h3 w).2 hw, grows_refl w⟩)
    (fun w hw => ⟨w, (h3 w).1 hw, grows_refl w⟩)
  · by_cases hk : k = name
    · subst hk
      obtain ⟨w', hw'⟩ := (h2 k).1 ⟨w, hw⟩
      exact ⟨w', hw', .inl ⟨hz w hw, hroot⟩⟩
    · exact ⟨w, (h1 k w hk).1 hw, .inr (grows_refl w)⟩
  · by_cases hk : k = name
    · subst hk
      obtain ⟨w', hw'⟩ := (h2 k).2 ⟨w, hw⟩
      exact ⟨w', hw', .inl ⟨hz w' hw', hroot⟩⟩
    · exact ⟨w, (h1 k w hk).2 hw, .inr (grows_refl w)⟩

/-! ### A document that grows -/

/-- Change what stands at a location of a document. -/
def edit (f : V → V) : List LocStep → V → V
  | [], v => f v
  | .field k :: steps, .inst c fs ex set => .inst c (fs.map fun e => if e.1 = k then (e.1, edit f steps e.2) else e) ex set
  | .key k :: steps, .dict d => .dict (d.map fun e => if e.1 = k then (e.1, edit f steps e.2) else e)
  | .index i :: steps, .list l => .list (l.modify i (edit f steps))
  | _, v => v

theorem split_key {d : List (Str × V)} (hn : (d.map (·.1)).Nodup) {k : Str} {x : V} (h : (k, x) ∈ d) (g : V → V) :
    ∃ a b, d = a ++ (k, x) :: b ∧ (d.map fun e => if e.1 = k then (e.1, g e.2) else e) = a ++ (k, g x) :: b := by
  induction d with
  | nil => cases h
  | cons e d ih =>
    rw [List.map_cons, List.nodup_cons] at hn
    have hid : ∀ l : List (Str × V), (∀ e ∈ l, e.1 ≠ k) → (l.map fun e => if e.1 = k then (e.1, g e.2) else e) = l := by
      intro l hl
      induction l with
      | nil => rfl
      | cons e l ih =>
        rw [List.map_cons, if_neg (hl e (List.mem_cons_self ..)), ih fun e he => hl e (List.mem_cons_of_mem _ he)]
    rcases List.mem_cons.1 h with rfl | h
    · refine ⟨[], d, rfl, ?_⟩
      rw [List.map_cons, if_pos rfl, hid d fun e he hk => hn.1 (List.mem_map.2 ⟨e, he, hk⟩)]
      rfl
    · obtain ⟨a, b, h1, h2⟩ := ih hn.2 h
      have hne : e.1 ≠ k := fun hk => hn.1 (List.mem_map.2 ⟨_, h, hk.symm⟩)
      refine ⟨e :: a, b, by rw [h1]; rfl, ?_⟩
      rw [List.map_cons, if_neg hne, h2]
      rfl

theorem split_item {l : List V} {i : Nat} {x : V} (h : l[i]? = some x) (g : V → V) :
    ∃ a b, l = a ++ x :: b ∧ i = a.length ∧ l.modify i g = a ++ g x :: b := by
  induction l generalizing i with
  | nil => simp at h
  | cons y l ih =>
    cases i with
    | zero =>
      simp only [List.getElem?_cons_zero, Option.some.injEq] at h
      subst h
      exact ⟨[], l, rfl, rfl, rfl⟩
    | succ i =>
      obtain ⟨a, b, h1, h2, h3⟩ := ih h
      refine ⟨y :: a, b, by rw [h1]; rfl, by rw [h2]; rfl, ?_⟩
      rw [List.modify_succ_cons, h3]
      rfl

/-- **C53.** What editing a document is, at any location. -/
theorem C53_edit (U : Uni) (limit : Option Nat) (f : V → V) (doc u : V) (steps : List LocStep) (h : TAt doc steps u)
    (hs : Sound U limit doc) : Replaced u (f u) doc steps (edit f steps doc) := by
  induction h with
  | nil => exact .here
  | @cons v st u ss w h1 h2 ih =>
    cases h1 with
    | item hi =>
      obtain ⟨a, b, e1, e2, e3⟩ := split_item hi (edit f ss)
      subst e1 e2
      simp only [edit, e3]
      cases hs with
      | list hl => exact .item (ih (hl u (by simp)))
    | @entry d k _ hm =>
      cases hs with
      | dict hn hd =>
        obtain ⟨a, b, e1, e3⟩ := split_key hn hm (edit f ss)
        simp only [edit, e3]
        subst e1
        exact .entry (ih (hd _ hm))
    | @field c fs ex set fd _ hf he hm hne =>
      cases hs with
      | inst hv hfs _ _ =>
        have hn : (fs.map (·.1)).Nodup := by
          cases hv with | model hfs _ _ => exact hfs ▸ names_nodup c
        obtain ⟨a, b, e1, e3⟩ := split_key hn hm (edit f ss)
        simp only [edit, e3]
        subst e1
        exact .field (ih (hfs _ hm))

/-- The document `sampleInput` is read as; processor 3 does nothing. -/
def small : V := (validate packageEnv .AsyncAPI3 (.dict (sampleInput p!"#/components/messages/n" 3))).getD .none

/-- A Reference that leads out of the document. -/
def outside : V := .inst .Reference [(p!"ref", .str p!"https://example.com")] [] [p!"ref"]

/-- `doc.components.messages["new"] = Reference(…)`. -/
def big : V := edit (fun i => (stepInst i (.set p!"new" outside)).1) [.field p!"components", .field p!"messages"] small

/-- The same as JSON. -/
def bigInput : List (Str × V) := [
  (p!"asyncapi", .str p!"3.0.0"),
  (p!"info", .dict [(p!"title", .str p!"t"), (p!"version", .str p!"1"),
    (p!"tags", .list [.dict [(p!"$ref", .str p!"#/components/tags/a")]])]),
  (p!"channels", .dict [(p!"c", .dict [(p!"address", .str p!"x"),
    (p!"messages", .dict [(p!"m", .dict [(p!"$ref", .str p!"#/components/messages/n")])])])]),
  (p!"components", .dict [(p!"messages", .dict [(p!"n", .dict [(p!"$ref", .str p!"#/components/messages/o")]),
    (p!"o", .dict [(p!"name", .str p!"hi")]), (p!"new", .dict [(p!"$ref", .str p!"https://example.com")])]),
    (p!"tags", .dict [(p!"a", .dict [(p!"name", .str p!"a")])])]),
  (p!"extra_validators", .list [.proc 3])]

set_option maxRecDepth 20000

theorem small_made : validate packageEnv .AsyncAPI3 (.dict (sampleInput p!"#/components/messages/n" 3)) = some small :=
  sameResult_eq (by decide +kernel)

theorem big_made : validate packageEnv .AsyncAPI3 (.dict bigInput) = some big := sameResult_eq (by decide +kernel)

/-- A check that something stands at a field. -/
def fieldAt (v : V) (k : Str) : Bool := match v with
  | .inst c fs _ _ => (classDef c).fields.any (fun f => f.name == k && !f.exclude) && (match lookup k fs with | some .none => false | some _ => true | none => false)
  | _ => false

theorem fieldAt_child {v : V} {k : Str} (h : fieldAt v k = true) : TChild v (.field k) (v.attr k) := by
  unfold fieldAt at h
  cases v with
  | inst c fs ex set =>
    simp only [Bool.and_eq_true, List.any_eq_true, beq_iff_eq, Bool.not_eq_true'] at h
    obtain ⟨⟨f, hf, rfl, he⟩, h2⟩ := h
    cases hl : lookup f.name fs with
    | none => rw [hl] at h2; cases h2
    | some w =>
      have hw : w ≠ .none := by rintro rfl; rw [hl] at h2; cases h2
      have : (V.inst c fs ex set).attr f.name = w := by simp [V.attr, hl]
      rw [this]
      exact .field hf he (lookup_some_mem hl) hw
  | _ => cases h

/-- The collection `small.components.messages`. -/
theorem small_at : TAt small [.field p!"components", .field p!"messages"] ((small.attr p!"components").attr p!"messages") :=
  .cons (fieldAt_child (by decide +kernel)) (.cons (fieldAt_child (by decide +kernel)) .nil)

/-- All the assumptions of `C53_add` hold of this document, and so it is accepted. -/
example : Validator.unified.run .ascii big = some big := by
  obtain ⟨hv, hs, hc, -⟩ := C47_accepted packageEnv packageEnv_checks _ (plain_input rfl).2 small small_made
  obtain ⟨hv', hs', hc', -⟩ := C47_accepted packageEnv packageEnv_checks _ (plain_input rfl).2 big big_made
  have hcoll : ∃ c d ex set, (small.attr p!"components").attr p!"messages" = .inst c [(p!"root", .dict d)] ex set ∧
      p!"new" ∉ d.map (·.1) := by
    have : (match (small.attr p!"components").attr p!"messages" with
        | .inst _ [(k, .dict d)] _ _ => k == p!"root" && !(d.map (·.1)).contains p!"new"
        | _ => false) = true := by decide +kernel
    split at this
    · rename_i c k d ex set e
      simp only [Bool.and_eq_true, beq_iff_eq, Bool.not_eq_true', ← Bool.not_eq_true, List.contains_iff_mem] at this
      exact ⟨c, d, ex, set, by rw [e, this.1], this.2⟩
    · cases this
  obtain ⟨c, d, ex, set, he, hk⟩ := hcoll
  have hrep := C53_edit _ _ (fun i => (stepInst i (.set p!"new" outside)).1) small _ _ small_at hs
  rw [he] at hrep
  refine C53_add .ascii _ small big c d ex set _ p!"new" outside hk hrep hv hs (hc (plain_input (U := .ascii) (limit := none) rfl).1) hv' hs'
    (hc' (plain_input (U := .ascii) (limit := none) rfl).1) .unified ?_ ?_
  · have : (Validator.unified.run .ascii small).isSome = true := by decide +kernel
    obtain ⟨x, hx⟩ := Option.isSome_iff_exists.1 this
    rw [hx, run_only_checks hx]
  · intro rest w s hat hr
    cases hat with
    | nil =>
      obtain ⟨_, _, _, e, hm⟩ := hr
      cases e
      simp only [List.mem_singleton, Prod.mk.injEq, V.str.injEq, true_and] at hm
      subst hm
      exact .inl ⟨_, .refl, .inr ⟨_, rfl⟩⟩
    | cons h1 h2 =>
      cases h1 with
      | field _ _ hm _ =>
        rw [List.mem_singleton] at hm
        obtain ⟨-, rfl⟩ := Prod.mk.inj hm
        cases h2 with
        | nil => obtain ⟨_, _, _, e, _⟩ := hr; cases e
        | cons h _ => cases h

/-- `doc.info.title = "other"`. -/
def retitled : V := edit (fun _ => .str p!"other") [.field p!"info", .field p!"title"] small

def retitledInput : List (Str × V) := (sampleInput p!"#/components/messages/n" 3).map fun e =>
  if e.1 = p!"info" then (e.1, .dict [(p!"title", .str p!"other"), (p!"version", .str p!"1"),
    (p!"tags", .list [.dict [(p!"$ref", .str p!"#/components/tags/a")]])]) else e

theorem retitled_made : validate packageEnv .AsyncAPI3 (.dict retitledInput) = some retitled := sameResult_eq (by decide +kernel)

/-- All the assumptions of `C53_text` hold of this document. -/
example : Validator.unified.run .ascii retitled = some retitled := by
  obtain ⟨hv, hs, hc, -⟩ := C47_accepted packageEnv packageEnv_checks _ (plain_input rfl).2 small small_made
  obtain ⟨hv', hs', hc', -⟩ := C47_accepted packageEnv packageEnv_checks _ (plain_input rfl).2 retitled retitled_made
  have hat : TAt small [.field p!"info", .field p!"title"] ((small.attr p!"info").attr p!"title") :=
    .cons (fieldAt_child (by decide +kernel)) (.cons (fieldAt_child (by decide +kernel)) .nil)
  have he : (small.attr p!"info").attr p!"title" = .str p!"t" := sameJson_eq _ _ (by decide +kernel)
  refine C53_text .ascii _ small retitled _ _ _ (C53_edit _ _ (fun _ => .str p!"other") small _ _ hat hs) (he ▸ .str) .str (by decide) hv hs
    (hc (plain_input (U := .ascii) (limit := none) rfl).1) hv' hs' (hc' (plain_input (U := .ascii) (limit := none) rfl).1) .unified ?_
  have : (Validator.unified.run .ascii small).isSome = true := by decide +kernel
  obtain ⟨x, hx⟩ := Option.isSome_iff_exists.1 this
  rw [hx, run_only_checks hx]

/-- Setting the description of a channel. -/
example : ∃ j, assign plainEnv false aChannel p!"description" (.str p!"d") = .done j ∧ Grows aChannel j :=
  ⟨_, rfl, C53_set_null plainEnv (fun _ _ _ h => (Option.some.inj h).symm) false .Channel aChannel aChannel_valid
    (separate_of_valid (by decide) aChannel_valid) p!"description" (.str p!"d") _ (by decide) (fun _ _ _ => rfl) rfl⟩

/-! ### An extra field named `root` -/

/-- The claim without its exception: adding an extra field to an object that allows them changes nothing for References. -/
def C53_ExtraClaim : Prop := ∀ (E : Env) (i j : V) (c : Cls) (name : Str) (x : V), OnlyChecks E.call →
  Valid E.U E.digits i (.model c) → Separate i → (∀ f ∈ (classDef c).fields, f.name ≠ name) →
  assign E false i name x = .done j → ∀ k w, TStep i k w → ∃ w', TStep j k w'

/-- A JSON Schema with documentation. -/
def aSchema : V := .inst .Schema [(p!"discriminator", .none), (p!"external_docs", .inst .ExternalDocumentation
  [(p!"url", .url .any p!"https://x"), (p!"description", .none)] [] [p!"url"]), (p!"deprecated", .none)] [] [p!"external_docs"]

theorem aSchema_made : validate plainEnv .Schema (.dict [(p!"externalDocs", .dict [(p!"url", .str p!"https://x")])]) =
    some aSchema := sameResult_eq (by decide +kernel)

theorem aSchema_valid : Valid plainEnv.U plainEnv.digits aSchema (.model .Schema) :=
  C42_valid plainEnv .Schema (by decide) _ _ aSchema_made

/-- It does not hold: an extra field named `root` holding a dict (`schema.root = {}`) hides the declared fields of its
object from reference paths. -/
theorem C53_extra_refuted : ¬ C53_ExtraClaim := by
  intro h
  have h1 := h plainEnv aSchema
    (.inst .Schema [(p!"discriminator", .none), (p!"external_docs", .inst .ExternalDocumentation
      [(p!"url", .url .any p!"https://x"), (p!"description", .none)] [] [p!"url"]), (p!"deprecated", .none)]
      [(p!"root", .dict [])] [p!"external_docs", p!"root"]) .Schema p!"root" (.dict [])
    (fun n doc doc' hd => (Option.some.inj hd).symm) aSchema_valid (by
      intro c fs ex set e x hx
      cases e; cases hx) (by decide +kernel) rfl p!"externalDocs" _
    (.field (f := defSchema.fields[1]) (by
      rintro d ⟨_, _, _, _, e, he⟩
      cases e
      rcases he with he | ⟨-, he⟩
      · simp at he
      · cases he) (List.mem_of_getElem (i := 1) rfl) (.inr rfl) (.tail _ (.head _)) (by simp))
  obtain ⟨w', h2⟩ := h1
  have hroot : TRoot (.inst .Schema [(p!"discriminator", .none), (p!"external_docs", .inst .ExternalDocumentation
      [(p!"url", .url .any p!"https://x"), (p!"description", .none)] [] [p!"url"]), (p!"deprecated", .none)]
      [(p!"root", .dict [])] [p!"external_docs", p!"root"]) [] :=
    ⟨_, _, _, _, rfl, .inr ⟨by simp, List.mem_singleton_self _⟩⟩
  cases h2 with
  | root hr hm =>
    obtain ⟨_, _, _, _, e, he⟩ := hr
    cases e
    rcases he with he | ⟨-, he⟩
    · simp at he
    · simp only [List.mem_singleton, Prod.mk.injEq, V.dict.injEq, true_and] at he
      subst he
      cases hm
  | field hr => exact hr _ hroot

/-- A document that refers to the documentation of a schema. -/
def docsInput (extra : List (Str × V)) : List (Str × V) := [
  (p!"asyncapi", .str p!"3.0.0"),
  (p!"info", .dict [(p!"title", .str p!"t"), (p!"version", .str p!"1"),
    (p!"externalDocs", .dict [(p!"$ref", .str p!"#/components/schemas/A/externalDocs")])]),
  (p!"components", .dict [(p!"schemas", .dict [(p!"A", .dict ((p!"externalDocs", .dict [(p!"url", .str p!"https://x")]) :: extra))])]),
  (p!"extra_validators", .list [.proc 0])]

/-- So adding a key to a JSON Schema can make a Reference elsewhere wrong; no other key can. -/
example : (validate packageEnv .AsyncAPI3 (.dict (docsInput []))).isSome = true ∧
    (validate packageEnv .AsyncAPI3 (.dict (docsInput [(p!"root", .dict [])]))).isSome = false ∧
    (validate packageEnv .AsyncAPI3 (.dict (docsInput [(p!"roots", .dict [])]))).isSome = true := by decide +kernel

end Verif.Props
