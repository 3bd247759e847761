import Verif.Lemmas.Removes
import Verif.Props.Grows
import Verif.Props.Refs
import Verif.Props.Written
/-!
# C60: removing from a document

Removing something from a document makes those References wrong that lead to what was removed, and no others.
-/
namespace Verif.Props
open Verif Verif.Gen Verif.Spec Verif.Pyd Verif.Mutate Verif.Document

/-! ### Statement -/

/-- What a validator wants of a Reference after a removal: that what the Reference leads to is still there. -/
def KeptFor (doc doc' : V) (steps : List LocStep) (s : Str) : Validator → Prop
  | .unified => StillThere doc doc' s
  | .tags => steps.map LocStep.shape ∈ tagPlaces → KeyThere doc' p!"tags" tagPrefix s
  | .externalDocs => steps.map LocStep.shape ∈ docPlaces → KeyThere doc' p!"external_docs" docPrefix s
  | _ => True

/-- **C60.** For a Reference that was right, removing something from the document (of which the Reference is left, perhaps
at another position of a list) can only make it wrong by removing what it leads to. -/
theorem C60_reference (U : Uni) (limit : Option Nat) (doc doc' : V) (h : Grows doc' doc) (hs : Sound U limit doc)
    (hs' : Sound U limit doc') (p : Validator) (steps : List LocStep) (s : Str) (hr : DemandsOf U doc steps s p) :
    DemandsOf U doc' steps s p ↔ KeptFor doc doc' steps s p := by
  cases p
  case unified =>
    unfold DemandsOf at hr ⊢
    rw [rightAt_iff] at hr ⊢
    exact refOk_back h hs hs' hr
  case tags =>
    exact ⟨fun h hp => (checked_back (by decide) (hr hp)).1 (h hp), fun h hp => (checked_back (by decide) (hr hp)).2 (h hp)⟩
  case externalDocs =>
    exact ⟨fun h hp => (checked_back (by decide) (hr hp)).1 (h hp), fun h hp => (checked_back (by decide) (hr hp)).2 (h hp)⟩
  all_goals exact Iff.rfl

/-- **C60.** A validator of the package that accepts a document accepts what is left after removing something, if and only
if nothing was removed that a Reference leads to. -/
theorem C60_accepts_rest (U : Uni) (limit : Option Nat) (doc doc' : V) (h : Grows doc' doc)
    (hv : Valid U limit doc (.model .AsyncAPI3)) (hs : Sound U limit doc) (hc : Clean doc (.model .AsyncAPI3))
    (hv' : Valid U limit doc' (.model .AsyncAPI3)) (hs' : Sound U limit doc') (hc' : Clean doc' (.model .AsyncAPI3))
    (p : Validator) (hp : p.run U doc = some doc) :
    p.run U doc' = some doc' ↔ ∀ steps w s, TAt doc' steps w → TRef w s → KeptFor doc doc' steps s p := by
  rw [run_iff hv' hs' hc', demands_iff]
  have hd := demands_iff.1 ((run_iff hv hs hc p doc).1 hp).2
  have key : ∀ steps w s, TAt doc' steps w → TRef w s → DemandsOf U doc steps s p := by
    intro steps w s hat hr
    obtain ⟨steps', w', hpl, hat', hg⟩ := grows_at hat h
    exact demandsOf_place (place_symm hpl) (hd steps' w' s hat' (grows_ref hg hr))
  constructor
  · exact fun h1 steps w s hat hr => (C60_reference U limit doc doc' h hs hs' p steps s (key steps w s hat hr)).1 (h1.2 steps w s hat hr)
  · exact fun h1 => ⟨rfl, fun steps w s hat hr =>
      (C60_reference U limit doc doc' h hs hs' p steps s (key steps w s hat hr)).2 (h1 steps w s hat hr)⟩

/-- In `u'` the part of `u` at the location `loc` is missing, and nothing else. -/
structure Removal (u u' : V) (loc : List LocStep) : Prop where
  object : ¬ IsPlain u'
  grows : Grows u' u
  paths : ∀ path v, TWalk u path v → (∃ v', TWalk u' path v') ∨ ∃ pre rest x, path = pre ++ rest ∧ Leads x u pre loc
  places : ∀ ss w, TAt u ss w → (∀ i, LocStep.index i ∉ ss) → (∃ w', TAt u' ss w') ∨ loc <+: ss

/-- The Reference with string `s` leads into the part of the document at `loc`. -/
def RefersInto (doc : V) (steps : List LocStep) (s : Str) (loc : List LocStep) : Validator → Prop
  | .unified => Into doc s loc
  | .tags => steps.map LocStep.shape ∈ tagPlaces ∧ KeyInto p!"tags" tagPrefix s loc
  | .externalDocs => steps.map LocStep.shape ∈ docPlaces ∧ KeyInto p!"external_docs" docPrefix s loc
  | _ => False

theorem key_kept {u u' doc doc' : V} {steps loc : List LocStep} (hrem : Removal u u' loc) (h : Replaced u u' doc steps doc')
    {F pre s : Str} (hc : TChecked doc F pre s) (hpre : pre ≠ []) (hno : ¬ KeyInto F pre s (steps ++ loc)) : KeyThere doc' F pre s := by
  rcases hc with hc | ⟨rest, key, rfl, h2, w, hat⟩
  · exact .inl hc
  · refine .inr fun rest' key' e hd => ?_
    cases List.append_cancel_left e
    cases deleted_unique hpre h2 hd
    rcases at_kept hrem.grows hrem.object (fun ss => loc <+: ss) hrem.places h _ w hat (by simp) with h | ⟨suf, e, hs⟩
    · exact h
    · refine absurd ⟨rest, key, rfl, h2, ?_⟩ hno
      rw [e, List.prefix_append_right_inj]
      exact hs

/-- **C60.** So a document stays accepted when a part of it is removed that no remaining Reference leads into. -/
theorem C60_unreferenced (U : Uni) (limit : Option Nat) (doc doc' u u' : V) (steps loc : List LocStep)
    (hrem : Removal u u' loc) (h : Replaced u u' doc steps doc')
    (hv : Valid U limit doc (.model .AsyncAPI3)) (hs : Sound U limit doc) (hc : Clean doc (.model .AsyncAPI3))
    (hv' : Valid U limit doc' (.model .AsyncAPI3)) (hs' : Sound U limit doc') (hc' : Clean doc' (.model .AsyncAPI3))
    (p : Validator) (hp : p.run U doc = some doc)
    (hno : ∀ ss w s, TAt doc' ss w → TRef w s → ¬ RefersInto doc ss s (steps ++ loc) p) : p.run U doc' = some doc' := by
  have hg : Grows doc' doc := grows_replaced hrem.grows (replaced_symm h) fun h => absurd h hrem.object
  rw [C60_accepts_rest U limit doc doc' hg hv hs hc hv' hs' hc' p hp]
  intro ss w s hat hr
  have hno := hno ss w s hat hr
  have hd := demands_iff.1 ((run_iff hv hs hc p doc).1 hp).2
  obtain ⟨ss', w', hpl, hat', hg'⟩ := grows_at hat hg
  have hd := demandsOf_place (place_symm hpl) (hd ss' w' s hat' (grows_ref hg' hr))
  cases p
  case unified =>
    intro r hh hi
    have : ∃ v, TDenotes doc r v := by
      -- the reference is right, so every reference that is followed denotes something
      rw [DemandsOf, rightAt_iff] at hd
      exact (refOk_back (grows_refl doc) hs hs hd).1 hd r hh hi
    obtain ⟨v, he, path, hsp, hw⟩ := this
    rcases walk_replaced hrem.grows hrem.object (fun q => ∃ pre rest x, q = pre ++ rest ∧ Leads x u pre loc) hrem.paths h path v hw with
      ⟨v', hv⟩ | ⟨pre, suf, rfl, h1, pre', rest, x, rfl, h2⟩
    · exact ⟨v', he, path, hsp, hv⟩
    · refine absurd ⟨r, pre ++ pre', rest, x, hh, ?_, leads_append h1 h2⟩ hno
      rw [List.append_assoc]
      exact hsp
  case tags => exact fun hpl => key_kept hrem h (hd hpl) (by decide) fun hk => hno ⟨hpl, hk⟩
  case externalDocs => exact fun hpl => key_kept hrem h (hd hpl) (by decide) fun hk => hno ⟨hpl, hk⟩
  all_goals trivial

theorem dictDel_mem {d d' : List (Str × V)} {k : Str} (h : dictDel d k = some d') :
    (∀ e ∈ d', e ∈ d) ∧ ∀ e ∈ d, e.1 = k ∨ e ∈ d' := by
  induction d generalizing d' with
  | nil => cases h
  | cons e d ih =>
    unfold dictDel at h
    split at h
    · rename_i he
      cases h
      refine ⟨fun x hx => List.mem_cons_of_mem _ hx, fun x hx => ?_⟩
      rcases List.mem_cons.1 hx with rfl | hx
      · exact .inl he
      · exact .inr hx
    · cases hd : dictDel d k with
      | none => rw [hd] at h; cases h
      | some d1 =>
        rw [hd] at h
        cases h
        obtain ⟨h1, h2⟩ := ih hd
        refine ⟨fun x hx => ?_, fun x hx => ?_⟩
        · rcases List.mem_cons.1 hx with rfl | hx
          · exact List.mem_cons_self ..
          · exact List.mem_cons_of_mem _ (h1 x hx)
        · rcases List.mem_cons.1 hx with rfl | hx
          · exact .inr (List.mem_cons_self ..)
          · exact (h2 x hx).imp id (List.mem_cons_of_mem _)

/-- **C60.** Deleting an entry of a collection (`del doc.components.schemas["old"]`) is such a removal. -/
theorem C60_entry (c : Cls) (d ex : List (Str × V)) (set : List Str) (k : Str) :
    Removal (.inst c [(p!"root", .dict d)] ex set) (stepInst (.inst c [(p!"root", .dict d)] ex set) (.del k)).1
      [.field p!"root", .key k] := by
  cases hd : dictDel d k with
  | none =>
    simp only [stepInst, step, hd]
    exact ⟨nofun, grows_refl _, fun path v hw => .inl ⟨v, hw⟩, fun ss w h _ => .inl ⟨w, h⟩⟩
  | some d' =>
    simp only [stepInst, step, hd]
    obtain ⟨h1, h2⟩ := dictDel_mem hd
    have hr : ∀ d0, TRoot (.inst c [(p!"root", .dict d)] ex set) d0 → d0 = d := by
      rintro d0 ⟨_, _, _, _, e, hr⟩
      cases e
      rcases hr with hr | ⟨hn, -⟩
      · rw [List.mem_singleton] at hr; cases hr; rfl
      · exact absurd (List.mem_singleton_self _) (hn _)
    refine ⟨nofun, ?_, fun path v hw => ?_, fun ss w hat _ => ?_⟩
    · have hg : Grows (.dict d') (.dict d) := .ofDict fun j w hw => ⟨w, h1 _ hw, grows_refl w⟩
      refine .ofInst (fun _ s => by simp) (fun j w hw => ?_) (fun j w hw => ?_) (fun w hw => ⟨w, hw, grows_refl w⟩) (fun w hw => ⟨w, hw, grows_refl w⟩)
      all_goals
        rw [List.mem_singleton] at hw
        cases hw
        exact ⟨_, List.mem_singleton_self _, .inr hg⟩
    · cases hw with
      | nil => exact .inl ⟨_, .nil⟩
      | cons hst hw =>
        cases hst with
        | root hrt hm =>
          cases hr _ hrt
          rcases h2 _ hm with rfl | hm'
          · exact .inr ⟨[_], _, _, rfl, .root (List.mem_singleton_self _) (.entry hm .nil)⟩
          · exact .inl ⟨v, .cons (.root ⟨_, _, _, _, rfl, .inl (List.mem_singleton_self _)⟩ hm') hw⟩
        | field h0 => exact absurd ⟨_, _, _, _, rfl, .inl (List.mem_singleton_self _)⟩ (h0 d)
    · cases hat with
      | nil => exact .inl ⟨_, .nil⟩
      | cons hst hat =>
        cases hst with
        | field hf he hm hne =>
          rw [List.mem_singleton] at hm
          obtain ⟨hn, rfl⟩ := Prod.mk.inj hm
          cases hat with
          | nil => exact .inl ⟨_, .cons (.field hf he (by rw [hn]; exact List.mem_singleton_self _) (by simp)) .nil⟩
          | cons hst hat =>
            cases hst with
            | entry hm =>
              rcases h2 _ hm with rfl | hm'
              · rw [hn]
                exact .inr ⟨_, rfl⟩
              · exact .inl ⟨w, .cons (.field hf he (by rw [hn]; exact List.mem_singleton_self _) (by simp)) (.cons (.entry hm') hat)⟩

/-- **C60.** So is setting a field to null (`doc.components.schemas = None`). -/
theorem C60_field (E : Env) (hc : OnlyChecks E.call) (rb : Bool) (c : Cls) (i : V)
    (hi : Valid E.U E.digits i (.model c)) (hsep : Separate i) (name : Str) (x j : V) (hroot : name ≠ p!"root")
    (h : assign E rb i name x = .done j) (hj : j.attr name = .none) :
    Removal i j [.field name] := by
  have hval' : c = .Reference → Valid E.U E.digits j (.model c) := fun e =>
    (C35_assignment_partial E rb c (fun e' => by rw [e] at e'; cases e') i hi hsep name x j h).1
  obtain ⟨fs, ex, set, fs', ex', set', rfl, rfl, hn, hn', -, hval, h1, h2, h3⟩ := assign_keeps hc hi hsep hroot h
  have href : c = .Reference → ∀ s, (p!"ref", .str s) ∈ fs' ↔ (p!"ref", .str s) ∈ fs := by
    rintro rfl s
    refine (h1 _ _ ?_).symm
    rintro rfl
    exact ref_not_null (hval' rfl) hj
  have hz : ∀ w, (name, w) ∈ fs' → w = .none := by
    intro w hw
    rwa [V.attr, hval _ _ hw] at hj
  have hg : Grows (.inst c fs' ex' set') (.inst c fs ex set) := by
    refine .ofInst href (fun k w hw => ?_) (fun k w hw => ?_) (fun w hw => ⟨w, (h3 w).1 hw, grows_refl w⟩)
      (fun w hw => ⟨w, (h3 w).2 hw, grows_refl w⟩)
    · by_cases hk : k = name
      · subst hk
        obtain ⟨w', hw'⟩ := (h2 k).2 ⟨w, hw⟩
        exact ⟨w', hw', .inl ⟨hz w hw, hroot⟩⟩
      · exact ⟨w, (h1 k w hk).2 hw, .inr (grows_refl w)⟩
    · by_cases hk : k = name
      · subst hk
        obtain ⟨w', hw'⟩ := (h2 k).1 ⟨w, hw⟩
        exact ⟨w', hw', .inl ⟨hz w' hw', hroot⟩⟩
      · exact ⟨w, (h1 k w hk).1 hw, .inr (grows_refl w)⟩
  have hrt : ∀ d, TRoot (.inst c fs ex set) d → TRoot (.inst c fs' ex' set') d := by
    rintro d ⟨_, _, _, _, e, hr⟩
    cases e
    rcases hr with hr | ⟨hr, he⟩
    · exact ⟨_, _, _, _, rfl, .inl ((h1 _ _ (Ne.symm hroot)).1 hr)⟩
    · exact ⟨_, _, _, _, rfl, .inr ⟨fun w hw => hr w ((h1 _ _ (Ne.symm hroot)).2 hw), (h3 _).2 he⟩⟩
  refine ⟨nofun, hg, fun path v hw => ?_, fun ss w hat _ => ?_⟩
  · cases hw with
    | nil => exact .inl ⟨_, .nil⟩
    | cons hst hw =>
      cases hst with
      | root hr hm => exact .inl ⟨v, .cons (.root (hrt _ hr) hm) hw⟩
      | @field _ _ _ _ f k u h0 hf hk hm hne =>
        by_cases hfn : f.name = name
        · subst hfn
          exact .inr ⟨[_], _, _, rfl, .field h0 hf hk hm hne .nil⟩
        · refine .inl ⟨v, .cons (.field (fun d hd => ?_) hf hk ((h1 _ _ hfn).1 hm) hne) hw⟩
          obtain ⟨d', hd', -⟩ := grows_root hg hd
          exact h0 d' hd'
  · cases hat with
    | nil => exact .inl ⟨_, .nil⟩
    | cons hst hat =>
      cases hst with
      | @field _ _ _ _ f u hf he hm hne =>
        by_cases hfn : f.name = name
        · subst hfn
          exact .inr ⟨_, rfl⟩
        · exact .inl ⟨w, .cons (.field hf he ((h1 _ _ hfn).1 hm) hne) hat⟩

/-- **C60.** So is removing items of a list (`doc.info.tags.pop(0)`); no Reference leads into a list. -/
theorem C60_item (l m l' : List V) (i : Nat) : Removal (.list (l ++ m ++ l')) (.list (l ++ l')) [.index i] := by
  refine ⟨nofun, C53_insert l m l', fun path v hw => ?_, fun ss w hat hi => ?_⟩
  · cases hw with
    | nil => exact .inl ⟨_, .nil⟩
    | cons h _ => cases h with | root h => obtain ⟨_, _, _, _, e, _⟩ := h; cases e
  · cases hat with
    | nil => exact .inl ⟨_, .nil⟩
    | cons h _ => cases h with | item => exact absurd (List.mem_cons_self ..) (hi _)

theorem leads_no_index {x v : V} {path : List Str} {loc : List LocStep} (h : Leads x v path loc) (i : Nat) : LocStep.index i ∉ loc := by
  induction h with
  | nil => simp
  | entry _ _ ih => simp [ih]
  | root _ _ ih => simp [ih]
  | field _ _ _ _ _ _ ih => simp [ih]

/-- **C60.** So removing items from a list, anywhere in a document, breaks nothing. -/
theorem C60_lists (U : Uni) (limit : Option Nat) (doc doc' : V) (steps : List LocStep) (l m l' : List V)
    (h : Replaced (.list (l ++ m ++ l')) (.list (l ++ l')) doc steps doc')
    (hv : Valid U limit doc (.model .AsyncAPI3)) (hs : Sound U limit doc) (hc : Clean doc (.model .AsyncAPI3))
    (hv' : Valid U limit doc' (.model .AsyncAPI3)) (hs' : Sound U limit doc') (hc' : Clean doc' (.model .AsyncAPI3))
    (p : Validator) (hp : p.run U doc = some doc) : p.run U doc' = some doc' := by
  refine C60_unreferenced U limit doc doc' _ _ steps [.index 0] (C60_item l m l' 0) h hv hs hc hv' hs' hc' p hp ?_
  intro ss w s _ _ hi
  have key : ∀ F pre, ¬ KeyInto F pre s (steps ++ [.index 0]) := by
    rintro F pre ⟨_, key, _, _, hk⟩
    have : LocStep.index 0 ∈ [LocStep.field p!"components", .field F, .field p!"root", .key key] := hk.subset (by simp)
    simp at this
  cases p
  case unified =>
    obtain ⟨_, _, _, _, _, _, hl⟩ := hi
    exact leads_no_index hl 0 (by simp)
  case tags => exact key _ _ hi.2
  case externalDocs => exact key _ _ hi.2
  all_goals exact hi

/-- **C56.** Nor does the order of the items of a list matter to the validators. -/
theorem C56_lists (U : Uni) (limit : Option Nat) (doc doc' : V) (steps : List LocStep) (l l' : List V) (hl : ∀ v, v ∈ l ↔ v ∈ l')
    (h : Replaced (.list l) (.list l') doc steps doc')
    (hv : Valid U limit doc (.model .AsyncAPI3)) (hs : Sound U limit doc) (hc : Clean doc (.model .AsyncAPI3))
    (hv' : Valid U limit doc' (.model .AsyncAPI3)) (hs' : Sound U limit doc') (hc' : Clean doc' (.model .AsyncAPI3))
    (p : Validator) : p.run U doc = some doc ↔ p.run U doc' = some doc' := by
  have h1 : Grows doc doc' := grows_replaced (.ofItems fun v hv => ⟨v, (hl v).1 hv, grows_refl v⟩) h nofun
  have h2 : Grows doc' doc := grows_replaced (.ofItems fun v hv => ⟨v, (hl v).2 hv, grows_refl v⟩) (replaced_symm h) nofun
  rw [run_iff hv hs hc, run_iff hv' hs' hc']
  exact ⟨fun h => ⟨rfl, demands_both h1 h2 h.2⟩, fun h => ⟨rfl, demands_both h2 h1 h.2⟩⟩

theorem leads_key {x v : V} {path : List Str} {loc : List LocStep} {k : Str} (h : Leads x v path loc) (hk : LocStep.key k ∈ loc) :
    k ∈ path := by
  induction h with
  | nil => cases hk
  | entry _ _ ih =>
    rcases List.mem_cons.1 hk with e | hk
    · cases e; exact List.mem_cons_self ..
    · exact List.mem_cons_of_mem _ (ih hk)
  | root _ _ ih =>
    rcases List.mem_cons.1 hk with e | hk
    · cases e
    · exact ih hk
  | field _ _ _ _ _ _ ih =>
    rcases List.mem_cons.1 hk with e | hk
    · cases e
    · exact List.mem_cons_of_mem _ (ih hk)

theorem at_within {v w : V} {ss} (h : TAt v ss w) : Within w v := by
  induction h with
  | nil => exact .refl
  | cons h1 _ ih =>
    cases h1 with
    | item hi => exact .item (List.mem_of_getElem? hi) ih
    | entry hm => exact .entry hm ih
    | field _ _ hm _ => exact .field hm ih

/-- **C60.** In particular, an entry can be deleted from a collection if no Reference of the document has its key in its
path. -/
theorem C60_unmentioned (U : Uni) (limit : Option Nat) (doc doc' : V) (c : Cls) (d ex : List (Str × V)) (set : List Str)
    (steps : List LocStep) (k : Str)
    (h : Replaced (.inst c [(p!"root", .dict d)] ex set) (stepInst (.inst c [(p!"root", .dict d)] ex set) (.del k)).1 doc steps doc')
    (hv : Valid U limit doc (.model .AsyncAPI3)) (hs : Sound U limit doc) (hc : Clean doc (.model .AsyncAPI3))
    (hv' : Valid U limit doc' (.model .AsyncAPI3)) (hs' : Sound U limit doc') (hc' : Clean doc' (.model .AsyncAPI3))
    (hp : Validator.unified.run U doc = some doc)
    (hno : ∀ w s path, Within w doc → TRef w s → Spells s path → k ∉ path) : Validator.unified.run U doc' = some doc' := by
  have hrem := C60_entry c d ex set k
  refine C60_unreferenced U limit doc doc' _ _ steps _ hrem h hv hs hc hv' hs' hc' .unified hp ?_
  rintro ss w s hat hr ⟨r, path, rest, x, hh, hsp, hl⟩
  have hk : k ∈ path ++ rest := List.mem_append_left _ (leads_key hl (by simp))
  have hw : ∃ w, Within w doc ∧ TRef w r := by
    rcases Relation.ReflTransGen.cases_tail hh with rfl | ⟨b, _, v, hd, hr'⟩
    · obtain ⟨_, w', _, hat', hg⟩ := grows_at hat (grows_replaced hrem.grows (replaced_symm h) fun h => absurd h hrem.object)
      exact ⟨w', at_within hat', grows_ref hg hr⟩
    · exact ⟨v, tdenotes_within hd, hr'⟩
  obtain ⟨w', hw', hr'⟩ := hw
  exact hno w' r _ hw' hr' hsp hk

/-! ### Examples -/

mutual
/-- The strings of all References, at any depth. -/
def allRefs : V → List Str
  | .list l => allRefsOf l
  | .dict d => allRefsIn d
  | .inst .Reference fs ex _ => fs.filterMap (fun e => match e.2 with | .str s => some s | _ => none) ++ allRefsIn fs ++ allRefsIn ex
  | .inst _ fs ex _ => allRefsIn fs ++ allRefsIn ex
  | _ => []

def allRefsOf : List V → List Str
  | [] => []
  | v :: l => allRefs v ++ allRefsOf l

def allRefsIn : List (Str × V) → List Str
  | [] => []
  | (_, v) :: d => allRefs v ++ allRefsIn d
end

theorem mem_allRefsOf {v : V} {l : List V} {s} (hv : v ∈ l) (hs : s ∈ allRefs v) : s ∈ allRefsOf l := by
  induction l with
  | nil => cases hv
  | cons x l ih =>
    rw [allRefsOf, List.mem_append]
    rcases List.mem_cons.1 hv with rfl | hv
    · exact .inl hs
    · exact .inr (ih hv)

theorem mem_allRefsIn {e : Str × V} {d : List (Str × V)} {s} (he : e ∈ d) (hs : s ∈ allRefs e.2) : s ∈ allRefsIn d := by
  induction d with
  | nil => cases he
  | cons x d ih =>
    obtain ⟨k, v⟩ := x
    rw [allRefsIn, List.mem_append]
    rcases List.mem_cons.1 he with rfl | he
    · exact .inl hs
    · exact .inr (ih he)

theorem mem_allRefs {w v : V} {s} (h : Within w v) (hr : TRef w s) : s ∈ allRefs v := by
  induction h with
  | refl =>
    obtain ⟨fs, ex, set, rfl, hm⟩ := hr
    rw [allRefs, List.mem_append, List.mem_append]
    exact .inl (.inl (List.mem_filterMap.2 ⟨_, hm, rfl⟩))
  | item hv _ ih => rw [allRefs]; exact mem_allRefsOf hv ih
  | entry he _ ih => rw [allRefs]; exact mem_allRefsIn he ih
  | @field c fs ex set e he _ ih =>
    have := mem_allRefsIn he ih
    cases c <;> simp only [allRefs, List.mem_append] <;> tauto
  | @extra c fs ex set e he _ ih =>
    have := mem_allRefsIn he ih
    cases c <;> simp only [allRefs, List.mem_append] <;> tauto

set_option maxRecDepth 20000

/-- Deleting the message `new` of `big` gives `small`. -/
theorem big_small : edit (fun i => (stepInst i (.del p!"new")).1) [.field p!"components", .field p!"messages"] big = small :=
  Option.some.inj (sameResult_eq (a := some _) (b := small) (by decide +kernel))

theorem big_at : TAt big [.field p!"components", .field p!"messages"] ((big.attr p!"components").attr p!"messages") :=
  .cons (fieldAt_child (by decide +kernel)) (.cons (fieldAt_child (by decide +kernel)) .nil)

/-- All the assumptions of `C60_unmentioned` hold of this document, and so it is accepted without the message `new`. -/
example : Validator.unified.run .ascii small = some small := by
  obtain ⟨hv, hs, hc, -⟩ := C47_accepted packageEnv packageEnv_checks _ (plain_input rfl).2 small small_made
  obtain ⟨hv', hs', hc', -⟩ := C47_accepted packageEnv packageEnv_checks _ (plain_input rfl).2 big big_made
  have hcoll : ∃ c d ex set, (big.attr p!"components").attr p!"messages" = .inst c [(p!"root", .dict d)] ex set := by
    have : (match (big.attr p!"components").attr p!"messages" with
        | .inst _ [(k, .dict _)] _ _ => k == p!"root"
        | _ => false) = true := by decide +kernel
    split at this
    · rename_i c k d ex set e
      rw [beq_iff_eq] at this
      exact ⟨c, d, ex, set, by rw [e, this]⟩
    · cases this
  obtain ⟨c, d, ex, set, he⟩ := hcoll
  have hrep := C53_edit _ _ (fun i => (stepInst i (.del p!"new")).1) big _ _ big_at hs'
  rw [big_small, he] at hrep
  refine C60_unmentioned .ascii _ big small c d ex set _ p!"new" hrep hv' hs' (hc' (plain_input (U := .ascii) (limit := none) rfl).1) hv hs
    (hc (plain_input (U := .ascii) (limit := none) rfl).1) ?_ ?_
  · have : (Validator.unified.run .ascii big).isSome = true := by decide +kernel
    obtain ⟨x, hx⟩ := Option.isSome_iff_exists.1 this
    rw [hx, run_only_checks hx]
  · intro w s path hw hr hsp
    have h1 := mem_allRefs hw hr
    rw [Resolve.spells_iff] at hsp
    rw [hsp.2.1]
    have h2 : ∀ s ∈ allRefs big, p!"new" ∉ Resolve.segsOf s := by decide +kernel
    exact h2 s h1

/-- Deleting a message that is referred to makes the document wrong. -/
example : (Validator.unified.run .ascii big).isSome = true ∧
    (Validator.unified.run .ascii (edit (fun i => (stepInst i (.del p!"o")).1)
      [.field p!"components", .field p!"messages"] big)).isSome = false := by decide +kernel

/-- Setting the description of a channel to null. -/
example : ∃ i j, Valid plainEnv.U plainEnv.digits i (.model .Channel) ∧ i.attr p!"description" ≠ .none ∧
    assign plainEnv false i p!"description" .none = .done j ∧ Removal i j [.field p!"description"] := by
  obtain ⟨i, hi⟩ : ∃ i, validate plainEnv .Channel (.dict [(p!"description", .str p!"d")]) = some i :=
    Option.isSome_iff_exists.1 (by decide +kernel)
  have hv := C42_valid plainEnv .Channel (by decide) _ _ hi
  have hn : (match validate plainEnv .Channel (.dict [(p!"description", .str p!"d")]) with
      | some i => !(i.attr p!"description").isNone && (match assign plainEnv false i p!"description" .none with
        | .done j => (j.attr p!"description").isNone
        | _ => false)
      | none => false) = true := by decide +kernel
  rw [hi] at hn
  simp only [Bool.and_eq_true] at hn
  obtain ⟨hn1, hn2⟩ := hn
  cases ha : assign plainEnv false i p!"description" .none with
  | raised j => rw [ha] at hn2; cases hn2
  | done j =>
    rw [ha] at hn2
    have hj : j.attr p!"description" = .none := by
      cases hx : j.attr p!"description" <;> simp [hx, V.isNone] at hn2 ⊢
    refine ⟨i, j, hv, ?_, ha, C60_field plainEnv (fun _ _ _ h => (Option.some.inj h).symm) false .Channel i hv
      (separate_of_valid (by decide) hv) p!"description" .none j (by decide) ha hj⟩
    intro hx
    simp [hx, V.isNone] at hn1

end Verif.Props
