import Verif.Lemmas.RefCheck
import Verif.Lemmas.TypedCheck
/-!
# C17–C19: `TagsRefValidator` and `ExternalDocsRefValidator`
-/
namespace Verif.Props
open Verif Verif.Spec Verif.Gen Verif.RefV Verif.Resolve
variable {n : Nat} {D : Doc Cls n}

/-- The prefixes of allowed internal references. -/
abbrev tagPrefix : Str := p!"#/components/tags/"
abbrev docPrefix : Str := p!"#/components/externalDocs/"

open Classical in
/-- Full behaviour of TagsRefValidator: the references at the documented places are checked
in some order, each location once; it warns for the external ones up to the first failure. -/
theorem C17_behaviour (T : Typed D) :
    ∃ L : List (List LocStep × Str), L.Nodup ∧
      (∀ steps s, (steps, s) ∈ L ↔ StandsAt D tagPlaces steps s) ∧
      ((validateTags D).res = .ok () ↔ ∀ x ∈ L, Checked D p!"tags" tagPrefix x.2) ∧
      (∀ e, (validateTags D).res = .error e →
        ∃ x ∈ L, ¬ Checked D p!"tags" tagPrefix x.2 ∧ Blames tagPrefix (describe tagContexts x.1) x.2 e) ∧
      (validateTags D).warn = ((L.takeWhile fun x => decide (Checked D p!"tags" tagPrefix x.2)).filter
        fun x => decide (NotHash x.2)).map
          fun x => (describe tagContexts x.1, x.2) := by
  obtain ⟨L, h1, h2, h3⟩ := tags_visits T fun context v s h => validateRef_eq T.wf p!"tags" tagPrefix context v s h
  obtain ⟨r1, r2, r3⟩ := run_list T isColl_tags rfl (describe tagContexts) L h1
  refine ⟨L, h2, ?_, r1, r2, r3⟩
  intro steps s
  rw [h3]
  simp [StandsAt, Below]

open Classical in
/-- Full behaviour of ExternalDocsRefValidator. -/
theorem C18_behaviour (T : Typed D) :
    ∃ L : List (List LocStep × Str), L.Nodup ∧
      (∀ steps s, (steps, s) ∈ L ↔ StandsAt D docPlaces steps s) ∧
      ((validateDocs D).res = .ok () ↔ ∀ x ∈ L, Checked D p!"external_docs" docPrefix x.2) ∧
      (∀ e, (validateDocs D).res = .error e →
        ∃ x ∈ L, ¬ Checked D p!"external_docs" docPrefix x.2 ∧ Blames docPrefix (describe docContexts x.1) x.2 e) ∧
      (validateDocs D).warn = ((L.takeWhile fun x =>
        decide (Checked D p!"external_docs" docPrefix x.2)).filter
        fun x => decide (NotHash x.2)).map fun x => (describe docContexts x.1, x.2) := by
  obtain ⟨L, h1, h2, h3⟩ := docs_visits T fun context v s h => validateRef_eq T.wf p!"external_docs" docPrefix context v s h
  obtain ⟨r1, r2, r3⟩ := run_list T isColl_docs rfl (describe docContexts) L h1
  refine ⟨L, h2, ?_, r1, r2, r3⟩
  intro steps s
  rw [h3]
  simp [StandsAt, Below]

/-- **C17.** TagsRefValidator accepts exactly the documents in which every Reference at a
documented place is external, or starts with `#/components/tags/` and becomes an existing
key when every occurrence of that prefix is deleted. -/
theorem C17_accepts_iff (T : Typed D) : (validateTags D).res = .ok () ↔
    ∀ steps s, StandsAt D tagPlaces steps s → Checked D p!"tags" tagPrefix s := by
  obtain ⟨L, _, h, h2, _⟩ := C17_behaviour T
  rw [h2]
  exact ⟨fun H steps s hs => H (steps, s) ((h steps s).2 hs), fun H x hx => H x.1 x.2 ((h _ _).1 hx)⟩

/-- **C18.** The same for ExternalDocsRefValidator and the places it visits. -/
theorem C18_accepts_iff (T : Typed D) : (validateDocs D).res = .ok () ↔
    ∀ steps s, StandsAt D docPlaces steps s → Checked D p!"external_docs" docPrefix s := by
  obtain ⟨L, _, h, h2, _⟩ := C18_behaviour T
  rw [h2]
  exact ⟨fun H steps s hs => H (steps, s) ((h steps s).2 hs), fun H x hx => H x.1 x.2 ((h _ _).1 hx)⟩

/-- Deleting does nothing when `#` does not occur. -/
theorem deleted_self {p : Str} : ∀ {s : Str}, '#' ∉ s → Deleted ('#' :: p) s s
  | [], _ => .nil
  | c :: cs, h => .miss (by
      rintro ⟨t, e⟩
      simp only [List.cons_append, List.cons.injEq] at e
      exact h (by rw [← e.1]; simp)) (deleted_self fun hm => h (by simp [hm]))

/-- Allowed references whose key has no `#` pass the check; the only other references that
pass repeat the prefix. -/
theorem checked_iff_allowed {F p s : Str} (h : ∀ r, s = '#' :: p ++ r → '#' ∉ r) :
    Checked D F ('#' :: p) s ↔ Allowed D F ('#' :: p) s := by
  constructor
  · rintro (h1 | ⟨rest, key, rfl, hd, hk⟩)
    · exact .inl h1
    · refine .inr ⟨key, ?_, hk⟩
      have := deleted_self (p := p) (h rest rfl)
      rw [deleted_iff (by simp)] at this hd
      rw [← this, hd]
  · rintro (h1 | ⟨key, rfl, hk⟩)
    · exact .inl h1
    · exact .inr ⟨key, key, rfl, deleted_self (h key rfl), hk⟩

/-- **C17**, as stated, for documents whose tag references have no second `#`.
Missing: references that repeat the prefix (`C17_refuted`). -/
theorem C17_exact_partial (T : Typed D)
    (once : ∀ steps s, StandsAt D tagPlaces steps s → ∀ r, s = tagPrefix ++ r → '#' ∉ r) :
    (validateTags D).res = .ok () ↔
    ∀ steps s, StandsAt D tagPlaces steps s → Allowed D p!"tags" tagPrefix s := by
  rw [C17_accepts_iff T]
  constructor <;> intro H steps s hs
  · exact (checked_iff_allowed (once steps s hs)).1 (H steps s hs)
  · exact (checked_iff_allowed (once steps s hs)).2 (H steps s hs)

/-- **C18**, as stated for the visited places, for documents whose externalDocs references
have no second `#`. Missing: references that repeat the prefix (`C18_refuted`), and the
documented places that are not visited (`C18_unvisited`). -/
theorem C18_exact_partial (T : Typed D)
    (once : ∀ steps s, StandsAt D docPlaces steps s → ∀ r, s = docPrefix ++ r → '#' ∉ r) :
    (validateDocs D).res = .ok () ↔
    ∀ steps s, StandsAt D docPlaces steps s → Allowed D p!"external_docs" docPrefix s := by
  rw [C18_accepts_iff T]
  constructor <;> intro H steps s hs
  · exact (checked_iff_allowed (once steps s hs)).1 (H steps s hs)
  · exact (checked_iff_allowed (once steps s hs)).2 (H steps s hs)

/-- **C17.** A document whose tag references are all allowed is accepted, if the keys of
components.tags are `#`-free (C20). -/
theorem C17_allowed_accepted (T : Typed D) (keys : ∀ k, ComponentKey D p!"tags" k → '#' ∉ k)
    (h : ∀ steps s, StandsAt D tagPlaces steps s → Allowed D p!"tags" tagPrefix s) :
    (validateTags D).res = .ok () := by
  rw [C17_accepts_iff T]
  intro steps s hs
  rcases h steps s hs with h1 | ⟨key, rfl, hk⟩
  · exact .inl h1
  · exact .inr ⟨key, key, rfl, deleted_self (keys key hk), hk⟩

/-- **C18.** A document whose visited externalDocs references are all allowed is accepted, if
the keys of components.externalDocs are `#`-free (C20). -/
theorem C18_allowed_accepted (T : Typed D) (keys : ∀ k, ComponentKey D p!"external_docs" k → '#' ∉ k)
    (h : ∀ steps s, StandsAt D docPlaces steps s → Allowed D p!"external_docs" docPrefix s) :
    (validateDocs D).res = .ok () := by
  rw [C18_accepts_iff T]
  intro steps s hs
  rcases h steps s hs with h1 | ⟨key, rfl, hk⟩
  · exact .inl h1
  · exact .inr ⟨key, key, rfl, deleted_self (keys key hk), hk⟩

/-- **C19.** External references never cause rejection. -/
theorem C19_external_accepted (T : Typed D) :
    ((∀ steps s, StandsAt D tagPlaces steps s → NotHash s) → (validateTags D).res = .ok ()) ∧
    ((∀ steps s, StandsAt D docPlaces steps s → NotHash s) → (validateDocs D).res = .ok ()) :=
  ⟨fun h => (C17_accepts_iff T).2 fun steps s hs => .inl (h steps s hs),
   fun h => (C18_accepts_iff T).2 fun steps s hs => .inl (h steps s hs)⟩

theorem warn_aux {α : Type} (P : α → Prop) (Q : α → Prop) [DecidablePred P] [DecidablePred Q]
    (L : List α) (h : ∀ x ∈ L, P x) :
    ((L.takeWhile fun x => decide (P x)).filter fun x => decide (Q x)) = L.filter fun x => decide (Q x) := by
  have : (L.takeWhile fun x => decide (P x)) = L := by
    induction L with
    | nil => rfl
    | cons x xs ih =>
      have hx : P x := h x (by simp)
      simp [hx, ih fun y hy => h y (by simp [hy])]
  rw [this]

open Classical in
/-- **C19.** An accepted document produces one warning per location of an external
reference, with its string, and no others. -/
theorem C19_one_warning_each (T : Typed D) :
    ((validateTags D).res = .ok () → ∃ L : List (List LocStep × Str), L.Nodup ∧
      (∀ steps s, (steps, s) ∈ L ↔ StandsAt D tagPlaces steps s ∧ NotHash s) ∧
      (validateTags D).warn = L.map fun x => (describe tagContexts x.1, x.2)) ∧
    ((validateDocs D).res = .ok () → ∃ L : List (List LocStep × Str), L.Nodup ∧
      (∀ steps s, (steps, s) ∈ L ↔ StandsAt D docPlaces steps s ∧ NotHash s) ∧
      (validateDocs D).warn = L.map fun x => (describe docContexts x.1, x.2)) := by
  constructor
  · intro hok
    obtain ⟨L, h1, h2, h3, _, h5⟩ := C17_behaviour T
    refine ⟨L.filter fun x => decide (NotHash x.2), h1.filter _, ?_, ?_⟩
    · intro steps s; rw [List.mem_filter, h2]; simp
    · rw [h5, warn_aux _ _ L (h3.1 hok)]
  · intro hok
    obtain ⟨L, h1, h2, h3, _, h5⟩ := C18_behaviour T
    refine ⟨L.filter fun x => decide (NotHash x.2), h1.filter _, ?_, ?_⟩
    · intro steps s; rw [List.mem_filter, h2]; simp
    · rw [h5, warn_aux _ _ L (h3.1 hok)]

/-- Rejection points at a Reference at one of the places that does not pass the check. -/
theorem C17_rejection (T : Typed D) {e} (h : (validateTags D).res = .error e) :
    ∃ steps s, StandsAt D tagPlaces steps s ∧ ¬ Checked D p!"tags" tagPrefix s ∧
      Blames tagPrefix (describe tagContexts steps) s e := by
  obtain ⟨L, _, h2, _, h4, _⟩ := C17_behaviour T
  obtain ⟨x, hx, hc, hb⟩ := h4 e h
  exact ⟨x.1, x.2, (h2 _ _).1 hx, hc, hb⟩

theorem C18_rejection (T : Typed D) {e} (h : (validateDocs D).res = .error e) :
    ∃ steps s, StandsAt D docPlaces steps s ∧ ¬ Checked D p!"external_docs" docPrefix s ∧
      Blames docPrefix (describe docContexts steps) s e := by
  obtain ⟨L, _, h2, _, h4, _⟩ := C18_behaviour T
  obtain ⟨x, hx, hc, hb⟩ := h4 e h
  exact ⟨x.1, x.2, (h2 _ _).1 hx, hc, hb⟩

/-- **C18.** The documented places that are not visited. -/
theorem C18_unvisited : docDocumented.filter (fun p => decide (p ∉ docPlaces)) =
    let docs : List PStep := [.field p!"external_docs"]
    let tags := itemsIn p!"tags" ++ docs
    let traits := itemsIn p!"traits"
    [ messagesOf [p!"components", p!"channels"] ++ docs,
      messagesOf [p!"components", p!"channels"] ++ traits ++ docs,
      messagesOf [p!"components", p!"channels"] ++ traits ++ tags,
      entriesOf [p!"components", p!"operations"] ++ traits ++ docs,
      entriesOf [p!"components", p!"operations"] ++ traits ++ tags,
      entriesOf [p!"components", p!"messages"] ++ traits ++ docs,
      entriesOf [p!"components", p!"messages"] ++ traits ++ tags ] := by
  decide +kernel

/-! ### Concrete documents -/

/-- info.tags = [Reference ref, Reference https://e.x/t]; info.externalDocs = Reference docRef;
components.tags = {foo: Tag}, components.externalDocs = {d: ...},
components.messages = {m: Message with externalDocs = null and an inline trait whose externalDocs is
Reference traitRef}. -/
def refDoc (ref docRef traitRef : Str) : Doc Cls 19 where
  spec := 0
  node := fun a => match a.val with
    | 0 => mkInst .AsyncAPI3 [(p!"asyncapi", .str p!"3.0.0"), (p!"info", .ptr 1), (p!"components", .ptr 2)]
    | 1 => mkInst .Info [(p!"title", .str p!"t"), (p!"version", .str p!"1"), (p!"tags", .ptr 3),
             (p!"external_docs", .ptr 4)] [(p!"x-a", .str p!"b")]
    | 2 => mkInst .Components [(p!"tags", .ptr 5), (p!"external_docs", .ptr 6), (p!"messages", .ptr 7)]
    | 3 => .list [.ptr 8, .ptr 9]
    | 4 => mkInst .Reference [(p!"ref", .str docRef)]
    | 5 => mkInst .ComponentsTags [(p!"root", .ptr 10)]
    | 6 => mkInst .ExternalDocs [(p!"root", .ptr 11)]
    | 7 => mkInst .Messages [(p!"root", .ptr 12)]
    | 8 => mkInst .Reference [(p!"ref", .str ref)]
    | 9 => mkInst .Reference [(p!"ref", .str p!"https://e.x/t")]
    | 10 => .dict [(p!"foo", .ptr 13)]
    | 11 => .dict [(p!"d", .ptr 14)]
    | 12 => .dict [(p!"m", .ptr 15)]
    | 13 => mkInst .Tag [(p!"name", .str p!"foo")]
    | 14 => mkInst .ExternalDocumentation [(p!"url", .atom p!"AnyUrl")]
    | 15 => mkInst .Message [(p!"traits", .ptr 16)]
    | 16 => .list [.ptr 17]
    | 17 => mkInst .MessageTrait [(p!"external_docs", .ptr 18)]
    | _ => mkInst .Reference [(p!"ref", .str traitRef)]

/-- The hypotheses of the theorems are met. -/
theorem refDoc_typed : Typed (refDoc p!"#/components/tags/foo" p!"#/components/externalDocs/d" p!"#/x") := by
  apply typed_of_check <;> decide +kernel

/-- C17, C19: accepted, with one warning for the external tag reference. -/
example : validateTags (refDoc p!"#/components/tags/foo" p!"#/components/externalDocs/d" p!"#/x") =
    ⟨[(p!"info", p!"https://e.x/t")], .ok ()⟩ := by rfl

/-- A missing tag and a reference elsewhere are rejected. -/
example : (validateTags (refDoc p!"#/components/tags/nope" p!"#/components/externalDocs/d" p!"#/x")).res =
    .error (.missing p!"info" p!"nope") := by rfl
example : (validateDocs (refDoc p!"#/components/tags/foo" p!"#/channels/d" p!"#/x")).res =
    .error (.pointsElsewhere p!"info" p!"#/channels/d") := by rfl

theorem refDoc_twice_typed : Typed (refDoc p!"#/components/tags/#/components/tags/foo"
    p!"#/components/externalDocs/#/components/externalDocs/d" p!"#/x") := by
  apply typed_of_check <;> decide +kernel

/-- Keys of the example's collections. -/
theorem refDoc_keys {ref docRef traitRef : Str} {F : Str} {i coll t}
    (C : IsColl F i coll t) (T : Typed (refDoc ref docRef traitRef)) (key : Str)
    (h : whenKeyExists (refDoc ref docRef traitRef) F key [] = .fail (.missing [] key)) :
    ¬ ComponentKey (refDoc ref docRef traitRef) F key := by
  intro hk
  rw [whenKeyExists_eq T C, if_pos hk] at h
  simp [Out.ok, Out.fail] at h

/-- **C17, refuted**: a tag reference that is neither external nor `#/components/tags/{key}` for
an existing key is accepted. -/
theorem C17_refuted : ∃ (n : Nat) (D : Doc Cls n), Typed D ∧ (validateTags D).res = .ok () ∧
    ∃ steps s, StandsAt D tagPlaces steps s ∧ ¬ Allowed D p!"tags" tagPrefix s := by
  refine ⟨_, _, refDoc_twice_typed, rfl, [.field p!"info", .field p!"tags", .index 0],
    p!"#/components/tags/#/components/tags/foo", ⟨by decide, 8, ?_, ?_⟩, ?_⟩
  · refine (descends_field refDoc_twice_typed (a := 0) (c := .AsyncAPI3) rfl (by decide) (i := 2) rfl rfl
      (v := .ptr 1) (by decide +kernel) _).2 ⟨1, rfl, ?_⟩
    refine (descends_field refDoc_twice_typed (a := 1) (c := .Info) rfl (by decide) (i := 6) rfl rfl
      (v := .ptr 3) (by decide +kernel) _).2 ⟨3, rfl, ?_⟩
    refine .cons ?_ (.item (xs := [.ptr 8, .ptr 9]) rfl rfl) .nil
    rintro r ⟨a', c', fs', ex', e, h', _⟩
    cases e; cases h'
  · exact ⟨8, .Reference, _, _, rfl, rfl, by decide, by decide +kernel⟩
  · rintro (h | ⟨key, e, hk⟩)
    · exact h _ rfl
    · have : key = p!"#/components/tags/foo" := by
        have e' : tagPrefix ++ p!"#/components/tags/foo" = tagPrefix ++ key := e
        exact (List.append_cancel_left e').symm
      subst this
      exact refDoc_keys isColl_tags refDoc_twice_typed _ (by rfl) hk

/-- **C18, refuted**, twice over: a reference that repeats the prefix is accepted, and so is a
dangling reference at a documented place (an inline trait of a component message). -/
theorem C18_refuted : ∃ (n : Nat) (D : Doc Cls n), Typed D ∧ (validateDocs D).res = .ok () ∧
    (∃ steps s, StandsAt D docPlaces steps s ∧ ¬ Allowed D p!"external_docs" docPrefix s) ∧
    ∃ steps s, StandsAt D docDocumented steps s ∧ ¬ Checked D p!"external_docs" docPrefix s := by
  have T := refDoc_twice_typed
  refine ⟨_, _, T, rfl, ⟨[.field p!"info", .field p!"external_docs"],
    p!"#/components/externalDocs/#/components/externalDocs/d", ⟨by decide, 4, ?_, ?_⟩, ?_⟩,
    [.field p!"components", .field p!"messages", .field p!"root", .key p!"m", .field p!"traits", .index 0,
      .field p!"external_docs"], p!"#/x", ⟨by decide, 18, ?_, ?_⟩, ?_⟩
  · refine (descends_field T (a := 0) (c := .AsyncAPI3) rfl (by decide) (i := 2) rfl rfl
      (v := .ptr 1) (by decide +kernel) _).2 ⟨1, rfl, ?_⟩
    exact (descends_field T (a := 1) (c := .Info) rfl (by decide) (i := 7) rfl rfl
      (v := .ptr 4) (by decide +kernel) _).2 ⟨4, rfl, .nil⟩
  · exact ⟨4, .Reference, _, _, rfl, rfl, by decide, by decide +kernel⟩
  · rintro (h | ⟨key, e, hk⟩)
    · exact h _ rfl
    · have : key = p!"#/components/externalDocs/d" := by
        have e' : docPrefix ++ p!"#/components/externalDocs/d" = docPrefix ++ key := e
        exact (List.append_cancel_left e').symm
      subst this
      exact refDoc_keys isColl_docs T _ (by rfl) hk
  · refine (descends_field T (a := 0) (c := .AsyncAPI3) rfl (by decide) (i := 7) rfl rfl
      (v := .ptr 2) (by decide +kernel) _).2 ⟨2, rfl, ?_⟩
    refine (descends_field T (a := 2) (c := .Components) rfl (by decide) (i := 4) rfl rfl
      (v := .ptr 7) (by decide +kernel) _).2 ⟨7, rfl, ?_⟩
    refine (descends_field T (a := 7) (c := .Messages) rfl (by decide) (i := 0) rfl rfl
      (v := .ptr 12) (by decide +kernel) _).2 ⟨12, rfl, ?_⟩
    refine .cons (c := 15) ?_ (.entry (kvs := [(p!"m", .ptr 15)]) rfl (by simp)) ?_
    · rintro r ⟨a', c', fs', ex', e, h', _⟩
      cases e; cases h'
    refine (descends_field T (a := 15) (c := .Message) rfl (by decide) (i := 12) rfl rfl
      (v := .ptr 16) (by decide +kernel) _).2 ⟨16, rfl, ?_⟩
    refine .cons ?_ (.item (xs := [.ptr 17]) rfl rfl) ?_
    · rintro r ⟨a', c', fs', ex', e, h', _⟩
      cases e; cases h'
    exact (descends_field T (a := 17) (c := .MessageTrait) rfl (by decide) (i := 8) rfl rfl
      (v := .ptr 18) (by decide +kernel) _).2 ⟨18, rfl, .nil⟩
  · exact ⟨18, .Reference, _, _, rfl, rfl, by decide, by decide +kernel⟩
  · rintro (h | ⟨rest, key, e, _⟩)
    · exact h _ rfl
    · simp [docPrefix] at e

end Verif.Props
