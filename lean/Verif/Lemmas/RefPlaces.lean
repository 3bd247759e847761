import Verif.Lemmas.RefVisit
import Verif.Spec.Context
/-! The methods of the two validators, place by place. -/
namespace Verif.RefV
open Verif Verif.Spec Verif.Gen Verif.Resolve
variable {n : Nat} {D : Doc Cls n} {chk : List LocStep → Str → Out} {k : Val n → Out} {place : List PStep}

/-- The result of a visitor applied to the document. -/
abbrev DocVisit (D : Doc Cls n) (chk : List LocStep → Str → Out) (o : Out) (place : List PStep) : Prop :=
  ∃ L : List (List LocStep × Str), Runs chk o L ∧ L.Nodup ∧
    ∀ steps s, (steps, s) ∈ L ↔ steps.map LocStep.shape = place ∧ Below D (.ptr D.spec) steps s

theorem spec_fits (T : Typed D) : Fits D (.model .AsyncAPI3) (.ptr D.spec) := by
  obtain ⟨fs, ex, h⟩ := T.root; exact .model h

/-- `if not spec.F: return`. -/
theorem docVisit_root (T : Typed D) (i : Nat) {F : Str} {al t dflt en ml}
    (hf : (classDef .AsyncAPI3).fields[i]? = some ⟨F, al, .union [t, .none], dflt, false, en, ml⟩)
    (hk : Visits D (fun rest => chk (.field F :: rest)) (Fits D t) k place) : DocVisit D chk (inRoot D F k) (.field F :: place) :=
  visits_attr T (by decide) i hf rfl (visits_opt T hk) _ (spec_fits T)

/-- `if not spec.info: return`. -/
theorem docVisit_info (T : Typed D) (hk : Visits D (fun rest => chk (.field p!"info" :: rest)) (Fits D (.model .Info)) k place) :
    DocVisit D chk (inRoot D p!"info" k) (.field p!"info" :: place) :=
  visits_attr T (by decide) 2 (fd := ⟨p!"info", none, .model .Info, .required, false, false, none⟩) rfl rfl
    (visits_truthy T (hk.mono fun _ h => h.1)) _ (spec_fits T)

/-- `if not spec.components or not spec.components.F: return`. -/
theorem docVisit_comp (T : Typed D) (i : Nat) {F : Str} {al t dflt en ml}
    (hf : (classDef .Components).fields[i]? = some ⟨F, al, .union [t, .none], dflt, false, en, ml⟩)
    (hk : Visits D (fun rest => chk (.field p!"components" :: .field F :: rest)) (Fits D t) k place) :
    DocVisit D chk (inComponents D F k) (.field p!"components" :: .field F :: place) :=
  docVisit_root T 7 rfl (visits_attr T (by decide) i hf rfl (visits_opt T hk))

/-- A truthy optional field of a model. -/
theorem visits_optField (T : Typed D) {c : Cls} (hc : c ≠ .Reference) (i : Nat) {F : Str} {al t dflt en ml}
    (hf : (classDef c).fields[i]? = some ⟨F, al, .union [t, .none], dflt, false, en, ml⟩)
    (hk : Visits D (fun rest => chk (.field F :: rest)) (Fits D t) k place) :
    Visits D chk (Fits D (.model c)) (fun x => attr D x F fun v => ifTruthy D v k) (.field F :: place) :=
  visits_attr T hc i hf rfl (visits_opt T hk)

theorem visits_below (T : Typed D) {c : Cls} (hc : c ≠ .Reference) (i : Nat) {F : Str} {al t dflt en ml}
    (hf : (classDef c).fields[i]? = some ⟨F, al, .union [t, .none], dflt, false, en, ml⟩)
    (hk : Visits D (fun rest => chk (.field F :: rest)) (Fits D t) k place) :
    Visits D chk (Fits D (.union [.model c, .model .Reference])) (below D F k) (.field F :: place) :=
  visits_unlessRef T (visits_optField T hc i hf hk)

/-- The description of a location of a shape of the table. -/
theorem describe_eq {table : List (List PStep × List Piece)} (hnd : (table.map Prod.fst).Nodup) (i : Nat)
    {steps : List LocStep} {t : List Piece} (h : table[i]? = some (steps.map LocStep.shape, t)) :
    describe table steps = fill (namesOn steps) (indicesOn steps) t := by
  have : table.find? (fun e => decide (e.1 = steps.map LocStep.shape)) = some (steps.map LocStep.shape, t) := by
    have hm := List.mem_of_getElem? h
    clear h
    induction table with
    | nil => cases hm
    | cons e es ih =>
      simp only [List.map_cons, List.nodup_cons] at hnd
      rcases List.mem_cons.1 hm with rfl | hm'
      · simp
      · rw [List.find?_cons_of_neg, ih hnd.2 hm']
        simp only [decide_eq_true_eq]
        intro e'
        exact hnd.1 (List.mem_map.2 ⟨_, hm', e'.symm⟩)
  simp [describe, this]

theorem tagContexts_nodup : (tagContexts.map Prod.fst).Nodup := by decide +kernel
theorem docContexts_nodup : (docContexts.map Prod.fst).Nodup := by decide +kernel

/-! ### Tags -/

/-- The type of tag lists. -/
abbrev tagTy : Ty Cls := .union [.model .Tag, .model .Reference]

section tags
variable (T : Typed D)
include T

theorem visits_tagsList {context : Str}
    (hc : ∀ i v s, IsReference table D v s → validateTagRef D context v = chk [.index i] s) :
    Visits D chk (Fits D (.list tagTy)) (tagsList D context) [.anyIndex] :=
  visits_list T fun i => (visits_ref T (hc i)).mono fun _ _ => trivial

theorem reference_no_attr {v : Val n} {name : Str} (h : Fits D (.model .Reference) v) (hne : name ≠ p!"ref") :
    D.getattr v name = none := by
  cases h with
  | scalar h => exact h.elim
  | @model _ a fs ex hn =>
    cases hg : D.getattr (.ptr a) name with
    | none => rfl
    | some w =>
      exfalso
      have hex := T.noExtra a _ fs ex hn (.inl rfl)
      subst hex
      rcases (getattr_iff T.wf hn).1 hg with hm | ⟨_, hm⟩
      · obtain ⟨f, hf, he⟩ := T.onlyDeclared a _ fs [] hn _ _ hm
        simp [classDef, defReference] at hf
        subst hf; exact hne he.symm
      · simp at hm

theorem visits_tagsOfObject {context : Str}
    (hc : ∀ i v s, IsReference table D v s → validateTagRef D context v = chk [.field p!"tags", .index i] s)
    {c : Cls} (hcr : c ≠ .Reference) (i : Nat) {al dflt en ml}
    (hf : (classDef c).fields[i]? = some ⟨p!"tags", al, .union [.list tagTy, .none], dflt, false, en, ml⟩) :
    Visits D chk (Fits D (.union [.model c, .model .Reference])) (tagsOfObject D context) (.field p!"tags" :: [.anyIndex]) := by
  intro v hv
  have hv' : Fits D (.model c) v ∨ Fits D (.model .Reference) v := by
    cases hv with
    | scalar h => exact h.elim
    | union hm hf =>
      simp only [List.mem_cons, List.not_mem_nil, or_false] at hm
      rcases hm with rfl | rfl
      · exact .inl hf
      · exact .inr hf
  rcases hv' with hv' | hv'
  · have := visits_optField T hcr i hf (visits_tagsList T hc) v hv'
    have e : tagsOfObject D context v = attr D v p!"tags" fun v => ifTruthy D v (tagsList D context) := by
      obtain ⟨a, c', fs, ex, rfl, hn⟩ := fits_inst hv'
      cases hv' with
      | scalar h => exact h.elim
      | model hn =>
        obtain ⟨w, _, _, hg⟩ := field_value T hn hf
        simp only [tagsOfObject, attr] at hg ⊢
        rw [hg]; rfl
    rw [e]; exact this
  · have e : tagsOfObject D context v = .ok := by
      simp [tagsOfObject, reference_no_attr T hv' (name := p!"tags") (by decide)]
    rw [e]
    apply visits_none
    intro steps s hst hb
    cases steps with
    | nil => simp at hst
    | cons st rest =>
      obtain ⟨a, w, rfl, hn, _⟩ := below_cons.1 hb
      cases hv' with
      | scalar h => exact h.elim
      | model hnode =>
        obtain ⟨s', hs'⟩ := T.wf.refField _ _ _ _ hnode (by decide)
        exact hn s' ⟨a, _, _, _, rfl, hnode, by decide, hs'⟩

theorem visits_tagsInCollection {what : Str}
    (hc : ∀ nm i v s, IsReference table D v s →
      validateTagRef D (quoted what nm) v = chk [.field p!"root", .key nm, .field p!"tags", .index i] s)
    {coll c : Cls} (hcoll : coll ≠ .Reference) (hcr : c ≠ .Reference) (i : Nat)
    {al dflt en ml}
    (h0 : (classDef coll).fields[0]? =
      some ⟨p!"root", none, .dict (.union [.model c, .model .Reference]), .required, false, false, none⟩)
    (hf : (classDef c).fields[i]? = some ⟨p!"tags", al, .union [.list tagTy, .none], dflt, false, en, ml⟩) :
    Visits D chk (Fits D (.model coll)) (tagsInCollection D what)
      [.field p!"root", .anyKey, .field p!"tags", .anyIndex] :=
  visits_items T h0 hcoll fun nm => visits_tagsOfObject T (hc nm) hcr i hf

theorem visits_tagsChannelMessages {what : Str}
    (hc : ∀ nm nm' i v s, IsReference table D v s →
      validateTagRef D (inside (quoted p!"message" nm') (quoted what nm)) v =
        chk [.field p!"root", .key nm, .field p!"messages", .field p!"root", .key nm', .field p!"tags", .index i] s) :
    Visits D chk (Fits D (.model .Channels)) (tagsChannelMessages D what)
    [.field p!"root", .anyKey, .field p!"messages", .field p!"root", .anyKey, .field p!"tags", .anyIndex] :=
  visits_items T rfl (by decide) fun nm => visits_unlessRef T <| visits_optField T (by decide) 1 rfl <|
    visits_items T rfl (by decide) fun nm' => visits_unlessRef T <| visits_optField T (by decide) 8 rfl <|
      visits_tagsList T (hc nm nm')

open Verif.Spec in
/-- TagsRefValidator checks the references at its places, each location once, with the description of the location. -/
theorem tags_visits {chk : Str → Str → Out} (hc : ∀ context v s, IsReference table D v s → validateTagRef D context v = chk context s) :
    ∃ L : List (List LocStep × Str), Runs (fun steps => chk (describe tagContexts steps)) (validateTags D) L ∧ L.Nodup ∧
    ∀ steps s, (steps, s) ∈ L ↔ steps.map LocStep.shape ∈ tagPlaces ∧ Below D (.ptr D.spec) steps s := by
  have v1 : DocVisit D (fun steps => chk (describe tagContexts steps)) (tagsInfo D) _ :=
    docVisit_info T (visits_optField T (by decide) 6 rfl (visits_tagsList T fun i v s h => by
      rw [hc _ v s h]; refine congrArg (fun c => chk c s) ?_
      rw [describe_eq tagContexts_nodup 0 rfl]; simp [fill, namesOn, indicesOn, quoted, inside, numbered, entry, message]))
  have v2 : DocVisit D (fun steps => chk (describe tagContexts steps)) (inRoot D p!"servers" (tagsInCollection D p!"server")) _ :=
    docVisit_root T 3 rfl (visits_tagsInCollection T (fun nm i v s h => by
      rw [hc _ v s h]; refine congrArg (fun c => chk c s) ?_
      rw [describe_eq tagContexts_nodup 1 rfl]; simp [fill, namesOn, indicesOn, quoted, inside, numbered, entry, message]) (c := .Server) (by decide) (by decide) 9 rfl rfl)
  have v3 : DocVisit D (fun steps => chk (describe tagContexts steps)) (inRoot D p!"channels" (tagsInCollection D p!"channel")) _ :=
    docVisit_root T 5 rfl (visits_tagsInCollection T (fun nm i v s h => by
      rw [hc _ v s h]; refine congrArg (fun c => chk c s) ?_
      rw [describe_eq tagContexts_nodup 2 rfl]; simp [fill, namesOn, indicesOn, quoted, inside, numbered, entry, message]) (c := .Channel) (by decide) (by decide) 7 rfl rfl)
  have v4 : DocVisit D (fun steps => chk (describe tagContexts steps)) (inRoot D p!"channels" (tagsChannelMessages D p!"channel")) _ :=
    docVisit_root T 5 rfl (visits_tagsChannelMessages T fun nm nm' i v s h => by
      rw [hc _ v s h]; refine congrArg (fun c => chk c s) ?_
      rw [describe_eq tagContexts_nodup 3 rfl]; simp [fill, namesOn, indicesOn, quoted, inside, numbered, entry, message])
  have v5 : DocVisit D (fun steps => chk (describe tagContexts steps)) (inRoot D p!"operations" (tagsInCollection D p!"operation")) _ :=
    docVisit_root T 6 rfl (visits_tagsInCollection T (fun nm i v s h => by
      rw [hc _ v s h]; refine congrArg (fun c => chk c s) ?_
      rw [describe_eq tagContexts_nodup 4 rfl]; simp [fill, namesOn, indicesOn, quoted, inside, numbered, entry, message]) (c := .Operation) (by decide) (by decide) 6 rfl rfl)
  have v6 : DocVisit D (fun steps => chk (describe tagContexts steps)) (inComponents D p!"messages" (tagsInCollection D p!"components message")) _ :=
    docVisit_comp T 4 rfl (visits_tagsInCollection T (fun nm i v s h => by
      rw [hc _ v s h]; refine congrArg (fun c => chk c s) ?_
      rw [describe_eq tagContexts_nodup 5 rfl]; simp [fill, namesOn, indicesOn, quoted, inside, numbered, entry, message]) (c := .Message) (by decide) (by decide) 8 rfl rfl)
  have v7 : DocVisit D (fun steps => chk (describe tagContexts steps)) (inComponents D p!"channels" (tagsInCollection D p!"components channel")) _ :=
    docVisit_comp T 2 rfl (visits_tagsInCollection T (fun nm i v s h => by
      rw [hc _ v s h]; refine congrArg (fun c => chk c s) ?_
      rw [describe_eq tagContexts_nodup 6 rfl]; simp [fill, namesOn, indicesOn, quoted, inside, numbered, entry, message]) (c := .Channel) (by decide) (by decide) 7 rfl rfl)
  have v8 : DocVisit D (fun steps => chk (describe tagContexts steps)) (inComponents D p!"operations" (tagsInCollection D p!"components operation")) _ :=
    docVisit_comp T 3 rfl (visits_tagsInCollection T (fun nm i v s h => by
      rw [hc _ v s h]; refine congrArg (fun c => chk c s) ?_
      rw [describe_eq tagContexts_nodup 7 rfl]; simp [fill, namesOn, indicesOn, quoted, inside, numbered, entry, message]) (c := .Operation) (by decide) (by decide) 6 rfl rfl)
  have v9 : DocVisit D (fun steps => chk (describe tagContexts steps)) (inComponents D p!"servers" (tagsInCollection D p!"components server")) _ :=
    docVisit_comp T 1 rfl (visits_tagsInCollection T (fun nm i v s h => by
      rw [hc _ v s h]; refine congrArg (fun c => chk c s) ?_
      rw [describe_eq tagContexts_nodup 8 rfl]; simp [fill, namesOn, indicesOn, quoted, inside, numbered, entry, message]) (c := .Server) (by decide) (by decide) 9 rfl rfl)
  have v10 : DocVisit D (fun steps => chk (describe tagContexts steps)) (inComponents D p!"operation_traits" (tagsInCollection D p!"components operation trait")) _ :=
    docVisit_comp T 13 rfl (visits_tagsInCollection T (fun nm i v s h => by
      rw [hc _ v s h]; refine congrArg (fun c => chk c s) ?_
      rw [describe_eq tagContexts_nodup 9 rfl]; simp [fill, namesOn, indicesOn, quoted, inside, numbered, entry, message]) (c := .OperationTrait) (by decide) (by decide) 4 rfl rfl)
  have v11 : DocVisit D (fun steps => chk (describe tagContexts steps)) (inComponents D p!"message_traits" (tagsInCollection D p!"components message trait")) _ :=
    docVisit_comp T 14 rfl (visits_tagsInCollection T (fun nm i v s h => by
      rw [hc _ v s h]; refine congrArg (fun c => chk c s) ?_
      rw [describe_eq tagContexts_nodup 10 rfl]; simp [fill, namesOn, indicesOn, quoted, inside, numbered, entry, message]) (c := .MessageTrait) (by decide) (by decide) 7 rfl rfl)
  have v12 : DocVisit D (fun steps => chk (describe tagContexts steps)) (inComponents D p!"channels" (tagsChannelMessages D p!"components channel")) _ :=
    docVisit_comp T 2 rfl (visits_tagsChannelMessages T fun nm nm' i v s h => by
      rw [hc _ v s h]; refine congrArg (fun c => chk c s) ?_
      rw [describe_eq tagContexts_nodup 11 rfl]; simp [fill, namesOn, indicesOn, quoted, inside, numbered, entry, message])
  have v13 : DocVisit D (fun steps => chk (describe tagContexts steps)) (inComponents D p!"tags" (tagsComponentsTags D)) _ :=
    docVisit_comp T 12 rfl (visits_items T rfl (by decide) fun nm => (visits_ref T fun v s h => by
      rw [hc _ v s h]; refine congrArg (fun c => chk c s) ?_
      rw [describe_eq tagContexts_nodup 12 rfl]; simp [fill, namesOn, indicesOn, quoted, inside, numbered, entry, message]).mono fun _ _ => trivial)
  have key := visits_all (D := D) (chk := fun steps => chk (describe tagContexts steps)) (v := .ptr D.spec)
    (List.zip [
      tagsInfo D,
      inRoot D p!"servers" (tagsInCollection D p!"server"),
      inRoot D p!"channels" (tagsInCollection D p!"channel"),
      inRoot D p!"channels" (tagsChannelMessages D p!"channel"),
      inRoot D p!"operations" (tagsInCollection D p!"operation"),
      inComponents D p!"messages" (tagsInCollection D p!"components message"),
      inComponents D p!"channels" (tagsInCollection D p!"components channel"),
      inComponents D p!"operations" (tagsInCollection D p!"components operation"),
      inComponents D p!"servers" (tagsInCollection D p!"components server"),
      inComponents D p!"operation_traits" (tagsInCollection D p!"components operation trait"),
      inComponents D p!"message_traits" (tagsInCollection D p!"components message trait"),
      inComponents D p!"channels" (tagsChannelMessages D p!"components channel"),
      inComponents D p!"tags" (tagsComponentsTags D)] tagPlaces)
    (show tagPlaces.Nodup by decide +kernel)
    (List.forall_mem_cons.2 ⟨v1, List.forall_mem_cons.2 ⟨v2, List.forall_mem_cons.2 ⟨v3,
      List.forall_mem_cons.2 ⟨v4, List.forall_mem_cons.2 ⟨v5, List.forall_mem_cons.2 ⟨v6,
      List.forall_mem_cons.2 ⟨v7, List.forall_mem_cons.2 ⟨v8, List.forall_mem_cons.2 ⟨v9,
      List.forall_mem_cons.2 ⟨v10, List.forall_mem_cons.2 ⟨v11, List.forall_mem_cons.2 ⟨v12,
      List.forall_mem_cons.2 ⟨v13, by intro _ h; exact absurd h (List.not_mem_nil)⟩⟩⟩⟩⟩⟩⟩⟩⟩⟩⟩⟩⟩)
  exact key
end tags

/-! ### External documentation -/

section docs
variable (T : Typed D)
include T

/-- `refField` on anything that can only be a model instance. -/
theorem visits_refField_model {context : Str}
    (hc : ∀ v s, IsReference table D v s → validateDocRef D context v = chk [.field p!"external_docs"] s) {c : Cls} :
    Visits D chk (Fits D (.model c)) (refField D context) [.field p!"external_docs"] :=
  (visits_refField T hc).mono fun _ h => fits_inst h

theorem visits_refField_schema {context : Str}
    (hc : ∀ v s, IsReference table D v s → validateDocRef D context v = chk [.field p!"external_docs"] s) :
    Visits D chk (Fits D (.union [.model .MultiFormatSchema, .model .Schema, .model .Reference])) (refField D context)
      [.field p!"external_docs"] := by
  apply (visits_refField T hc).mono
  intro v h
  cases h with
  | scalar h => exact h.elim
  | union hm hf =>
    simp only [List.mem_cons, List.not_mem_nil, or_false] at hm
    rcases hm with rfl | rfl | rfl <;> exact fits_inst hf

/-- `headers` and `payload`: optional, a schema or a Reference. -/
theorem visits_schemaField {context : Str} {c : Cls} (hcr : c ≠ .Reference) (i : Nat) {F : Str} {al dflt en ml}
    (hf : (classDef c).fields[i]? = some ⟨F, al,
      .union [.model .MultiFormatSchema, .model .Schema, .model .Reference, .none], dflt, false, en, ml⟩)
    (hc : ∀ v s, IsReference table D v s → validateDocRef D context v = chk [.field F, .field p!"external_docs"] s) :
    Visits D chk (Fits D (.union [.model c, .model .Reference])) (below D F (refField D context))
      [.field F, .field p!"external_docs"] := by
  apply visits_unlessRef T
  apply visits_attr T hcr i hf rfl
  apply visits_truthy T
  apply (visits_refField T hc).mono
  rintro v ⟨h, ht⟩
  cases h with
  | scalar h => exact h.elim
  | union hm hf =>
    simp only [List.mem_cons, List.not_mem_nil, or_false] at hm
    rcases hm with rfl | rfl | rfl | rfl
    · exact fits_inst hf
    · exact fits_inst hf
    · exact fits_inst hf
    · cases hf with
      | none => simp [truthy] at ht
      | scalar h => exact h.elim

theorem visits_item {context : Str}
    (hc : ∀ v s, IsReference table D v s → validateDocRef D context v = chk [.field p!"external_docs"] s) {c : Cls} :
    Visits D chk (Fits D (.union [.model c, .model .Reference])) (fun x => unlessRef D x (refField D context))
      [.field p!"external_docs"] :=
  visits_unlessRef T (visits_refField_model T hc)

theorem visits_docsTags {context : Str}
    (hc : ∀ i v s, IsReference table D v s →
      validateDocRef D (inside (numbered p!"tag" i) context) v = chk [.index i, .field p!"external_docs"] s) :
    Visits D chk (Fits D (.list tagTy)) (docsTags D context) [.anyIndex, .field p!"external_docs"] :=
  visits_list T fun i => visits_item T (hc i)

theorem visits_docsCollection {what : Str}
    (hc : ∀ nm v s, IsReference table D v s →
      validateDocRef D (quoted what nm) v = chk [.field p!"root", .key nm, .field p!"external_docs"] s)
    {coll c : Cls} (hcoll : coll ≠ .Reference)
    (h0 : (classDef coll).fields[0]? =
      some ⟨p!"root", none, .dict (.union [.model c, .model .Reference]), .required, false, false, none⟩) :
    Visits D chk (Fits D (.model coll)) (docsCollection D what)
      [.field p!"root", .anyKey, .field p!"external_docs"] :=
  visits_items T h0 hcoll fun nm => visits_item T (hc nm)

theorem visits_channelMessages {k : Str → Val n → Out}
    (hk : ∀ nm nm', Visits D (fun rest => chk (.field p!"root" :: .key nm :: .field p!"messages" :: .field p!"root" ::
        .key nm' :: rest)) (Fits D (.union [.model .Message, .model .Reference]))
      (k (inside (quoted p!"message" nm') (quoted p!"channel" nm))) place) :
    Visits D chk (Fits D (.model .Channels)) (channelMessages D k)
      ([.field p!"root", .anyKey, .field p!"messages", .field p!"root", .anyKey] ++ place) :=
  visits_items T rfl (by decide) fun nm =>
    visits_below T (by decide) 1 rfl (visits_items T rfl (by decide) fun nm' => hk nm nm')

theorem visits_schemas {context : Str}
    (hc : ∀ v s, IsReference table D v s → validateDocRef D context v = chk [.field p!"external_docs"] s) :
    Visits D chk (Fits D (.union [.model .MultiFormatSchema, .model .Schema, .model .Reference]))
    (fun s => if (D.getattr s p!"external_docs").isSome then refField D context s else .ok)
    [.field p!"external_docs"] := by
  intro v hv
  have := visits_refField_schema T hc v hv
  have e : (if (D.getattr v p!"external_docs").isSome then refField D context v else .ok) = refField D context v := by
    unfold refField
    cases D.getattr v p!"external_docs" <;> rfl
  simp only [e]; exact this

open Verif.Spec in
/-- ExternalDocsRefValidator checks the references at its places, each location once, with the description of the location. -/
theorem docs_visits {chk : Str → Str → Out} (hc : ∀ context v s, IsReference table D v s → validateDocRef D context v = chk context s) :
    ∃ L : List (List LocStep × Str), Runs (fun steps => chk (describe docContexts steps)) (validateDocs D) L ∧ L.Nodup ∧
    ∀ steps s, (steps, s) ∈ L ↔ steps.map LocStep.shape ∈ docPlaces ∧ Below D (.ptr D.spec) steps s := by
  have v1 : DocVisit D (fun steps => chk (describe docContexts steps)) (docsInfo D) _ :=
    docVisit_info T (visits_refField_model T fun v s h => by
      rw [hc _ v s h]; refine congrArg (fun c => chk c s) ?_
      rw [describe_eq docContexts_nodup 0 rfl]; simp [fill, namesOn, indicesOn, quoted, inside, numbered, entry, message])
  have v2 : DocVisit D (fun steps => chk (describe docContexts steps)) (docsInfoTags D) _ :=
    docVisit_info T (visits_optField T (by decide) 6 rfl (visits_list T fun i => visits_item T fun v s h => by
      rw [hc _ v s h]; refine congrArg (fun c => chk c s) ?_
      rw [describe_eq docContexts_nodup 1 rfl]; simp [fill, namesOn, indicesOn, quoted, inside, numbered, entry, message]))
  have v3 : DocVisit D (fun steps => chk (describe docContexts steps)) (inRoot D p!"servers" (docsCollection D p!"server")) _ :=
    docVisit_root T 3 rfl (visits_docsCollection T (fun nm v s h => by
      rw [hc _ v s h]; refine congrArg (fun c => chk c s) ?_
      rw [describe_eq docContexts_nodup 2 rfl]; simp [fill, namesOn, indicesOn, quoted, inside, numbered, entry, message]) (c := .Server) (by decide) rfl)
  have v4 : DocVisit D (fun steps => chk (describe docContexts steps)) (inRoot D p!"channels" (docsCollection D p!"channel")) _ :=
    docVisit_root T 5 rfl (visits_docsCollection T (fun nm v s h => by
      rw [hc _ v s h]; refine congrArg (fun c => chk c s) ?_
      rw [describe_eq docContexts_nodup 3 rfl]; simp [fill, namesOn, indicesOn, quoted, inside, numbered, entry, message]) (c := .Channel) (by decide) rfl)
  have v5 : DocVisit D (fun steps => chk (describe docContexts steps)) (docsChMsg D) _ :=
    docVisit_root T 5 rfl (visits_channelMessages T fun nm nm' => visits_item T fun v s h => by
      rw [hc _ v s h]; refine congrArg (fun c => chk c s) ?_
      rw [describe_eq docContexts_nodup 4 rfl]; simp [fill, namesOn, indicesOn, quoted, inside, numbered, entry, message])
  have v6 : DocVisit D (fun steps => chk (describe docContexts steps)) (docsChMsgHeaders D) _ :=
    docVisit_root T 5 rfl (visits_channelMessages T fun nm nm' => visits_schemaField T (by decide) 0 rfl fun v s h => by
      rw [hc _ v s h]; refine congrArg (fun c => chk c s) ?_
      rw [describe_eq docContexts_nodup 5 rfl]; simp [fill, namesOn, indicesOn, quoted, inside, numbered, entry, message])
  have v7 : DocVisit D (fun steps => chk (describe docContexts steps)) (docsChMsgPayload D) _ :=
    docVisit_root T 5 rfl (visits_channelMessages T fun nm nm' => visits_schemaField T (by decide) 1 rfl fun v s h => by
      rw [hc _ v s h]; refine congrArg (fun c => chk c s) ?_
      rw [describe_eq docContexts_nodup 6 rfl]; simp [fill, namesOn, indicesOn, quoted, inside, numbered, entry, message])
  have v8 : DocVisit D (fun steps => chk (describe docContexts steps)) (docsChMsgTags D) _ :=
    docVisit_root T 5 rfl (visits_channelMessages T fun nm nm' => visits_below T (by decide) 8 rfl (visits_docsTags T fun i v s h => by
      rw [hc _ v s h]; refine congrArg (fun c => chk c s) ?_
      rw [describe_eq docContexts_nodup 7 rfl]; simp [fill, namesOn, indicesOn, quoted, inside, numbered, entry, message]))
  have v9 : DocVisit D (fun steps => chk (describe docContexts steps)) (docsChMsgTraits D) _ :=
    docVisit_root T 5 rfl (visits_channelMessages T fun nm nm' => visits_below T (by decide) 12 rfl (visits_list T fun i => visits_item T fun v s h => by
      rw [hc _ v s h]; refine congrArg (fun c => chk c s) ?_
      rw [describe_eq docContexts_nodup 8 rfl]; simp [fill, namesOn, indicesOn, quoted, inside, numbered, entry, message]))
  have v10 : DocVisit D (fun steps => chk (describe docContexts steps)) (docsChMsgTraitsHeaders D) _ :=
    docVisit_root T 5 rfl (visits_channelMessages T fun nm nm' => visits_below T (by decide) 12 rfl (visits_list T fun i => visits_schemaField T (by decide) 0 rfl fun v s h => by
      rw [hc _ v s h]; refine congrArg (fun c => chk c s) ?_
      rw [describe_eq docContexts_nodup 9 rfl]; simp [fill, namesOn, indicesOn, quoted, inside, numbered, entry, message]))
  have v11 : DocVisit D (fun steps => chk (describe docContexts steps)) (docsChMsgTraitsTags D) _ :=
    docVisit_root T 5 rfl (visits_channelMessages T fun nm nm' => visits_below T (by decide) 12 rfl (visits_list T fun i => visits_below T (by decide) 7 rfl (visits_docsTags T fun j v s h => by
      rw [hc _ v s h]; refine congrArg (fun c => chk c s) ?_
      rw [describe_eq docContexts_nodup 10 rfl]; simp [fill, namesOn, indicesOn, quoted, inside, numbered, entry, message])))
  have v12 : DocVisit D (fun steps => chk (describe docContexts steps)) (inRoot D p!"operations" (docsCollection D p!"operation")) _ :=
    docVisit_root T 6 rfl (visits_docsCollection T (fun nm v s h => by
      rw [hc _ v s h]; refine congrArg (fun c => chk c s) ?_
      rw [describe_eq docContexts_nodup 11 rfl]; simp [fill, namesOn, indicesOn, quoted, inside, numbered, entry, message]) (c := .Operation) (by decide) rfl)
  have v13 : DocVisit D (fun steps => chk (describe docContexts steps)) (docsOpTags D) _ :=
    docVisit_root T 6 rfl (visits_items T rfl (by decide) fun nm => visits_below T (by decide) 6 rfl (visits_docsTags T fun i v s h => by
      rw [hc _ v s h]; refine congrArg (fun c => chk c s) ?_
      rw [describe_eq docContexts_nodup 12 rfl]; simp [fill, namesOn, indicesOn, quoted, inside, numbered, entry, message]))
  have v14 : DocVisit D (fun steps => chk (describe docContexts steps)) (docsOpTraits D) _ :=
    docVisit_root T 6 rfl (visits_items T rfl (by decide) fun nm => visits_below T (by decide) 9 rfl (visits_list T fun i => visits_item T fun v s h => by
      rw [hc _ v s h]; refine congrArg (fun c => chk c s) ?_
      rw [describe_eq docContexts_nodup 13 rfl]; simp [fill, namesOn, indicesOn, quoted, inside, numbered, entry, message]))
  have v15 : DocVisit D (fun steps => chk (describe docContexts steps)) (docsOpTraitsTags D) _ :=
    docVisit_root T 6 rfl (visits_items T rfl (by decide) fun nm => visits_below T (by decide) 9 rfl (visits_list T fun i => visits_below T (by decide) 4 rfl (visits_docsTags T fun j v s h => by
      rw [hc _ v s h]; refine congrArg (fun c => chk c s) ?_
      rw [describe_eq docContexts_nodup 14 rfl]; simp [fill, namesOn, indicesOn, quoted, inside, numbered, entry, message])))
  have v16 : DocVisit D (fun steps => chk (describe docContexts steps)) (inComponents D p!"channels" (docsCollection D p!"components channel")) _ :=
    docVisit_comp T 2 rfl (visits_docsCollection T (fun nm v s h => by
      rw [hc _ v s h]; refine congrArg (fun c => chk c s) ?_
      rw [describe_eq docContexts_nodup 15 rfl]; simp [fill, namesOn, indicesOn, quoted, inside, numbered, entry, message]) (c := .Channel) (by decide) rfl)
  have v17 : DocVisit D (fun steps => chk (describe docContexts steps)) (docsCompDocs D) _ :=
    docVisit_comp T 11 rfl (visits_items T rfl (by decide) fun nm => (visits_ref T fun v s h => by
      rw [hc _ v s h]; refine congrArg (fun c => chk c s) ?_
      rw [describe_eq docContexts_nodup 16 rfl]; simp [fill, namesOn, indicesOn, quoted, inside, numbered, entry, message]).mono fun _ _ => trivial)
  have v18 : DocVisit D (fun steps => chk (describe docContexts steps)) (inComponents D p!"messages" (docsCollection D p!"components message")) _ :=
    docVisit_comp T 4 rfl (visits_docsCollection T (fun nm v s h => by
      rw [hc _ v s h]; refine congrArg (fun c => chk c s) ?_
      rw [describe_eq docContexts_nodup 17 rfl]; simp [fill, namesOn, indicesOn, quoted, inside, numbered, entry, message]) (c := .Message) (by decide) rfl)
  have v19 : DocVisit D (fun steps => chk (describe docContexts steps)) (inComponents D p!"messages" (docsCompField D p!"components message" p!"headers")) _ :=
    docVisit_comp T 4 rfl (visits_items T rfl (by decide) fun nm => visits_schemaField T (by decide) 0 rfl fun v s h => by
      rw [hc _ v s h]; refine congrArg (fun c => chk c s) ?_
      rw [describe_eq docContexts_nodup 18 rfl]; simp [fill, namesOn, indicesOn, quoted, inside, numbered, entry, message])
  have v20 : DocVisit D (fun steps => chk (describe docContexts steps)) (inComponents D p!"messages" (docsCompField D p!"components message" p!"payload")) _ :=
    docVisit_comp T 4 rfl (visits_items T rfl (by decide) fun nm => visits_schemaField T (by decide) 1 rfl fun v s h => by
      rw [hc _ v s h]; refine congrArg (fun c => chk c s) ?_
      rw [describe_eq docContexts_nodup 19 rfl]; simp [fill, namesOn, indicesOn, quoted, inside, numbered, entry, message])
  have v21 : DocVisit D (fun steps => chk (describe docContexts steps)) (inComponents D p!"message_traits" (docsCollection D p!"components message trait")) _ :=
    docVisit_comp T 14 rfl (visits_docsCollection T (fun nm v s h => by
      rw [hc _ v s h]; refine congrArg (fun c => chk c s) ?_
      rw [describe_eq docContexts_nodup 20 rfl]; simp [fill, namesOn, indicesOn, quoted, inside, numbered, entry, message]) (c := .MessageTrait) (by decide) rfl)
  have v22 : DocVisit D (fun steps => chk (describe docContexts steps)) (inComponents D p!"message_traits" (docsCompField D p!"components message trait" p!"headers")) _ :=
    docVisit_comp T 14 rfl (visits_items T rfl (by decide) fun nm => visits_schemaField T (by decide) 0 rfl fun v s h => by
      rw [hc _ v s h]; refine congrArg (fun c => chk c s) ?_
      rw [describe_eq docContexts_nodup 21 rfl]; simp [fill, namesOn, indicesOn, quoted, inside, numbered, entry, message])
  have v23 : DocVisit D (fun steps => chk (describe docContexts steps)) (inComponents D p!"operations" (docsCollection D p!"components operation")) _ :=
    docVisit_comp T 3 rfl (visits_docsCollection T (fun nm v s h => by
      rw [hc _ v s h]; refine congrArg (fun c => chk c s) ?_
      rw [describe_eq docContexts_nodup 22 rfl]; simp [fill, namesOn, indicesOn, quoted, inside, numbered, entry, message]) (c := .Operation) (by decide) rfl)
  have v24 : DocVisit D (fun steps => chk (describe docContexts steps)) (inComponents D p!"operation_traits" (docsCollection D p!"components operation trait")) _ :=
    docVisit_comp T 13 rfl (visits_docsCollection T (fun nm v s h => by
      rw [hc _ v s h]; refine congrArg (fun c => chk c s) ?_
      rw [describe_eq docContexts_nodup 23 rfl]; simp [fill, namesOn, indicesOn, quoted, inside, numbered, entry, message]) (c := .OperationTrait) (by decide) rfl)
  have v25 : DocVisit D (fun steps => chk (describe docContexts steps)) (inComponents D p!"servers" (docsCollection D p!"components server")) _ :=
    docVisit_comp T 1 rfl (visits_docsCollection T (fun nm v s h => by
      rw [hc _ v s h]; refine congrArg (fun c => chk c s) ?_
      rw [describe_eq docContexts_nodup 24 rfl]; simp [fill, namesOn, indicesOn, quoted, inside, numbered, entry, message]) (c := .Server) (by decide) rfl)
  have v26 : DocVisit D (fun steps => chk (describe docContexts steps)) (inComponents D p!"tags" (docsCollection D p!"tag")) _ :=
    docVisit_comp T 12 rfl (visits_docsCollection T (fun nm v s h => by
      rw [hc _ v s h]; refine congrArg (fun c => chk c s) ?_
      rw [describe_eq docContexts_nodup 25 rfl]; simp [fill, namesOn, indicesOn, quoted, inside, numbered, entry, message]) (c := .Tag) (by decide) rfl)
  have v27 : DocVisit D (fun steps => chk (describe docContexts steps)) (docsCompSchemas D) _ :=
    docVisit_comp T 0 rfl (visits_items T rfl (by decide) fun nm => visits_schemas T fun v s h => by
      rw [hc _ v s h]; refine congrArg (fun c => chk c s) ?_
      rw [describe_eq docContexts_nodup 26 rfl]; simp [fill, namesOn, indicesOn, quoted, inside, numbered, entry, message])
  have key := visits_all (D := D) (chk := fun steps => chk (describe docContexts steps)) (v := .ptr D.spec)
    (List.zip [
      docsInfo D,
      docsInfoTags D,
      inRoot D p!"servers" (docsCollection D p!"server"),
      inRoot D p!"channels" (docsCollection D p!"channel"),
      docsChMsg D,
      docsChMsgHeaders D,
      docsChMsgPayload D,
      docsChMsgTags D,
      docsChMsgTraits D,
      docsChMsgTraitsHeaders D,
      docsChMsgTraitsTags D,
      inRoot D p!"operations" (docsCollection D p!"operation"),
      docsOpTags D,
      docsOpTraits D,
      docsOpTraitsTags D,
      inComponents D p!"channels" (docsCollection D p!"components channel"),
      docsCompDocs D,
      inComponents D p!"messages" (docsCollection D p!"components message"),
      inComponents D p!"messages" (docsCompField D p!"components message" p!"headers"),
      inComponents D p!"messages" (docsCompField D p!"components message" p!"payload"),
      inComponents D p!"message_traits" (docsCollection D p!"components message trait"),
      inComponents D p!"message_traits" (docsCompField D p!"components message trait" p!"headers"),
      inComponents D p!"operations" (docsCollection D p!"components operation"),
      inComponents D p!"operation_traits" (docsCollection D p!"components operation trait"),
      inComponents D p!"servers" (docsCollection D p!"components server"),
      inComponents D p!"tags" (docsCollection D p!"tag"),
      docsCompSchemas D] docPlaces)
    (show docPlaces.Nodup by decide +kernel)
    (List.forall_mem_cons.2 ⟨v1, List.forall_mem_cons.2 ⟨v2, List.forall_mem_cons.2 ⟨v3,
      List.forall_mem_cons.2 ⟨v4, List.forall_mem_cons.2 ⟨v5, List.forall_mem_cons.2 ⟨v6,
      List.forall_mem_cons.2 ⟨v7, List.forall_mem_cons.2 ⟨v8, List.forall_mem_cons.2 ⟨v9,
      List.forall_mem_cons.2 ⟨v10, List.forall_mem_cons.2 ⟨v11, List.forall_mem_cons.2 ⟨v12,
      List.forall_mem_cons.2 ⟨v13, List.forall_mem_cons.2 ⟨v14, List.forall_mem_cons.2 ⟨v15,
      List.forall_mem_cons.2 ⟨v16, List.forall_mem_cons.2 ⟨v17, List.forall_mem_cons.2 ⟨v18,
      List.forall_mem_cons.2 ⟨v19, List.forall_mem_cons.2 ⟨v20, List.forall_mem_cons.2 ⟨v21,
      List.forall_mem_cons.2 ⟨v22, List.forall_mem_cons.2 ⟨v23, List.forall_mem_cons.2 ⟨v24,
      List.forall_mem_cons.2 ⟨v25, List.forall_mem_cons.2 ⟨v26, List.forall_mem_cons.2 ⟨v27,
      by intro _ h; exact absurd h (List.not_mem_nil)⟩⟩⟩⟩⟩⟩⟩⟩⟩⟩⟩⟩⟩⟩⟩⟩⟩⟩⟩⟩⟩⟩⟩⟩⟩⟩⟩)
  exact key
end docs

end Verif.RefV
