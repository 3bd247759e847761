import Verif.Lemmas.Navigate
import Verif.Lemmas.Keeps
import Verif.Model.Document
import Verif.Props.Expects
import Verif.Spec.TreeRight
import Verif.Props.Slots
import Verif.Props.Refs
import Verif.Props.Factory
/-!
# C47: validating documents with the reference validators

The theorems about the validators are about object graphs; here they are put together with construction: what a
user gets who validates a document with `extra_validators` naming the validators of the package.
-/
namespace Verif.Props
open Verif Verif.Gen Verif.Spec Verif.Pyd

variable {n : Nat} {D : Doc Cls n} {U : Uni} {limit : Option Nat}

/-! ### Graphs of valid documents -/

/-- Every Reference in the document is right: at every location where one stands, following it leads out of the
document, or to an instance of a class expected at that location. -/
def ReferencesRight (U : Uni) (doc : V) : Prop :=
  ∀ steps w s, TAt doc steps w → TRef w s → TRightAt U mappings doc steps s

/-- The expected type as the code computes it. -/
theorem rightAt_iff {U : Uni} {M : List (Str × List Cls)} {doc : V} {steps : List LocStep} {s : Str} :
    TRightAt U M doc steps s ↔ TRefOk doc (Path.expectedType U M (render steps)) s := by
  unfold TRightAt TRefOk
  simp only [C14_exact]

theorem referencesRight_iff {U : Uni} {doc : V} : ReferencesRight U doc ↔
    ∀ steps w s, TAt doc steps w → TRef w s → TRefOk doc (Path.expectedType U mappings (render steps)) s := by
  unfold ReferencesRight
  simp only [rightAt_iff]

/-- **C47.** What `UnifiedReferencesValidator` says of an object graph that holds a valid document. -/
theorem C47_unified {doc : V} (h : Depicts D doc) (hs : Sound U limit doc) :
    Unified.validate table U mappings D = some (.ok ()) ↔ ReferencesRight U doc := by
  rw [C10_accepts_iff (represents_wf h hs) C06_package_unambiguous]
  rw [referencesRight_iff]
  constructor
  · intro H steps w s hat hr
    exact (refOk_iff h hs).1 (H steps s ((occurs_iff h hs).2 ⟨w, hat, hr⟩))
  · intro H steps s ho
    obtain ⟨w, hat, hr⟩ := (occurs_iff h hs).1 ho
    exact (refOk_iff h hs).2 (H steps w s hat hr)

/-- **C47.** The verdict does not depend on which parts of the document share memory. -/
theorem C47_any_layout {m : Nat} {D' : Doc Cls m} {doc : V} (h : Depicts D doc) (h' : Depicts D' doc)
    (hs : Sound U limit doc) : Unified.validate table U mappings D = some (.ok ()) ↔
      Unified.validate table U mappings D' = some (.ok ()) := by
  rw [C47_unified h hs, C47_unified h' hs]

theorem clean_dataExtras {v : V} {t : Ty Cls} (hc : Clean v t) : Sound U limit v → DataExtras v := by
  induction hc with
  | data h => exact fun _ => dataExtras_of_data h
  | list _ ih => intro hs; cases hs with | list hs => exact .list fun v hv => ih v hv (hs v hv)
  | dict _ ih => intro hs; cases hs with | dict _ hs => exact .dict fun e he => ih e he (hs e he)
  | union _ _ ih => exact ih
  | model _ hex ih =>
    intro hs
    cases hs with
    | inst hv hs _ _ =>
      refine .inst (fun e he => ?_) hex
      obtain ⟨f, hf, hn⟩ := name_of_entry hv he
      exact ih f hf e.2 (by rw [← hn]; exact he) (hs e he)

theorem valid_inst {v : V} {c : Cls} (h : Valid U limit v (.model c)) : ∃ fs ex set, v = .inst c fs ex set := by
  cases h; exact ⟨_, _, _, rfl⟩

/-- **C47.** The object graphs of documents as construction leaves them are as the theorems about navigation and
reference checking (C01–C19) assume. -/
theorem C47_assumptions {doc : V} (h : Depicts D doc) (hv : Valid U limit doc (.model .AsyncAPI3))
    (hs : Sound U limit doc) :
    WF table D ∧ Shape D ∧ (∀ a st ss, ¬ Descends table D a (st :: ss) a) ∧ (Clean doc (.model .AsyncAPI3) → Typed D) := by
  obtain ⟨fs, ex, set, rfl⟩ := valid_inst hv
  exact ⟨represents_wf h hs, represents_shape h rfl hs, represents_acyclic h,
    fun hc => represents_typed h rfl hs (clean_dataExtras hc hs)⟩

theorem checked_iff {doc : V} (h : Depicts D doc) (hs : Sound U limit doc) {F pre s : Str} :
    Checked D F pre s ↔ TChecked doc F pre s := by
  unfold Checked TChecked
  simp only [componentKey_iff h hs]

theorem standsAt_iff {doc : V} (h : Depicts D doc) (hs : Sound U limit doc) {places steps s} :
    StandsAt D places steps s ↔ TStandsAt doc places steps s := by
  unfold StandsAt TStandsAt
  rw [descends_iff h hs]

/-- **C47.** The same for `TagsRefValidator`. -/
theorem C47_tags {doc : V} (h : Depicts D doc) (hv : Valid U limit doc (.model .AsyncAPI3)) (hs : Sound U limit doc)
    (hc : Clean doc (.model .AsyncAPI3)) : (RefV.validateTags D).res = .ok () ↔
      ∀ steps s, TStandsAt doc tagPlaces steps s → TChecked doc p!"tags" tagPrefix s := by
  rw [C17_accepts_iff ((C47_assumptions h hv hs).2.2.2 hc)]
  simp only [checked_iff h hs, standsAt_iff h hs]

/-- **C47.** The same for `ExternalDocsRefValidator`. -/
theorem C47_externalDocs {doc : V} (h : Depicts D doc) (hv : Valid U limit doc (.model .AsyncAPI3)) (hs : Sound U limit doc)
    (hc : Clean doc (.model .AsyncAPI3)) : (RefV.validateDocs D).res = .ok () ↔
      ∀ steps s, TStandsAt doc docPlaces steps s → TChecked doc p!"external_docs" docPrefix s := by
  rw [C18_accepts_iff ((C47_assumptions h hv hs).2.2.2 hc)]
  simp only [checked_iff h hs, standsAt_iff h hs]

/-! ### Construction -/

/-- The processors given with the input are just processor `p`, as a validator. -/
def OnlyValidator (d : List (Str × V)) (p : Nat) : Prop :=
  lookup p!"extra_validators" d = some (.list [.proc p]) ∧
  (lookup p!"extra_converters" d = none ∨ lookup p!"extra_converters" d = some .none ∨ lookup p!"extra_converters" d = some (.list []))

theorem runProcessors_one {E : Env} {d : List (Str × V)} {p : Nat} (hd : OnlyValidator d p) {i : V}
    (h : Fieldwise (Accepts E) .AsyncAPI3 d i) : (runProcessors E i).2 = E.call p i := by
  have h1 : processorsOf (i.attr p!"extra_converters") = [] := by
    have hf := fieldwise_field h (f := defAsyncAPI3.fields[8]) (by exact List.mem_of_getElem (i := 8) rfl)
    rcases hf.1 with ⟨k, x, ⟨hk, hk'⟩, sc, ha⟩ | ⟨_, hv⟩
    · rcases hk' with hk' | ⟨rfl, _⟩
      · cases hk'
      · have hk : lookup p!"extra_converters" d = some x := hk
        rcases hd.2 with e | e | e <;> rw [hk] at e <;> cases e
        · change some (V.none, _) = _ at ha
          simp only [Option.some.injEq, Prod.mk.injEq] at ha
          have : i.attr p!"extra_converters" = .none := ha.1.symm
          rw [this]; rfl
        · change (pick E none [some (V.list [], _), none]) = _ at ha
          simp only [pick, Option.some.injEq, Prod.mk.injEq] at ha
          have : i.attr p!"extra_converters" = .list [] := ha.1.symm
          rw [this]; rfl
    · have : i.attr p!"extra_converters" = .none := hv
      rw [this]; rfl
  have h2 : i.attr p!"extra_validators" = .list [.proc p] := by
    have hf := fieldwise_field h (f := defAsyncAPI3.fields[9]) (by exact List.mem_of_getElem (i := 9) rfl)
    rcases hf.1 with ⟨k, x, ⟨hk, hk'⟩, sc, ha⟩ | ⟨hn, _⟩
    · rcases hk' with hk' | ⟨rfl, _⟩
      · cases hk'
      · have : lookup p!"extra_validators" d = some x := hk
        rw [hd.1] at this
        cases this
        change (pick E none [some (V.list [.proc p], _), none]) = _ at ha
        simp only [pick, Option.some.injEq, Prod.mk.injEq] at ha
        exact ha.1.symm
    · exact absurd ⟨hd.1, .inr ⟨rfl, by rintro a ⟨⟩⟩⟩ (hn p!"extra_validators" _)
  unfold runProcessors
  rw [h1]
  simp only [callAll]
  rw [h2]
  simp only [processorsOf, callAll]
  cases E.call p i <;> rfl

/-- Construction with one validator that accepts just the good documents. -/
theorem construct_check {E : Env} {p : Nat} (good : V → Prop) {d : List (Str × V)} (hp : OnlyValidator d p)
    (hs : Sound E.U E.digits (.dict d))
    (hcall : ∀ i, Valid E.U E.digits i (.model .AsyncAPI3) → Sound E.U E.digits i →
      (Data (.dict d) → Clean i (.model .AsyncAPI3)) → ∀ j, E.call p i = some j ↔ j = i ∧ good i) (j : V) :
    validate E .AsyncAPI3 (.dict d) = some j ↔ Fieldwise (Accepts E) .AsyncAPI3 d j ∧
      ExtensionRule E.U .AsyncAPI3 j ∧ VersionRule E d j ∧ good j := by
  have hk : (classDef Cls.AsyncAPI3).kind ≠ .patterned := by decide
  have facts : ∀ set, allOk E .AsyncAPI3 d = true →
      baseCheck E .AsyncAPI3 (.inst .AsyncAPI3 (fieldsOf E .AsyncAPI3 d) (extrasOf .AsyncAPI3 d) set) = true →
      ∀ j, E.call p (.inst .AsyncAPI3 (fieldsOf E .AsyncAPI3 d) (extrasOf .AsyncAPI3 d) set) = some j ↔
        j = (.inst .AsyncAPI3 (fieldsOf E .AsyncAPI3 d) (extrasOf .AsyncAPI3 d) set) ∧
          good (.inst .AsyncAPI3 (fieldsOf E .AsyncAPI3 d) (extrasOf .AsyncAPI3 d) set) := by
    intro set hok hb
    have hb' : (baseCheck E .AsyncAPI3 (.inst .AsyncAPI3 (fieldsOf E .AsyncAPI3 d) (extrasOf .AsyncAPI3 d) set) &&
        modelCheck .AsyncAPI3 (.inst .AsyncAPI3 (fieldsOf E .AsyncAPI3 d) (extrasOf .AsyncAPI3 d) set)) = true := by
      rw [hb]; rfl
    obtain ⟨hv, hso⟩ := instance_kept (sound_keeps E) hk hs (parts_kept (sound_keeps E) sound_extras hs) hok hb'
    refine hcall _ hv hso fun hda => ?_
    exact (instance_kept (data_keeps E) hk hda (parts_kept (data_keeps E) data_extras hda) hok hb').2
  unfold validate
  rw [parse_model_dict E hk, construct_eq]
  have hafter : ∀ i, after E .AsyncAPI3 i = if baseCheck E .AsyncAPI3 i then (runProcessors E i).2 else none := by
    intro i; unfold after; simp [modelCheck]
  simp only [Option.getD_none, hafter]
  constructor
  · intro h
    split at h
    · rename_i hok
      split at h
      · rename_i hb
        obtain ⟨h1, h2⟩ := (allOk_given _).1 ⟨hok, rfl⟩
        rw [runProcessors_one hp h1] at h
        simp only [Option.map_map, Option.map_eq_some_iff, Function.comp] at h
        obtain ⟨j', hj, rfl⟩ := h
        obtain ⟨rfl, hg⟩ := (facts _ hok hb j').1 hj
        exact ⟨h1, (baseCheck_iff E _ hk _).1 hb, (versionRule_iff h1).1 h2, hg⟩
      · cases h
    · cases h
  · rintro ⟨h1, h2, h3, h4⟩
    have hrun := runProcessors_one hp h1
    obtain ⟨hok, rfl⟩ := (allOk_given j).2 ⟨h1, (versionRule_iff h1).2 h3⟩
    have hb := (baseCheck_iff E _ hk _).2 h2
    rw [if_pos hok, if_pos hb, hrun, (facts _ hok hb _).2 ⟨rfl, h4⟩]
    rfl

/-- The graph of a valid document holds it. -/
theorem graphOf_valid {doc : V} (h : Valid U limit doc (.model .AsyncAPI3)) : Depicts (graphOf doc) doc := by
  obtain ⟨fs, ex, set, rfl⟩ := valid_inst h
  exact graphOf_represents _ fs ex set

/-- **C47.** A document validated with `extra_validators=[UnifiedReferencesValidator]` is accepted exactly when its
fields, extra fields and version are right and every Reference in it is; what is returned is that document. The input may
contain instances, if they are valid. -/
theorem C47_validate_unified (E : Env) (p : Nat) (hp : E.call p = Document.unified E.U) (d : List (Str × V))
    (hd : OnlyValidator d p) (hs : Sound E.U E.digits (.dict d)) (j : V) :
    validate E .AsyncAPI3 (.dict d) = some j ↔ Fieldwise (Accepts E) .AsyncAPI3 d j ∧
      ExtensionRule E.U .AsyncAPI3 j ∧ VersionRule E d j ∧ ReferencesRight E.U j := by
  refine construct_check (ReferencesRight E.U) hd hs (fun i hv hs _ j => ?_) j
  have key := C47_unified (D := graphOf i) (graphOf_valid hv) hs
  rw [hp, ← key]
  unfold Document.unified
  split
  · rename_i h; simp [h, eq_comm]
  · rename_i h; exact ⟨fun e => by simp at e, fun h' => absurd h'.2 h⟩

/-- **C47.** The same with `extra_validators=[TagsRefValidator]`, for input that contains no instances. -/
theorem C47_validate_tags (E : Env) (p : Nat) (hp : E.call p = Document.tags) (d : List (Str × V))
    (hd : OnlyValidator d p) (hs : Sound E.U E.digits (.dict d)) (hda : Data (.dict d)) (j : V) :
    validate E .AsyncAPI3 (.dict d) = some j ↔ Fieldwise (Accepts E) .AsyncAPI3 d j ∧
      ExtensionRule E.U .AsyncAPI3 j ∧ VersionRule E d j ∧
      ∀ steps s, TStandsAt j tagPlaces steps s → TChecked j p!"tags" tagPrefix s := by
  refine construct_check (fun i => ∀ steps s, TStandsAt i tagPlaces steps s → TChecked i p!"tags" tagPrefix s) hd hs
    (fun i hv hs hc j => ?_) j
  have key := C47_tags (D := graphOf i) (graphOf_valid hv) hv hs (hc hda)
  rw [hp, ← key]
  unfold Document.tags
  split
  · rename_i h; simp [h, eq_comm]
  · rename_i h; simp [h]

/-- **C47.** The same with `extra_validators=[ExternalDocsRefValidator]`. -/
theorem C47_validate_externalDocs (E : Env) (p : Nat) (hp : E.call p = Document.externalDocs) (d : List (Str × V))
    (hd : OnlyValidator d p) (hs : Sound E.U E.digits (.dict d)) (hda : Data (.dict d)) (j : V) :
    validate E .AsyncAPI3 (.dict d) = some j ↔ Fieldwise (Accepts E) .AsyncAPI3 d j ∧
      ExtensionRule E.U .AsyncAPI3 j ∧ VersionRule E d j ∧
      ∀ steps s, TStandsAt j docPlaces steps s → TChecked j p!"external_docs" docPrefix s := by
  refine construct_check (fun i => ∀ steps s, TStandsAt i docPlaces steps s → TChecked i p!"external_docs" docPrefix s) hd hs
    (fun i hv hs hc j => ?_) j
  have key := C47_externalDocs (D := graphOf i) (graphOf_valid hv) hv hs (hc hda)
  rw [hp, ← key]
  unfold Document.externalDocs
  split
  · rename_i h; simp [h, eq_comm]
  · rename_i h; simp [h]

/-! ### Documents validated with any checks -/

/-- Processors that raise or leave the document as it is. -/
def OnlyChecks (call : Nat → V → Option V) : Prop := ∀ n doc doc', call n doc = some doc' → doc' = doc

theorem callAll_checks {E : Env} (hc : OnlyChecks E.call) {ps : List V} {doc doc' : V} (h : (callAll E ps doc).2 = some doc') :
    doc' = doc ∧ ∀ n, .proc n ∈ ps → E.call n doc = some doc := by
  induction ps generalizing doc with
  | nil => cases h; exact ⟨rfl, by simp⟩
  | cons p ps ih =>
    cases p <;> first | (cases h) | skip
    rename_i n
    simp only [callAll] at h
    cases hn : E.call n doc with
    | none => rw [hn] at h; cases h
    | some d =>
      rw [hn] at h
      have := hc _ _ _ hn
      subst this
      obtain ⟨h1, h2⟩ := ih h
      refine ⟨h1, fun m hm => ?_⟩
      rcases List.mem_cons.1 hm with e | hm
      · cases e; exact hn
      · exact h2 m hm

/-- **C47.** Whatever processors a document is validated with, if they only check, it is valid; and every validator
in its `extra_validators` has accepted it as it is now. The input may be anything in which instances are valid. -/
theorem C47_accepted (E : Env) (hc : OnlyChecks E.call) (x : V) (hs : Sound E.U E.digits x) (v : V)
    (h : validate E .AsyncAPI3 x = some v) :
    Valid E.U E.digits v (.model .AsyncAPI3) ∧ Sound E.U E.digits v ∧ (Data x → Clean v (.model .AsyncAPI3)) ∧
    ∀ l, v.attr p!"extra_validators" = .list l → ∀ n, .proc n ∈ l → E.call n v = some v := by
  unfold validate at h
  rw [Option.map_eq_some_iff] at h
  obtain ⟨⟨v', sc⟩, hp, rfl⟩ := h
  have key : ∀ j, (runProcessors E j).2 = some v' → v' = j ∧
      ∀ l, v'.attr p!"extra_validators" = .list l → ∀ n, .proc n ∈ l → E.call n v' = some v' := by
    intro j hr
    unfold runProcessors at hr
    cases hr1 : callAll E (processorsOf (j.attr p!"extra_converters")) j with
    | mk l o =>
      rw [hr1] at hr
      cases o with
      | none => cases hr
      | some mid =>
        obtain ⟨e1, -⟩ := callAll_checks hc (doc' := mid) (show (callAll E _ j).2 = some mid by rw [hr1])
        subst e1
        obtain ⟨e2, h2⟩ := callAll_checks hc (doc' := v') hr
        subst e2
        refine ⟨rfl, fun l hl n hn => h2 n ?_⟩
        rw [hl]; exact hn
  obtain ⟨j, hv, hq, hr⟩ := document_kept (sound_keeps E) sound_extras hs hp
  obtain ⟨rfl, h2⟩ := key j hr
  refine ⟨hv, hq, fun hd => ?_, h2⟩
  obtain ⟨j', _, hq', hr'⟩ := document_kept (data_keeps E) data_extras hd hp
  obtain ⟨rfl, _⟩ := key j' hr'
  exact hq'

/-- **C47.** In particular, with `UnifiedReferencesValidator` among the validators, every Reference is right. -/
theorem C47_accepted_unified (E : Env) (hc : OnlyChecks E.call) (p : Nat) (hp : E.call p = Document.unified E.U) (x : V)
    (hs : Sound E.U E.digits x) (v : V) (h : validate E .AsyncAPI3 x = some v) (l : List V)
    (hl : v.attr p!"extra_validators" = .list l) (hm : .proc p ∈ l) : ReferencesRight E.U v := by
  obtain ⟨h1, h2, -, h4⟩ := C47_accepted E hc x hs v h
  have := h4 l hl p hm
  rw [hp] at this
  unfold Document.unified at this
  split at this
  · rename_i hok
    exact (C47_unified (graphOf_valid h1) h2).1 hok
  · cases this

/-! ### References stand at declared places -/

/-- A union type. -/
def isUnion : Ty Cls → Bool
  | .union _ => true
  | _ => false

mutual
/-- No union directly in a union. -/
def flatTy : Ty Cls → Bool
  | .union ts => flatAll ts
  | .list t => flatTy t
  | .dict t => flatTy t
  | _ => true
def flatAll : List (Ty Cls) → Bool
  | [] => true
  | t :: ts => !isUnion t && flatTy t && flatAll ts
end

theorem fields_flat : Cls.all.all (fun c => (classDef c).fields.all fun f => flatTy f.ty) = true := by decide +kernel

theorem field_flat {c : Cls} {f : FieldDef Cls} (hf : f ∈ (classDef c).fields) : flatTy f.ty = true :=
  List.all_eq_true.1 (List.all_eq_true.1 fields_flat c (Cls.mem_all c)) f hf

theorem flatAll_mem {ts : List (Ty Cls)} (h : flatAll ts = true) {t : Ty Cls} (ht : t ∈ ts) :
    flatTy t = true ∧ ∀ us, t ≠ .union us := by
  induction ts with
  | nil => cases ht
  | cons a ts ih =>
    rw [flatAll, Bool.and_eq_true, Bool.and_eq_true] at h
    rcases List.mem_cons.1 ht with rfl | ht
    · exact ⟨h.1.2, by rintro us rfl; exact absurd h.1.1 (by simp [isUnion])⟩
    · exact ih h.2 ht

theorem members_flat {t m : Ty Cls} (h : flatTy t = true) (hm : m ∈ members t) : flatTy m = true ∧ ∀ us, m ≠ .union us := by
  cases t with
  | union ts => exact flatAll_mem h hm
  | _ => simp only [members, List.mem_singleton] at hm; subst hm; exact ⟨h, by simp⟩

theorem declared_flat {l o t} (h : Declared l o t) : flatTy t = true := by
  induction h with
  | spec => rfl
  | item _ hm ih => exact (members_flat ih hm).1
  | entry _ hm ih => exact (members_flat ih hm).1
  | field _ _ hf _ _ => exact field_flat hf

/-- The alternative of the type that the value has. -/
theorem clean_member {v : V} {t : Ty Cls} (h : Clean v t) (hf : flatTy t = true) : Data v ∨ ∃ m ∈ members t, Clean v m ∧ ∀ us, m ≠ .union us := by
  cases h with
  | data h => exact .inl h
  | union ht h => exact .inr ⟨_, ht, h, (flatAll_mem hf ht).2⟩
  | list h => exact .inr ⟨_, List.mem_singleton_self _, .list h, by simp⟩
  | dict h => exact .inr ⟨_, List.mem_singleton_self _, .dict h, by simp⟩
  | model h h' => exact .inr ⟨_, List.mem_singleton_self _, .model h h', by simp⟩

theorem data_at {v w : V} {steps} (h : TAt v steps w) : Data v → Data w := by
  induction h with
  | nil => exact id
  | cons hc _ ih =>
    intro hd
    apply ih
    cases hc with
    | item hi => cases hd with | list hd => exact hd _ (List.mem_of_getElem? hi)
    | entry hk => cases hd with | dict hd => exact hd _ hk
    | field => cases hd

theorem clean_at {v w : V} {steps} (h : TAt v steps w) : ∀ {l o t}, Declared l o t → Clean v t → ¬ Data w →
    ∃ o' t', Declared (l ++ steps) o' t' ∧ Clean w t' := by
  induction h with
  | nil => intro l o t hd hc _; exact ⟨o, t, by rwa [List.append_nil], hc⟩
  | @cons v s u ss w hch hat ih =>
    intro l o t hd hc hw
    rcases clean_member hc (declared_flat hd) with hda | ⟨m, hm, hcm, hnu⟩
    · exact absurd (data_at (.cons hch hat) hda) hw
    · have step : ∀ {o' u'}, Declared (l ++ [s]) o' u' → Clean u u' → ∃ o'' t'', Declared (l ++ s :: ss) o'' t'' ∧ Clean w t'' := by
        intro o' u' hd' hc'
        have := ih hd' hc' hw
        rwa [List.append_assoc, List.singleton_append] at this
      cases hcm with
      | data h => exact absurd (data_at (.cons hch hat) h) hw
      | list h => cases hch with | item hi => exact step (.item hd hm) (h _ (List.mem_of_getElem? hi))
      | dict h => cases hch with | entry hk => exact step (.entry hd hm) (h _ hk)
      | union => exact absurd rfl (hnu _)
      | model h _ => cases hch with | field hf he hk _ => exact step (.field hd hm hf he) (h _ hf _ hk)

/-- **C47.** In a document made from JSON (or other data without instances), References stand only where the class
declarations allow one. -/
theorem C47_slots {doc : V} (hc : Clean doc (.model .AsyncAPI3)) {steps w s} (hat : TAt doc steps w) (hr : TRef w s) :
    ∃ owner cs, Slot steps owner cs := by
  obtain ⟨fs, ex, set, rfl, -⟩ := hr
  have hnd : ¬ Data (.inst .Reference fs ex set) := by intro h; cases h
  obtain ⟨o, t, hd, hcl⟩ := clean_at hat .spec hc hnd
  rw [List.nil_append] at hd
  rcases clean_member hcl (declared_flat hd) with h | ⟨m, hm, hcm, hnu⟩
  · exact absurd h hnd
  · refine ⟨o, _, t, hd, ?_, rfl⟩
    cases hcm with
    | data h => exact absurd h hnd
    | union => exact absurd rfl (hnu _)
    | model => exact hm

/-- **C47.** A document made from data and accepted with `UnifiedReferencesValidator` among its validators: every
Reference leads out of the document or to an instance of a class that the declaration of its place names, unless it
stands below an entry with a reserved name or in one of the listed fields of an inline trait (C15, C16). -/
theorem C47_targets (E : Env) (hc : OnlyChecks E.call) (p : Nat) (hp : E.call p = Document.unified E.U) (x : V)
    (hs : Sound E.U E.digits x) (hd : Data x) (v : V) (h : validate E .AsyncAPI3 x = some v) (l : List V)
    (hl : v.attr p!"extra_validators" = .list l) (hm : .proc p ∈ l) {steps w s} (hat : TAt v steps w) (hr : TRef w s) :
    ∃ owner cs, Slot steps owner cs ∧
      (OrdinaryKeys steps → ¬ InlineTraitField steps owner → TRefOk v (some cs) s) := by
  obtain ⟨owner, cs, hslot⟩ := C47_slots ((C47_accepted E hc x hs v h).2.2.1 hd) hat hr
  refine ⟨owner, cs, hslot, fun hk hi => ?_⟩
  have := C47_accepted_unified E hc p hp x hs v h l hl hm steps w s hat hr
  rwa [rightAt_iff, C15_expected_is_declared_partial E.U hslot hk hi] at this

/-! ### Concrete cases -/

mutual
/-- Data with distinct keys, decided. -/
def plain : V → Bool
  | .list l => plainL l
  | .dict d => decide ((d.map (·.1)).Nodup) && plainD d
  | .inst .. => false
  | _ => true
def plainL : List V → Bool
  | [] => true
  | v :: l => plain v && plainL l
def plainD : List (Str × V) → Bool
  | [] => true
  | (_, v) :: d => plain v && plainD d
end

theorem plainL_mem {l : List V} (h : plainL l = true) : ∀ v ∈ l, plain v = true := by
  induction l with
  | nil => simp
  | cons a l ih => rw [plainL, Bool.and_eq_true] at h; simpa using ⟨h.1, ih h.2⟩

theorem plainD_mem {d : List (Str × V)} (h : plainD d = true) : ∀ e ∈ d, plain e.2 = true := by
  induction d with
  | nil => simp
  | cons a l ih => obtain ⟨k, a⟩ := a; rw [plainD, Bool.and_eq_true] at h; simpa using ⟨h.1, fun a b => ih h.2 (a, b)⟩

/-- Input without instances is as the theorems of this file assume it, whatever it says. -/
theorem plain_input {v : V} (h : plain v = true) : Data v ∧ Sound U limit v := by
  induction v using V.ind with
  | none => exact ⟨.none, .none⟩
  | bool => exact ⟨.bool, .bool⟩
  | int => exact ⟨.int, .int⟩
  | float => exact ⟨.float, .float⟩
  | str => exact ⟨.str, .str⟩
  | url => exact ⟨.url, .url⟩
  | proc => exact ⟨.proc, .proc⟩
  | list l ih => exact ⟨.list fun v hv => (ih v hv (plainL_mem h v hv)).1, .list fun v hv => (ih v hv (plainL_mem h v hv)).2⟩
  | dict d ih =>
    rw [plain, Bool.and_eq_true, decide_eq_true_eq] at h
    exact ⟨.dict fun v hv => (ih v hv (plainD_mem h.2 v hv)).1, .dict h.1 fun v hv => (ih v hv (plainD_mem h.2 v hv)).2⟩
  | inst => cases h

/-- Processors 0, 1 and 2 are the validators of the package. -/
def packageEnv : Env := { plainEnv with call := fun n doc => match n with
  | 0 => Document.unified .ascii doc
  | 1 => Document.tags doc
  | 2 => Document.externalDocs doc
  | _ => some doc }

/-- A document with a chain of references, checked by processor `p`. -/
def sampleInput (ref : Str) (p : Nat) : List (Str × V) := [
  (p!"asyncapi", .str p!"3.0.0"),
  (p!"info", .dict [(p!"title", .str p!"t"), (p!"version", .str p!"1"),
    (p!"tags", .list [.dict [(p!"$ref", .str p!"#/components/tags/a")]])]),
  (p!"channels", .dict [(p!"c", .dict [(p!"address", .str p!"x"),
    (p!"messages", .dict [(p!"m", .dict [(p!"$ref", .str ref)])])])]),
  (p!"components", .dict [(p!"messages", .dict [(p!"n", .dict [(p!"$ref", .str p!"#/components/messages/o")]),
    (p!"o", .dict [(p!"name", .str p!"hi")])]), (p!"tags", .dict [(p!"a", .dict [(p!"name", .str p!"a")])])]),
  (p!"extra_validators", .list [.proc p])]

theorem packageEnv_checks : OnlyChecks packageEnv.call := by
  have hu : ∀ (U : Uni) (doc doc' : V), Document.unified U doc = some doc' → doc' = doc := by
    intro U doc doc' h; unfold Document.unified at h; split at h <;> simp_all
  have ht : ∀ doc doc' : V, Document.tags doc = some doc' → doc' = doc := by
    intro doc doc' h; unfold Document.tags at h; split at h <;> simp_all
  have he : ∀ doc doc' : V, Document.externalDocs doc = some doc' → doc' = doc := by
    intro doc doc' h; unfold Document.externalDocs at h; split at h <;> simp_all
  intro n doc doc' h
  match n with
  | 0 => exact hu _ _ _ h
  | 1 => exact ht _ _ h
  | 2 => exact he _ _ h
  | n + 3 => exact (Option.some.inj h).symm

example (ref : Str) (p : Nat) : OnlyValidator (sampleInput ref p) p := ⟨rfl, .inl rfl⟩
example (ref : Str) (p : Nat) : Data (.dict (sampleInput ref p)) ∧ Sound packageEnv.U packageEnv.digits (.dict (sampleInput ref p)) :=
  plain_input rfl
example : packageEnv.call 0 = Document.unified packageEnv.U ∧ packageEnv.call 1 = Document.tags ∧
    packageEnv.call 2 = Document.externalDocs := ⟨rfl, rfl, rfl⟩

set_option maxRecDepth 20000

/-- A chain of two References to a message, where a message is expected. -/
theorem sample_accepted : (validate packageEnv .AsyncAPI3 (.dict (sampleInput p!"#/components/messages/n" 0))).isSome = true := by
  decide +kernel
/-- The same as the theorems describe it: the References of the returned document are right. -/
example : ∃ v, validate packageEnv .AsyncAPI3 (.dict (sampleInput p!"#/components/messages/n" 0)) = some v ∧
    ReferencesRight .ascii v := by
  obtain ⟨v, hv⟩ := Option.isSome_iff_exists.1 sample_accepted
  exact ⟨v, hv, ((C47_validate_unified packageEnv 0 rfl _ ⟨rfl, .inl rfl⟩ (plain_input rfl).2 v).1 hv).2.2.2⟩
/-- A reference to nothing. -/
example : (validate packageEnv .AsyncAPI3 (.dict (sampleInput p!"#/components/messages/x" 0))).isSome = false := by
  decide +kernel
/-- A reference to a tag where a message is expected. -/
example : (validate packageEnv .AsyncAPI3 (.dict (sampleInput p!"#/components/tags/a" 0))).isSome = false := by
  decide +kernel
/-- The other validators do not look at it. -/
example : (validate packageEnv .AsyncAPI3 (.dict (sampleInput p!"#/components/tags/a" 1))).isSome = true ∧
    (validate packageEnv .AsyncAPI3 (.dict (sampleInput p!"#/components/tags/a" 2))).isSome = true := by
  decide +kernel

end Verif.Props
