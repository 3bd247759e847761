import Verif.Model.Validators
import Verif.Props.Document
import Verif.Props.Dump
import Verif.Lemmas.Rewrite
/-!
# C51: the validators of the package, in any combination

What validation with any lists of package validators accepts: only `UnifiedReferencesValidator`, `TagsRefValidator` and
`ExternalDocsRefValidator` ever refuse a document; neither the order of the validators, nor repetitions, nor the list
they stand in make a difference.
-/
namespace Verif.Props
open Verif Verif.Gen Verif.Spec Verif.Pyd Verif.Document

/-! ### Statement -/

/-- The classes of the package have processor numbers, and calling them does what the package does. -/
def Numbered (E : Env) (number : Validator → Nat) : Prop := ∀ p, E.call (number p) = p.run E.U

/-- The input holds this list of validators under the key; for the empty list, the key may be missing or null. -/
def Holds (number : Validator → Nat) (d : List (Str × V)) (key : Str) (ps : List Validator) : Prop :=
  lookup key d = some (.list (ps.map fun p => .proc (number p))) ∨
    (ps = [] ∧ (lookup key d = none ∨ lookup key d = some .none))

/-- `cs` are the converters and `ps` the validators the input asks for. -/
def Asked (number : Validator → Nat) (d : List (Str × V)) (cs ps : List Validator) : Prop :=
  Holds number d p!"extra_converters" cs ∧ Holds number d p!"extra_validators" ps

/-- What a validator demands of a document. -/
def Demands (U : Uni) (doc : V) : Validator → Prop
  | .unified => ReferencesRight U doc
  | .tags => ∀ steps s, TStandsAt doc tagPlaces steps s → TChecked doc p!"tags" tagPrefix s
  | .externalDocs => ∀ steps s, TStandsAt doc docPlaces steps s → TChecked doc p!"external_docs" docPrefix s
  | _ => True

/-- The inputs are the same but for the lists of processors. -/
def SameApartFromProcessors (d d' : List (Str × V)) : Prop :=
  (d.filter fun e => decide (e.1 ≠ p!"extra_converters" ∧ e.1 ≠ p!"extra_validators")) =
    d'.filter fun e => decide (e.1 ≠ p!"extra_converters" ∧ e.1 ≠ p!"extra_validators")

/-! ### The lists -/

variable {E : Env} {number : Validator → Nat}

theorem procs_items (ns : List Nat) :
    ∃ sc, parseItems .processors (parsers E (ns.map .proc)) = some (ns.map .proc, sc) := by
  induction ns with
  | nil => exact ⟨_, rfl⟩
  | cons n ns ih =>
    obtain ⟨sc, h⟩ := ih
    refine ⟨Score.exactly.and sc, ?_⟩
    simp only [List.map_cons, parsers, parseItems]
    have hx : parse E (.proc n) .processors = some (.proc n, .exactly) := rfl
    rw [hx, h]

theorem procs_parse (ns : List Nat) :
    ∃ sc, parse E (.list (ns.map .proc)) (.union [.list .processors, .none]) = some (.list (ns.map .proc), sc) := by
  obtain ⟨sc, h⟩ := procs_items (E := E) ns
  refine ⟨sc, ?_⟩
  change (pick E none [(parseItems .processors (parsers E (ns.map .proc))).map _, none]) = _
  rw [h]; rfl

theorem proc_map (ps : List Validator) : (ps.map fun p => V.proc (number p)) = (ps.map number).map .proc := by
  rw [List.map_map]; rfl

/-- The value of a field that holds processors. -/
theorem one_procs {d : List (Str × V)} {ps : List Validator} {f : FieldDef Cls} (ha : f.alias = none)
    (ht : f.ty = .union [.list .processors, .none]) (hm : f.maxLen = none) (hd : f.dflt = .null)
    (hc : ∀ v, fieldCheck E .AsyncAPI3 f.name v = true) (h : Holds number d f.name ps) :
    ∃ v sc, one E .AsyncAPI3 d f = some (v, sc) ∧ processorsOf v = ps.map (fun p => .proc (number p)) ∧
      (v = .none ∨ ∃ l, v = .list l) := by
  unfold one findKey
  rw [ha]
  rcases h with h | ⟨rfl, h | h⟩
  · rw [proc_map] at h ⊢
    obtain ⟨sc, hp⟩ := procs_parse (E := E) (ps.map number)
    simp only [h, Option.map_some, ht, hp, hm, lengthOk, hc, Bool.and_true, if_true]
    exact ⟨_, _, rfl, rfl, .inr ⟨_, rfl⟩⟩
  · simp only [h, Option.map_none, hd]
    exact ⟨.none, _, rfl, rfl, .inl rfl⟩
  · have hp : parse E .none (.union [.list .processors, .none]) = some (.none, .exactly) := rfl
    simp only [h, Option.map_some, ht, hp, hm, lengthOk, hc, Bool.and_true, if_true]
    exact ⟨_, _, rfl, rfl, .inl rfl⟩

theorem converters_field {d : List (Str × V)} {ps : List Validator} (h : Holds number d p!"extra_converters" ps) :
    ∃ v sc, one E .AsyncAPI3 d (defAsyncAPI3.fields[8]) = some (v, sc) ∧
      processorsOf v = ps.map (fun p => .proc (number p)) ∧ (v = .none ∨ ∃ l, v = .list l) :=
  one_procs rfl rfl rfl rfl (fun _ => rfl) h

theorem validators_field {d : List (Str × V)} {ps : List Validator} (h : Holds number d p!"extra_validators" ps) :
    ∃ v sc, one E .AsyncAPI3 d (defAsyncAPI3.fields[9]) = some (v, sc) ∧
      processorsOf v = ps.map (fun p => .proc (number p)) ∧ (v = .none ∨ ∃ l, v = .list l) :=
  one_procs rfl rfl rfl rfl (fun _ => rfl) h

/-! ### Running them -/

theorem run_only_checks {U : Uni} {p : Validator} {doc doc' : V} (h : p.run U doc = some doc') : doc' = doc := by
  cases p
  case unified => simp only [Validator.run] at h; unfold Document.unified at h; split at h <;> simp_all
  case tags => simp only [Validator.run] at h; unfold Document.tags at h; split at h <;> simp_all
  case externalDocs => simp only [Validator.run] at h; unfold Document.externalDocs at h; split at h <;> simp_all
  all_goals exact (Option.some.inj h).symm

/-- What running one validator says. -/
theorem run_iff {U : Uni} {limit : Option Nat} {doc : V} (hv : Valid U limit doc (.model .AsyncAPI3))
    (hs : Sound U limit doc) (hc : Clean doc (.model .AsyncAPI3)) (p : Validator) (doc' : V) :
    p.run U doc = some doc' ↔ doc' = doc ∧ Demands U doc p := by
  cases p
  case unified =>
    have key := C47_unified (D := graphOf doc) (graphOf_valid hv) hs
    simp only [Validator.run, Demands]
    rw [← key]
    unfold Document.unified
    split
    · rename_i h; simp [h, eq_comm]
    · rename_i h; exact ⟨fun e => by simp at e, fun h' => absurd h'.2 h⟩
  case tags =>
    have key := C47_tags (D := graphOf doc) (graphOf_valid hv) hv hs hc
    simp only [Validator.run, Demands]
    rw [← key]
    unfold Document.tags
    split
    · rename_i h; simp [h, eq_comm]
    · rename_i h; simp [h]
  case externalDocs =>
    have key := C47_externalDocs (D := graphOf doc) (graphOf_valid hv) hv hs hc
    simp only [Validator.run, Demands]
    rw [← key]
    unfold Document.externalDocs
    split
    · rename_i h; simp [h, eq_comm]
    · rename_i h; simp [h]
  all_goals
    simp only [Validator.run, Demands, and_true]
    exact ⟨fun h => (Option.some.inj h).symm, fun h => h ▸ rfl⟩

theorem callAll_validators (hn : Numbered E number) {limit : Option Nat} {doc : V}
    (hv : Valid E.U limit doc (.model .AsyncAPI3)) (hs : Sound E.U limit doc) (hc : Clean doc (.model .AsyncAPI3))
    (ps : List Validator) (doc' : V) : (callAll E (ps.map fun p => .proc (number p)) doc).2 = some doc' ↔
      doc' = doc ∧ ∀ p ∈ ps, Demands E.U doc p := by
  induction ps with
  | nil => simp [callAll, eq_comm]
  | cons p ps ih =>
    simp only [List.map_cons, callAll, hn p, List.mem_cons, forall_eq_or_imp]
    cases h : p.run E.U doc with
    | none =>
      have := run_iff hv hs hc p doc
      rw [h] at this
      constructor
      · intro h'; cases h'
      · rintro ⟨rfl, h1, h2⟩
        exact absurd (this.2 ⟨rfl, h1⟩) (by simp)
    | some d =>
      obtain ⟨rfl, hd⟩ := (run_iff hv hs hc p d).1 h
      simp only [ih, hd, true_and]

theorem runProcessors_validators (hn : Numbered E number) {limit : Option Nat} {doc : V}
    (hv : Valid E.U limit doc (.model .AsyncAPI3)) (hs : Sound E.U limit doc) (hc : Clean doc (.model .AsyncAPI3))
    {cs ps : List Validator} (h1 : processorsOf (doc.attr p!"extra_converters") = cs.map fun p => .proc (number p))
    (h2 : processorsOf (doc.attr p!"extra_validators") = ps.map fun p => .proc (number p)) (doc' : V) :
    (runProcessors E doc).2 = some doc' ↔ doc' = doc ∧ ∀ p ∈ cs ++ ps, Demands E.U doc p := by
  unfold runProcessors
  have key := callAll_validators hn hv hs hc cs
  rw [← h1] at key
  cases hr : callAll E (processorsOf (doc.attr p!"extra_converters")) doc with
  | mk l o =>
    rw [hr] at key
    simp only at key
    cases o with
    | none =>
      constructor
      · intro h; cases h
      · rintro ⟨rfl, h⟩
        exact absurd ((key doc').2 ⟨rfl, fun p hp => h p (List.mem_append_left _ hp)⟩) (by simp)
    | some mid =>
      obtain ⟨rfl, hm⟩ := (key mid).1 rfl
      simp only
      rw [h2, callAll_validators hn hv hs hc ps doc']
      simp only [List.mem_append]
      constructor
      · rintro ⟨rfl, h⟩; exact ⟨rfl, fun p hp => hp.elim (hm p) (h p)⟩
      · rintro ⟨rfl, h⟩; exact ⟨rfl, fun p hp => h p (.inr hp)⟩

/-! ### Documents -/

/-- The document made of the input, if there is one. -/
def built (E : Env) (d : List (Str × V)) : V :=
  .inst .AsyncAPI3 (fieldsOf E .AsyncAPI3 d) (extrasOf .AsyncAPI3 d) (setOf .AsyncAPI3 d)

theorem built_attr {d : List (Str × V)} {f : FieldDef Cls} (hf : f ∈ (classDef .AsyncAPI3).fields) {v sc}
    (h : one E .AsyncAPI3 d f = some (v, sc)) : (built E d).attr f.name = v := by
  unfold built
  rw [attr_fieldsOf hf]
  unfold valueOf
  rw [h]

/-- Validation in closed form. -/
theorem validate_validators (hn : Numbered E number) {d : List (Str × V)} {cs ps : List Validator}
    (ha : Asked number d cs ps) (hs : Sound E.U E.digits (.dict d)) (hda : Data (.dict d)) (j : V) :
    validate E .AsyncAPI3 (.dict d) = some j ↔ allOk E .AsyncAPI3 d = true ∧ baseCheck E .AsyncAPI3 (built E d) = true ∧
      j = built E d ∧ ∀ p ∈ cs ++ ps, Demands E.U j p := by
  have hk : (classDef Cls.AsyncAPI3).kind ≠ .patterned := by decide
  obtain ⟨v1, sc1, ho1, hp1, -⟩ := converters_field (E := E) ha.1
  obtain ⟨v2, sc2, ho2, hp2, -⟩ := validators_field (E := E) ha.2
  have e1 : (built E d).attr p!"extra_converters" = v1 := built_attr (List.mem_of_getElem (i := 8) rfl) ho1
  have e2 : (built E d).attr p!"extra_validators" = v2 := built_attr (List.mem_of_getElem (i := 9) rfl) ho2
  rw [← e1] at hp1
  rw [← e2] at hp2
  have hafter : ∀ i, after E .AsyncAPI3 i = if baseCheck E .AsyncAPI3 i then (runProcessors E i).2 else none := by
    intro i; unfold after; simp [modelCheck]
  unfold validate
  rw [parse_model_dict E hk, construct_eq]
  simp only [Option.getD_none, hafter]
  change (Option.map _ (if allOk E .AsyncAPI3 d = true then
    Option.map _ (if baseCheck E .AsyncAPI3 (built E d) = true then (runProcessors E (built E d)).2 else none) else none)) = _ ↔ _
  by_cases hok : allOk E .AsyncAPI3 d = true
  · by_cases hb : baseCheck E .AsyncAPI3 (built E d) = true
    · have hb' : (baseCheck E .AsyncAPI3 (built E d) && modelCheck .AsyncAPI3 (built E d)) = true := by rw [hb]; rfl
      obtain ⟨hv, hso⟩ := instance_kept (sound_keeps E) hk hs (parts_kept (sound_keeps E) sound_extras hs) hok hb'
      have hcl := (instance_kept (data_keeps E) hk hda (parts_kept (data_keeps E) data_extras hda) hok hb').2
      simp only [hok, hb, if_true, Option.map_map, Option.map_eq_some_iff, Function.comp, true_and]
      have key := runProcessors_validators hn hv hso hcl hp1 hp2
      constructor
      · rintro ⟨i, hi, rfl⟩
        obtain ⟨rfl, h⟩ := (key i).1 hi
        exact ⟨rfl, h⟩
      · rintro ⟨rfl, h⟩
        exact ⟨_, (key _).2 ⟨rfl, h⟩, rfl⟩
    · simp [hok, hb]
  · simp [hok]

/-- **C51.** What validation with any lists of the validators of the package accepts: a document whose fields, extra
fields and version are right, and which satisfies what each of the validators demands; seventeen of them
demand nothing. -/
theorem C51_any_list (E : Env) (number : Validator → Nat) (hn : Numbered E number) (d : List (Str × V))
    (cs ps : List Validator) (ha : Asked number d cs ps) (hs : Sound E.U E.digits (.dict d)) (hda : Data (.dict d)) (j : V) :
    validate E .AsyncAPI3 (.dict d) = some j ↔ Fieldwise (Accepts E) .AsyncAPI3 d j ∧
      ExtensionRule E.U .AsyncAPI3 j ∧ VersionRule E d j ∧
      (.unified ∈ cs ++ ps → ReferencesRight E.U j) ∧
      (.tags ∈ cs ++ ps → ∀ steps s, TStandsAt j tagPlaces steps s → TChecked j p!"tags" tagPrefix s) ∧
      (.externalDocs ∈ cs ++ ps → ∀ steps s, TStandsAt j docPlaces steps s → TChecked j p!"external_docs" docPrefix s) := by
  have hk : (classDef Cls.AsyncAPI3).kind ≠ .patterned := by decide
  have hdem : (∀ p ∈ cs ++ ps, Demands E.U j p) ↔ (.unified ∈ cs ++ ps → ReferencesRight E.U j) ∧
      (.tags ∈ cs ++ ps → ∀ steps s, TStandsAt j tagPlaces steps s → TChecked j p!"tags" tagPrefix s) ∧
      (.externalDocs ∈ cs ++ ps → ∀ steps s, TStandsAt j docPlaces steps s → TChecked j p!"external_docs" docPrefix s) := by
    constructor
    · exact fun h => ⟨h .unified, h .tags, h .externalDocs⟩
    · rintro ⟨h1, h2, h3⟩ p hp
      cases p
      case unified => exact h1 hp
      case tags => exact h2 hp
      case externalDocs => exact h3 hp
      all_goals trivial
  rw [validate_validators hn ha hs hda, hdem]
  constructor
  · rintro ⟨hok, hb, rfl, h⟩
    obtain ⟨h1, h2⟩ := (allOk_given _).1 ⟨hok, rfl⟩
    exact ⟨h1, (baseCheck_iff E _ hk _).1 hb, (versionRule_iff h1).1 h2, h⟩
  · rintro ⟨h1, h2, h3, h⟩
    obtain ⟨hok, rfl⟩ := (allOk_given j).2 ⟨h1, (versionRule_iff h1).2 h3⟩
    exact ⟨hok, (baseCheck_iff E _ hk _).2 h2, rfl, h⟩

/-! ### Which processors are named does not show -/

/-- Two documents that differ only in the lists of processors. -/
structure Twin (fs fs' : List (Str × V)) : Prop where
  same : ∀ k w, k ≠ p!"extra_converters" → k ≠ p!"extra_validators" → ((k, w) ∈ fs ↔ (k, w) ∈ fs')
  left : ∀ k w, (k, w) ∈ fs → k = p!"extra_converters" ∨ k = p!"extra_validators" → w = .none ∨ ∃ l, w = .list l
  right : ∀ k w, (k, w) ∈ fs' → k = p!"extra_converters" ∨ k = p!"extra_validators" → w = .none ∨ ∃ l, w = .list l

theorem Twin.symm {fs fs'} (h : Twin fs fs') : Twin fs' fs :=
  ⟨fun k w h1 h2 => (h.same k w h1 h2).symm, h.right, h.left⟩

theorem shown_name : ∀ f ∈ (classDef .AsyncAPI3).fields, f.exclude = false →
    f.name ≠ p!"extra_converters" ∧ f.name ≠ p!"extra_validators" := by decide +kernel

theorem twin_child {fs fs' ex set set'} (h : Twin fs fs') {s u}
    (hc : TChild (.inst .AsyncAPI3 fs ex set) s u) : TChild (.inst .AsyncAPI3 fs' ex set') s u := by
  cases hc with
  | field hf he hm hw =>
    obtain ⟨h1, h2⟩ := shown_name _ hf he
    exact .field hf he ((h.same _ _ h1 h2).1 hm) hw

theorem twin_at {fs fs' ex set set'} (h : Twin fs fs') {s ss u}
    (hc : TAt (.inst .AsyncAPI3 fs ex set) (s :: ss) u) : TAt (.inst .AsyncAPI3 fs' ex set') (s :: ss) u := by
  cases hc with
  | cons h1 h2 => exact .cons (twin_child h h1) h2

theorem twin_root {fs fs' ex set set'} (h : Twin fs fs') {d} (hr : TRoot (.inst .AsyncAPI3 fs ex set) d) :
    TRoot (.inst .AsyncAPI3 fs' ex set') d := by
  obtain ⟨c, _, _, _, e, hr⟩ := hr
  cases e
  refine ⟨_, _, _, _, rfl, ?_⟩
  rcases hr with hr | ⟨h1, h2⟩
  · exact .inl ((h.same _ _ (by decide) (by decide)).1 hr)
  · exact .inr ⟨fun w hw => h1 w ((h.same _ _ (by decide) (by decide)).2 hw), h2⟩

theorem twin_step {fs fs' ex set set'} (h : Twin fs fs') {k u} (hs : TStep (.inst .AsyncAPI3 fs ex set) k u) :
    TStep (.inst .AsyncAPI3 fs' ex set') k u ∨ ∃ l, u = .list l := by
  cases hs with
  | root hr hm => exact .inl (.root (twin_root h hr) hm)
  | @field _ _ _ _ f _ _ hr hf hn hm hw =>
    by_cases hx : f.name = p!"extra_converters" ∨ f.name = p!"extra_validators"
    · rcases h.left _ _ hm hx with e | e
      · exact absurd e hw
      · exact .inr e
    · simp only [not_or] at hx
      exact .inl (.field (fun d hd => hr d (twin_root h.symm hd)) hf hn ((h.same _ _ hx.1 hx.2).1 hm) hw)

theorem walk_list {l ks w} (h : TWalk (.list l) ks w) : w = .list l := by
  cases h with
  | nil => rfl
  | cons h _ =>
    cases h with
    | root hr _ => obtain ⟨_, _, _, _, e, _⟩ := hr; cases e

/-- An instance a reference leads to. -/
theorem twin_denotes {fs fs' ex set set'} (h : Twin fs fs') {r c fs1 ex1 set1}
    (hd : TDenotes (.inst .AsyncAPI3 fs ex set) r (.inst c fs1 ex1 set1)) :
    TDenotes (.inst .AsyncAPI3 fs' ex set') r (.inst c fs1 ex1 set1) ∨
      (c = .AsyncAPI3 ∧ TDenotes (.inst .AsyncAPI3 fs' ex set') r (.inst .AsyncAPI3 fs' ex set')) := by
  obtain ⟨he, segs, hsp, hw⟩ := hd
  cases hw with
  | nil => exact .inr ⟨rfl, he, [], hsp, .nil⟩
  | cons h1 h2 =>
    rcases twin_step (set' := set') h h1 with h1 | ⟨l, rfl⟩
    · exact .inl ⟨he, _, hsp, .cons h1 h2⟩
    · have := walk_list h2; cases this

theorem twin_hop {fs fs' ex set set'} (h : Twin fs fs') {r r'} (hh : THop (.inst .AsyncAPI3 fs ex set) r r') :
    THop (.inst .AsyncAPI3 fs' ex set') r r' := by
  obtain ⟨v, hd, _, _, _, rfl, hm⟩ := hh
  rcases twin_denotes (set' := set') h hd with hd | ⟨e, _⟩
  · exact ⟨_, hd, _, _, _, rfl, hm⟩
  · cases e

theorem twin_hops {fs fs' ex set set'} (h : Twin fs fs') {r r'} (hh : THops (.inst .AsyncAPI3 fs ex set) r r') :
    THops (.inst .AsyncAPI3 fs' ex set') r r' := by
  induction hh with
  | refl => exact .refl
  | tail _ h2 ih => exact .tail ih (twin_hop h h2)

theorem twin_refOk {fs fs' ex set set'} (h : Twin fs fs') {e s} (hh : TRefOk (.inst .AsyncAPI3 fs ex set) e s) :
    TRefOk (.inst .AsyncAPI3 fs' ex set') e s := by
  rcases hh with ⟨r, h1, h2⟩ | ⟨r, c, _, _, _, cs, h1, h2, h3, h4, h5⟩
  · exact .inl ⟨r, twin_hops h h1, h2⟩
  · rcases twin_denotes (set' := set') h h2 with h2 | ⟨rfl, h2'⟩
    · exact .inr ⟨r, c, _, _, _, cs, twin_hops h h1, h2, h3, h4, h5⟩
    · exact .inr ⟨r, _, _, _, _, cs, twin_hops h h1, h2', h3, h4, h5⟩

theorem twin_checked {fs fs' ex set set'} (h : Twin fs fs') {F pre s} (hh : TChecked (.inst .AsyncAPI3 fs ex set) F pre s) :
    TChecked (.inst .AsyncAPI3 fs' ex set') F pre s := by
  rcases hh with hh | ⟨rest, key, h1, h2, w, h3⟩
  · exact .inl hh
  · exact .inr ⟨rest, key, h1, h2, w, twin_at h h3⟩

theorem twin_demands {U : Uni} {fs fs' ex set set'} (h : Twin fs fs') (p : Validator)
    (hd : Demands U (.inst .AsyncAPI3 fs ex set) p) : Demands U (.inst .AsyncAPI3 fs' ex set') p := by
  have hroot : ∀ {fs ex set s}, ¬ TRef (.inst .AsyncAPI3 fs ex set) s := by
    rintro _ _ _ _ ⟨_, _, _, e, _⟩; cases e
  have hstand : ∀ {places steps s}, TStandsAt (.inst .AsyncAPI3 fs' ex set') places steps s →
      TStandsAt (.inst .AsyncAPI3 fs ex set) places steps s := by
    rintro places steps s ⟨h1, w, h2, h3⟩
    cases h2 with
    | nil => exact absurd h3 hroot
    | cons h4 h5 => exact ⟨h1, w, twin_at h.symm (.cons h4 h5), h3⟩
  cases p
  case unified =>
    intro steps w s hat hr
    cases hat with
    | nil => exact absurd hr hroot
    | cons h1 h2 => exact rightAt_iff.2 (twin_refOk h (rightAt_iff.1 (hd _ w s (twin_at h.symm (.cons h1 h2)) hr)))
  case tags => exact fun steps s hst => twin_checked h (hd steps s (hstand hst))
  case externalDocs => exact fun steps s hst => twin_checked h (hd steps s (hstand hst))
  all_goals trivial

/-! ### Inputs that are the same but for the processors -/

theorem other_keys : ∀ f ∈ (classDef .AsyncAPI3).fields,
    (f.name = p!"extra_converters" ∨ f.name = p!"extra_validators") ∨
    ((f.name ≠ p!"extra_converters" ∧ f.name ≠ p!"extra_validators") ∧ f.alias ≠ some p!"extra_converters" ∧
      f.alias ≠ some p!"extra_validators") := by decide +kernel

theorem same_lookup {d d' : List (Str × V)} (h : SameApartFromProcessors d d') {k : Str}
    (h1 : k ≠ p!"extra_converters") (h2 : k ≠ p!"extra_validators") : lookup k d = lookup k d' := by
  have e := congrArg (lookup k) h
  have e1 := lookup_filter (P := fun k => k ≠ p!"extra_converters" ∧ k ≠ p!"extra_validators") k d
  have e2 := lookup_filter (P := fun k => k ≠ p!"extra_converters" ∧ k ≠ p!"extra_validators") k d'
  rw [if_pos ⟨h1, h2⟩] at e1 e2
  rw [← e1, ← e2]; exact e

theorem same_findKey {d d' : List (Str × V)} (h : SameApartFromProcessors d d') {f : FieldDef Cls}
    (hf : f ∈ (classDef .AsyncAPI3).fields) (hx : ¬ (f.name = p!"extra_converters" ∨ f.name = p!"extra_validators")) :
    findKey f d = findKey f d' := by
  rcases other_keys f hf with hx' | ⟨⟨h1, h2⟩, h3, h4⟩
  · exact absurd hx' hx
  · unfold findKey
    rw [same_lookup h h1 h2]
    cases ha : f.alias with
    | none => rfl
    | some a =>
      rw [ha] at h3 h4
      simp only [ne_eq, Option.some.injEq] at h3 h4
      simp only [same_lookup h h3 h4]

theorem same_one {d d' : List (Str × V)} (h : SameApartFromProcessors d d') {f : FieldDef Cls}
    (hf : f ∈ (classDef .AsyncAPI3).fields) (hx : ¬ (f.name = p!"extra_converters" ∨ f.name = p!"extra_validators")) :
    one E .AsyncAPI3 d f = one E .AsyncAPI3 d' f := by
  unfold one
  rw [same_findKey h hf hx]

theorem processor_fields : ∀ f ∈ (classDef .AsyncAPI3).fields,
    f.name = p!"extra_converters" ∨ f.name = p!"extra_validators" →
    f.alias = none ∧ f.ty = .union [.list .processors, .none] ∧ f.maxLen = none ∧ f.dflt = .null ∧ f.exclude = true := by
  intro f hf hx
  have same : ∀ g ∈ (classDef .AsyncAPI3).fields, f.name = g.name → f = g := by
    intro g hg hn
    have h1 := lookup_named (·.name) id (names_nodup .AsyncAPI3) hf
    have h2 := lookup_named (·.name) id (names_nodup .AsyncAPI3) hg
    rw [hn, h2] at h1
    exact (Option.some.inj h1).symm
  rcases hx with hx | hx
  · rw [same (defAsyncAPI3.fields[8]) (List.mem_of_getElem (i := 8) rfl) hx]
    exact ⟨rfl, rfl, rfl, rfl, rfl⟩
  · rw [same (defAsyncAPI3.fields[9]) (List.mem_of_getElem (i := 9) rfl) hx]
    exact ⟨rfl, rfl, rfl, rfl, rfl⟩

theorem processor_one {d : List (Str × V)} {cs ps : List Validator} (ha : Asked number d cs ps) {f : FieldDef Cls}
    (hf : f ∈ (classDef .AsyncAPI3).fields) (hx : f.name = p!"extra_converters" ∨ f.name = p!"extra_validators") :
    ∃ v sc, one E .AsyncAPI3 d f = some (v, sc) ∧ (v = .none ∨ ∃ l, v = .list l) := by
  obtain ⟨h1, h2, h3, h4, -⟩ := processor_fields f hf hx
  rcases hx with hx | hx
  · obtain ⟨v, sc, h, -, h'⟩ := one_procs (E := E) h1 h2 h3 h4 (fun _ => by rw [hx]; rfl) (by rw [hx]; exact ha.1)
    exact ⟨v, sc, h, h'⟩
  · obtain ⟨v, sc, h, -, h'⟩ := one_procs (E := E) h1 h2 h3 h4 (fun _ => by rw [hx]; rfl) (by rw [hx]; exact ha.2)
    exact ⟨v, sc, h, h'⟩

/-- The extra fields, as those of the rest of the input. -/
theorem extras_rest (d : List (Str × V)) (ks : List Str) (hks : ∀ e ∈ d, e.1 ≠ p!"extra_converters" →
      e.1 ≠ p!"extra_validators" → ((usedKeys .AsyncAPI3 d).contains e.1 = ks.contains e.1))
    (hp : ∀ e ∈ d, e.1 = p!"extra_converters" ∨ e.1 = p!"extra_validators" → (usedKeys .AsyncAPI3 d).contains e.1 = true) :
    extrasOf .AsyncAPI3 d = (d.filter fun e => decide (e.1 ≠ p!"extra_converters" ∧ e.1 ≠ p!"extra_validators")).filter
      fun e => !(ks.contains e.1) := by
  unfold extrasOf
  rw [List.filter_filter]
  apply List.filter_congr
  intro e he
  by_cases h1 : e.1 = p!"extra_converters" ∨ e.1 = p!"extra_validators"
  · rw [hp e he h1]
    have : decide (e.1 ≠ p!"extra_converters" ∧ e.1 ≠ p!"extra_validators") = false := by
      simp only [decide_eq_false_iff_not]; rintro ⟨a, b⟩; exact h1.elim a b
    rw [this]; simp
  · simp only [not_or] at h1
    rw [hks e he h1.1 h1.2]
    have : decide (e.1 ≠ p!"extra_converters" ∧ e.1 ≠ p!"extra_validators") = true := decide_eq_true ⟨h1.1, h1.2⟩
    rw [this]; simp

theorem processor_used {d : List (Str × V)} {e : Str × V} (he : e ∈ d)
    (hx : e.1 = p!"extra_converters" ∨ e.1 = p!"extra_validators") : (usedKeys .AsyncAPI3 d).contains e.1 = true := by
  have key : ∀ f ∈ (classDef .AsyncAPI3).fields, f.alias = none → f.name = e.1 → (usedKeys .AsyncAPI3 d).contains e.1 = true := by
    intro f hf ha hn
    obtain ⟨x, hx⟩ := lookup_isSome_of_mem (List.mem_map.2 ⟨e, he, rfl⟩)
    rw [List.contains_iff_mem]
    refine List.mem_filterMap.2 ⟨f, hf, ?_⟩
    unfold findKey
    rw [ha]; simp only [hn, hx]; rfl
  rcases hx with hx | hx
  · exact key (defAsyncAPI3.fields[8]) (List.mem_of_getElem (i := 8) rfl) rfl hx.symm
  · exact key (defAsyncAPI3.fields[9]) (List.mem_of_getElem (i := 9) rfl) rfl hx.symm

theorem same_used {d d' : List (Str × V)} (h : SameApartFromProcessors d d') {k : Str}
    (h1 : k ≠ p!"extra_converters") (h2 : k ≠ p!"extra_validators") (hu : (usedKeys .AsyncAPI3 d).contains k = true) :
    (usedKeys .AsyncAPI3 d').contains k = true := by
  rw [List.contains_iff_mem] at hu ⊢
  obtain ⟨f, hf, he⟩ := List.mem_filterMap.1 hu
  refine List.mem_filterMap.2 ⟨f, hf, ?_⟩
  rw [← same_findKey h hf]
  · exact he
  · rintro hx
    obtain ⟨ha, -⟩ := processor_fields f hf hx
    unfold findKey at he
    rw [ha] at he
    simp only [Option.map_map, Option.map_eq_some_iff, Function.comp] at he
    obtain ⟨_, _, rfl⟩ := he
    exact hx.elim h1 h2

theorem SameApartFromProcessors.symm {d d' : List (Str × V)} (h : SameApartFromProcessors d d') :
    SameApartFromProcessors d' d := Eq.symm h

theorem same_extras {d d' : List (Str × V)} (h : SameApartFromProcessors d d') :
    extrasOf .AsyncAPI3 d = extrasOf .AsyncAPI3 d' := by
  have hb : ∀ {k : Str}, k ≠ p!"extra_converters" → k ≠ p!"extra_validators" →
      (usedKeys .AsyncAPI3 d).contains k = (usedKeys .AsyncAPI3 d').contains k := by
    intro k h1 h2
    rw [Bool.eq_iff_iff]
    exact ⟨same_used h h1 h2, same_used h.symm h1 h2⟩
  rw [extras_rest d (usedKeys .AsyncAPI3 d) (fun _ _ _ _ => rfl) (fun e he => processor_used he),
    extras_rest d' (usedKeys .AsyncAPI3 d) (fun e _ h1 h2 => (hb h1 h2).symm) (fun e he => processor_used he)]
  rw [h]

theorem same_fields {d d' : List (Str × V)} {cs ps cs' ps' : List Validator} (h : SameApartFromProcessors d d')
    (ha : Asked number d cs ps) (ha' : Asked number d' cs' ps') :
    Twin (fieldsOf E .AsyncAPI3 d) (fieldsOf E .AsyncAPI3 d') := by
  have hlist : ∀ {d cs ps}, Asked number d cs ps → ∀ k w, (k, w) ∈ fieldsOf E .AsyncAPI3 d →
      k = p!"extra_converters" ∨ k = p!"extra_validators" → w = .none ∨ ∃ l, w = .list l := by
    intro d cs ps ha k w hm hx
    obtain ⟨f, hf, he⟩ := List.mem_map.1 hm
    simp only [Prod.mk.injEq] at he
    obtain ⟨rfl, rfl⟩ := he
    obtain ⟨v, sc, ho, hv⟩ := processor_one (E := E) ha hf hx
    unfold valueOf
    rw [ho]; exact hv
  refine ⟨fun k w h1 h2 => ?_, hlist ha, hlist ha'⟩
  unfold fieldsOf
  simp only [List.mem_map, Prod.mk.injEq]
  have hv : ∀ f ∈ (classDef .AsyncAPI3).fields, f.name = k → valueOf E .AsyncAPI3 d f = valueOf E .AsyncAPI3 d' f := by
    intro f hf hk
    unfold valueOf
    rw [same_one h hf (by rw [hk]; exact fun hx => hx.elim h1 h2)]
  constructor
  · rintro ⟨f, hf, hk, rfl⟩; exact ⟨f, hf, hk, (hv f hf hk).symm⟩
  · rintro ⟨f, hf, hk, rfl⟩; exact ⟨f, hf, hk, hv f hf hk⟩

theorem same_ok {d d' : List (Str × V)} {cs' ps' : List Validator} (h : SameApartFromProcessors d d')
    (ha' : Asked number d' cs' ps') (hok : allOk E .AsyncAPI3 d = true) : allOk E .AsyncAPI3 d' = true := by
  unfold allOk at hok ⊢
  simp only [Bool.and_eq_true, List.all_eq_true] at hok ⊢
  refine ⟨fun f hf => ?_, by rw [← same_extras h]; exact hok.2⟩
  by_cases hx : f.name = p!"extra_converters" ∨ f.name = p!"extra_validators"
  · obtain ⟨v, sc, ho, -⟩ := processor_one (E := E) ha' hf hx
    rw [ho]; rfl
  · rw [← same_one h hf hx]; exact hok.1 f hf

theorem dumpFields_same {c : Cls} (val val' : FieldDef Cls → V) (L : List (FieldDef Cls))
    (h : ∀ f ∈ L, fieldOf c f.name = some f ∧ (f.exclude = true ∨ val f = val' f)) :
    dumpFields c (L.map fun f => (f.name, val f)) = dumpFields c (L.map fun f => (f.name, val' f)) := by
  induction L with
  | nil => rfl
  | cons f L ih =>
    obtain ⟨h1, h2⟩ := h f (List.mem_cons_self ..)
    simp only [List.map_cons, dumpFields, h1, ih fun g hg => h g (List.mem_cons_of_mem _ hg)]
    rcases h2 with h2 | h2
    · simp [h2]
    · rw [h2]

theorem field_found : ∀ f ∈ (classDef .AsyncAPI3).fields, fieldOf .AsyncAPI3 f.name = some f := by
  intro f hf
  unfold fieldOf
  cases h : (classDef .AsyncAPI3).fields.find? (·.name == f.name) with
  | none => exact absurd (List.find?_eq_none.1 h f hf) (by simp)
  | some g =>
    have hg := List.mem_of_find?_eq_some h
    have hn : g.name = f.name := by simpa using List.find?_some h
    have h1 := lookup_named (·.name) id (names_nodup .AsyncAPI3) hf
    have h2 := lookup_named (·.name) id (names_nodup .AsyncAPI3) hg
    rw [hn, h1] at h2
    exact h2.symm

theorem same_dump {d d' : List (Str × V)} (h : SameApartFromProcessors d d') : dump (built E d) = dump (built E d') := by
  have e : dumpFields .AsyncAPI3 (fieldsOf E .AsyncAPI3 d) = dumpFields .AsyncAPI3 (fieldsOf E .AsyncAPI3 d') := by
    refine dumpFields_same _ _ _ fun f hf => ⟨field_found f hf, ?_⟩
    by_cases hx : f.name = p!"extra_converters" ∨ f.name = p!"extra_validators"
    · exact .inl (processor_fields f hf hx).2.2.2.2
    · refine .inr ?_
      unfold valueOf
      rw [same_one h hf hx]
  change V.dict (dumpFields .AsyncAPI3 (fieldsOf E .AsyncAPI3 d) ++ dumpDict (extrasOf .AsyncAPI3 d)) =
    V.dict (dumpFields .AsyncAPI3 (fieldsOf E .AsyncAPI3 d') ++ dumpDict (extrasOf .AsyncAPI3 d'))
  rw [e, same_extras h]

/-- **C51.** Only which of the three checking validators are named matters: not the order, repetitions, whether they stand
among the converters or the validators, or which of the other seventeen are named. Inputs that otherwise are the same are
accepted alike, and the same JSON is written. -/
theorem C51_order (E : Env) (number : Validator → Nat) (hn : Numbered E number) (d d' : List (Str × V))
    (h : SameApartFromProcessors d d') (cs ps cs' ps' : List Validator) (ha : Asked number d cs ps)
    (ha' : Asked number d' cs' ps')
    (hsame : ∀ p, p = .unified ∨ p = .tags ∨ p = .externalDocs → (p ∈ cs ++ ps ↔ p ∈ cs' ++ ps'))
    (hs : Sound E.U E.digits (.dict d)) (hda : Data (.dict d)) (hs' : Sound E.U E.digits (.dict d')) (hda' : Data (.dict d')) :
    (validate E .AsyncAPI3 (.dict d)).map dump = (validate E .AsyncAPI3 (.dict d')).map dump := by
  have main : ∀ {d d' cs ps cs' ps'}, SameApartFromProcessors d d' → Asked number d cs ps → Asked number d' cs' ps' →
      (∀ p, p = .unified ∨ p = .tags ∨ p = .externalDocs → (p ∈ cs ++ ps ↔ p ∈ cs' ++ ps')) →
      Sound E.U E.digits (.dict d) → Data (.dict d) → Sound E.U E.digits (.dict d') → Data (.dict d') →
      ∀ j, validate E .AsyncAPI3 (.dict d) = some j → ∃ j', validate E .AsyncAPI3 (.dict d') = some j' ∧ dump j = dump j' := by
    intro d d' cs ps cs' ps' h ha ha' hsame hs hda hs' hda' j hj
    obtain ⟨hok, hb, rfl, hdem⟩ := (validate_validators hn ha hs hda j).1 hj
    refine ⟨built E d', (validate_validators hn ha' hs' hda' _).2 ⟨same_ok h ha' hok, ?_, rfl, ?_⟩, same_dump h⟩
    · have hk : (classDef Cls.AsyncAPI3).kind ≠ .patterned := by decide
      rw [baseCheck_iff E _ hk] at hb ⊢
      unfold built at hb ⊢
      rw [← same_extras h]
      exact hb
    · intro p hp
      have htw := same_fields (E := E) h ha ha'
      have : Demands E.U (built E d) p := by
        by_cases h3 : p = .unified ∨ p = .tags ∨ p = .externalDocs
        · exact hdem p ((hsame p h3).2 hp)
        · cases p <;> simp_all [Demands]
      unfold built at this ⊢
      rw [← same_extras h]
      exact twin_demands htw p this
  cases hv : validate E .AsyncAPI3 (.dict d) with
  | some j =>
    obtain ⟨j', hj', he⟩ := main h ha ha' hsame hs hda hs' hda' j hv
    rw [hj', Option.map_some, Option.map_some, he]
  | none =>
    cases hv' : validate E .AsyncAPI3 (.dict d') with
    | none => rfl
    | some j' =>
      obtain ⟨j, hj, -⟩ := main h.symm ha' ha (fun p h3 => (hsame p h3).symm) hs' hda' hs hda j' hv'
      rw [hv] at hj; cases hj

/-- **C51.** Validators of the package never change a document: what is returned is the document built from the input, as it
would be returned without them. -/
theorem C51_unchanged (E : Env) (number : Validator → Nat) (hn : Numbered E number) (d d' : List (Str × V))
    (h : SameApartFromProcessors d d') (cs ps : List Validator) (ha : Asked number d cs ps) (ha' : Asked number d' [] [])
    (hs : Sound E.U E.digits (.dict d)) (hda : Data (.dict d)) (hs' : Sound E.U E.digits (.dict d')) (hda' : Data (.dict d'))
    (j : V) (hj : validate E .AsyncAPI3 (.dict d) = some j) :
    ∃ j', validate E .AsyncAPI3 (.dict d') = some j' ∧ dump j' = dump j := by
  obtain ⟨hok, hb, rfl, hdem⟩ := (validate_validators hn ha hs hda j).1 hj
  refine ⟨built E d', (validate_validators hn ha' hs' hda' _).2 ⟨same_ok h ha' hok, ?_, rfl, by simp⟩,
    (same_dump h).symm⟩
  have hk : (classDef Cls.AsyncAPI3).kind ≠ .patterned := by decide
  rw [baseCheck_iff E _ hk] at hb ⊢
  unfold built at hb ⊢
  rw [← same_extras h]
  exact hb

/-! ### A concrete case -/

/-- Numbers for the classes. -/
def numberOf : Validator → Nat
  | .unified => 0 | .tags => 1 | .externalDocs => 2 | .channelBindings => 3 | .channels => 4 | .correlationIds => 5
  | .messageBindings => 6 | .messageTraits => 7 | .messages => 8 | .operationBindings => 9 | .operationTraits => 10
  | .operations => 11 | .parameters => 12 | .replies => 13 | .replyAddresses => 14 | .schemas => 15
  | .securitySchemes => 16 | .serverBindings => 17 | .serverVariables => 18 | .servers => 19

example : Numbered packageEnv numberOf := by intro p; cases p <;> rfl

/-- A document with a message reference, to be validated with the given lists. -/
def askedInput (ref : Str) (cs ps : List Validator) : List (Str × V) :=
  (p!"extra_converters", .list (cs.map fun p => .proc (numberOf p))) ::
    (sampleInput ref 0).dropLast ++ [(p!"extra_validators", .list (ps.map fun p => .proc (numberOf p)))]

example (ref : Str) (cs ps : List Validator) : Asked numberOf (askedInput ref cs ps) cs ps := ⟨.inl rfl, .inl rfl⟩
example (ref : Str) (cs ps cs' ps' : List Validator) : SameApartFromProcessors (askedInput ref cs ps) (askedInput ref cs' ps') := rfl
example : Data (.dict (askedInput p!"#/components/messages/x" [.messages] [.tags])) ∧
    Sound packageEnv.U packageEnv.digits (.dict (askedInput p!"#/components/messages/x" [.messages] [.tags])) := plain_input rfl

/-- A reference to a message that is not there passes `MessagesRefValidator` and `TagsRefValidator`, … -/
example : (validate packageEnv .AsyncAPI3 (.dict (askedInput p!"#/components/messages/x" [.messages] [.tags, .channels]))).isSome = true := by
  decide +kernel
/-- … but not `UnifiedReferencesValidator`, wherever it stands. -/
example : (validate packageEnv .AsyncAPI3 (.dict (askedInput p!"#/components/messages/x" [.messages] [.tags, .unified]))).isSome = false ∧
    (validate packageEnv .AsyncAPI3 (.dict (askedInput p!"#/components/messages/x" [.unified, .unified] []))).isSome = false := by
  decide +kernel

end Verif.Props
