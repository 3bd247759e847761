import Verif.Spec.Written
import Verif.Props.RoundTrip
import Verif.Props.Grows
/-!
# C54, C55: written JSON

What is written of an accepted document is well-formed JSON, and is accepted again by the validators that accepted
the document.
-/
namespace Verif.Props
open Verif Verif.Gen Verif.Spec Verif.Pyd Verif.Document Verif.Mutate

/-! ### C54 -/

theorem wellFormed_data {v : V} (h : WellFormed v) : Data v := by
  induction h with
  | none => exact .none
  | bool => exact .bool
  | int => exact .int
  | float => exact .float
  | str => exact .str
  | list _ ih => exact .list ih
  | dict _ _ ih => exact .dict ih

theorem wellFormed_sound {U : Uni} {limit : Option Nat} {v : V} (h : WellFormed v) : Sound U limit v := by
  induction h with
  | none => exact .none
  | bool => exact .bool
  | int => exact .int
  | float => exact .float
  | str => exact .str
  | list _ ih => exact .list ih
  | dict hn _ ih => exact .dict hn ih

theorem wellFormed_json {v : V} (h : WellFormed v) : v.isJson = true := by
  induction h with
  | list _ ih => rw [V.isJson, isJsonList_iff]; exact ih
  | dict _ _ ih => rw [V.isJson, isJsonDict_iff]; exact ih
  | _ => rfl

/-- JSON within a sound value is well-formed. -/
theorem json_wellFormed {U : Uni} {limit : Option Nat} : ∀ v : V, v.isJson = true → Sound U limit v → WellFormed v := by
  apply V.ind
  · intro l ih hj hs
    rw [V.isJson, isJsonList_iff] at hj
    cases hs with
    | list h => exact .list fun v hv => ih v hv (hj v hv) (h v hv)
  · intro d ih hj hs
    rw [V.isJson, isJsonDict_iff] at hj
    cases hs with
    | dict hn h => exact .dict hn fun e he => ih e he (hj e he) (h e he)
  · intro c fs ex set _ _ hj; cases hj
  all_goals intros; first | constructor | (rename_i h _; cases h)

theorem attr_mem {c : Cls} {fs ex : List (Str × V)} {set : List Str} (hfs : fs.map (·.1) = (classDef c).fields.map (·.name))
    {f : FieldDef Cls} (hf : f ∈ (classDef c).fields) : (f.name, (V.inst c fs ex set).attr f.name) ∈ fs := by
  exact lookup_some_mem (lookup_of_names (ex := ex) (set := set) hfs hf)

theorem dump_wellFormed {U : Uni} {limit : Option Nat} {norm : UrlKind → Str → Prop} {v : V} {t : Ty Cls}
    (hv : ValidJson U limit norm v t) : Sound U limit v → WellFormed (dump v) := by
  induction hv with
  | any hj => intro hs; rw [dump_json _ hj]; exact json_wellFormed _ hj hs
  | none => exact fun _ => .none
  | str => exact fun _ => .str
  | int => exact fun _ => .int
  | bool => exact fun _ => .bool
  | anyUrl => exact fun _ => .str
  | httpUrl => exact fun _ => .str
  | email => exact fun _ => .str
  | litStr => exact fun _ => .str
  | litInt => exact fun _ => .int
  | list _ ih =>
    intro hs
    cases hs with
    | list hl =>
      rw [dump, dumpList_map]
      refine .list fun v hv => ?_
      obtain ⟨w, hw, rfl⟩ := List.mem_map.1 hv
      exact ih w hw (hl w hw)
  | dict _ ih =>
    intro hs
    cases hs with
    | dict hn hl =>
      rw [dump, dumpDict_map]
      refine .dict (by rw [List.map_map]; exact hn) fun v hv => ?_
      obtain ⟨w, hw, rfl⟩ := List.mem_map.1 hv
      exact ih w hw (hl w hw)
  | union _ _ ih => exact ih
  | @model c fs ex set h1 h2 h3 h4 h5 ih =>
    intro hs
    cases hs with
    | inst hval hsf hn hsx =>
      by_cases hk : (classDef c).kind = .patterned
      · obtain ⟨d, hd, he⟩ := C36_patterned U limit c hk _ hval
        obtain ⟨t, hf⟩ := patterned_root c hk
        have hm : (⟨p!"root", none, .dict t, .required, false, false, none⟩ : FieldDef Cls) ∈ (classDef c).fields := by
          rw [hf]; exact List.mem_singleton_self _
        have := ih _ hm (hsf _ (attr_mem (ex := ex) (set := set) h1 hm))
        simp only at this
        rw [hd, dump, dumpDict_map] at this
        rw [he]; exact this
      · rw [dump_written hk hval h3]
        refine .dict ?_ fun e he => ?_
        · rw [List.map_append, List.nodup_append]
          refine ⟨?_, hn, ?_⟩
          · unfold writtenFields
            rw [List.map_map]
            exact (jsonNames_nodup c).sublist (List.filter_sublist.map _)
          · intro a ha b hb e
            subst e
            obtain ⟨e, he, rfl⟩ := List.mem_map.1 ha
            obtain ⟨e', he', hee⟩ := List.mem_map.1 hb
            obtain ⟨f, hf, -, rfl⟩ := mem_written he
            exact h5 e' he' f hf hee
        · rcases List.mem_append.1 he with he | he
          · obtain ⟨f, hf, -, rfl⟩ := mem_written he
            exact ih f hf (hsf _ (attr_mem (ex := ex) (set := set) h1 hf))
          · exact json_wellFormed _ (h3 e he) (hsx e he)

/-- The processors of JSON: there are none. -/
theorem json_processors {E : Env} {d : List (Str × V)} (hj : (V.dict d).isJson = true) (hok : allOk E .AsyncAPI3 d = true) :
    processorsOf ((built E d).attr p!"extra_converters") = [] ∧ processorsOf ((built E d).attr p!"extra_validators") = [] := by
  rw [V.isJson, isJsonDict_iff] at hj
  obtain ⟨h1, h2⟩ := fields_of_allOk hok
  have hfields : ∀ f ∈ (classDef .AsyncAPI3).fields, ValidJson E.U E.digits (NormalUrl E) (valueOf E .AsyncAPI3 d f) f.ty := by
    intro f hf
    rcases (h1 f hf).1.1 with ⟨k, x, hk, sc, ha⟩ | ⟨_, hv⟩
    · exact parse_validJson _ (hj _ (mem_of_given hk)) _ _ _ (field_jsonTy hf) ha
    · exact default_validJson hf (hasDefault_iff.1 hv)
  constructor
  · have hf : defAsyncAPI3.fields[8] ∈ (classDef .AsyncAPI3).fields := List.mem_of_getElem (i := 8) rfl
    have := hfields _ hf
    rw [← attr_fieldsOf (ex := extrasOf .AsyncAPI3 d) (set := setOf .AsyncAPI3 d) hf] at this
    exact list_processors_json this
  · have hf : defAsyncAPI3.fields[9] ∈ (classDef .AsyncAPI3).fields := List.mem_of_getElem (i := 9) rfl
    have := hfields _ hf
    rw [← attr_fieldsOf (ex := extrasOf .AsyncAPI3 d) (set := setOf .AsyncAPI3 d) hf] at this
    exact list_processors_json this

/-- A document made of JSON. -/
theorem json_document {E : Env} {d : List (Str × V)} (hj : (V.dict d).isJson = true) {v : V}
    (h : validate E .AsyncAPI3 (.dict d) = some v) :
    allOk E .AsyncAPI3 d = true ∧ baseCheck E .AsyncAPI3 (built E d) = true ∧ v = built E d := by
  have hk : (classDef Cls.AsyncAPI3).kind ≠ .patterned := by decide
  unfold validate at h
  rw [parse_model_dict E hk, construct_eq] at h
  split at h
  · rename_i hok
    simp only [Option.getD_none, Option.map_map, Option.map_eq_some_iff, Function.comp] at h
    obtain ⟨i, hi, rfl⟩ := h
    have hb := after_checks hi
    rw [Bool.and_eq_true] at hb
    exact ⟨hok, hb.1, after_json (fun _ => json_processors hj hok) hi⟩
  · cases h

/-- What is made of well-formed JSON is sound. -/
theorem json_sound (E : Env) (c : Cls) (x : V) (hx : WellFormed x) (v : V) (h : validate E c x = some v) :
    Sound E.U E.digits v := by
  by_cases hc : c = .AsyncAPI3
  · subst hc
    obtain ⟨d, rfl⟩ : ∃ d, x = .dict d := by
      unfold validate at h
      rw [Option.map_eq_some_iff] at h
      obtain ⟨⟨v', sc⟩, h, -⟩ := h
      have := takes_of_parse h (l := [.dict, .inst .AsyncAPI3]) rfl
      cases hx <;> first | exact ⟨_, rfl⟩ | simp [headOf] at this
    obtain ⟨hok, hb, rfl⟩ := json_document (wellFormed_json hx) h
    have hs : Sound E.U E.digits (.dict d) := wellFormed_sound hx
    exact (instance_kept (sound_keeps E) (by decide) hs (parts_kept (sound_keeps E) sound_extras hs) hok
      (by rw [Bool.and_eq_true]; exact ⟨hb, rfl⟩)).2
  · unfold validate at h
    rw [Option.map_eq_some_iff] at h
    obtain ⟨⟨v', sc⟩, h, rfl⟩ := h
    exact parse_kept (sound_keeps E) sound_extras x (wellFormed_sound hx) (.model c) v' sc
      (by show (c != .AsyncAPI3) = true; simpa using hc) h

/-- **C54.** What is written of anything that was read from JSON is JSON in which no object has a key twice. -/
theorem C54_written (E : Env) (c : Cls) (x : V) (hx : WellFormed x) (v : V) (h : validate E c x = some v) :
    WellFormed (dump v) :=
  dump_wellFormed (C39_json_valid E c x (wellFormed_json hx) v h) (json_sound E c x hx v h)

/-- **C54.** The same for instances made in Python, if their free places hold JSON and no extra field has the JSON
name of a declared field of its object. -/
theorem C54_instance (U : Uni) (limit : Option Nat) (norm : UrlKind → Str → Prop) (c : Cls) (v : V)
    (hv : ValidJson U limit norm v (.model c)) (hs : Sound U limit v) : WellFormed (dump v) := dump_wellFormed hv hs

/-- **C54** without the last condition. -/
def C54_Claim : Prop := ∀ (E : Env) (c : Cls) (i j : V) (name : Str) (x : V), Valid E.U E.digits i (.model c) →
  WellFormed (dump i) → x.isJson = true → assign E false i name x = .done j → WellFormed (dump j)

/-- It is false: `schema.externalDocs = …` (the JSON name, not the Python name) adds an extra field, and both are
written under the same key (by `model_dump_json`; in the dict that `model_dump` returns, the second replaces the
first). -/
theorem C54_refuted : ¬ C54_Claim := by
  intro h
  have := h plainEnv .Schema aSchema _ p!"externalDocs" .none aSchema_valid
    (C54_written plainEnv .Schema _ (json_wellFormed _ rfl (plain_input (U := .ascii) (limit := none) rfl).2) _ aSchema_made) rfl rfl
  cases this with
  | dict hn _ => revert hn; decide

/-! ### C55 -/

theorem map_getElem {α β : Type} {g : α → β} {l l' : List α} (h : l.map g = l'.map g) {i : Nat} {v : α} (hv : l[i]? = some v) :
    ∃ v', l'[i]? = some v' ∧ g v = g v' := by
  have := congrArg (·[i]?) h
  simp only [List.getElem?_map, hv, Option.map_some] at this
  cases hl : l'[i]? with
  | none => rw [hl] at this; cases this
  | some v' => rw [hl] at this; exact ⟨v', rfl, Option.some.inj this⟩

theorem map_mem {l l' : List (Str × V)} (h : l.map (fun e => (e.1, forget e.2)) = l'.map fun e => (e.1, forget e.2)) {k : Str} {v : V}
    (hv : (k, v) ∈ l) : ∃ v', (k, v') ∈ l' ∧ forget v = forget v' := by
  have : (k, forget v) ∈ l.map (fun e => (e.1, forget e.2)) := List.mem_map.2 ⟨_, hv, rfl⟩
  rw [h] at this
  obtain ⟨⟨k', v'⟩, hm, e⟩ := List.mem_map.1 this
  cases Prod.mk.inj e with
  | intro e1 e2 => subst e1; exact ⟨v', hm, e2.symm⟩

/-- Equal documents have each other's contents. -/
theorem grows_forget : ∀ v w : V, forget v = forget w → Grows v w := by
  refine V.ind ?_ ?_ ?_ ?_ ?_ ?_ ?_ ?_ ?_ ?_
  · intro l ih w h
    cases w <;> simp only [forget, reduceCtorEq, V.list.injEq] at h
    rw [forgetList_map, forgetList_map] at h
    refine .ofList fun i v hv => ?_
    obtain ⟨v', h1, h2⟩ := map_getElem h hv
    exact ⟨v', h1, ih v (List.mem_of_getElem? hv) v' h2⟩
  · intro d ih w h
    cases w <;> simp only [forget, reduceCtorEq, V.dict.injEq] at h
    rw [forgetDict_map, forgetDict_map] at h
    refine .ofDict fun k v hv => ?_
    obtain ⟨v', h1, h2⟩ := map_mem h hv
    exact ⟨v', h1, ih (k, v) hv v' h2⟩
  · intro c fs ex set ih1 ih2 w h
    cases w <;> simp only [forget, reduceCtorEq, V.inst.injEq] at h
    obtain ⟨rfl, h1, h2, -⟩ := h
    rw [forgetDict_map, forgetDict_map] at h1 h2
    have hstr : ∀ s (w : V), forget (.str s) = forget w → w = .str s := by
      intro s w h
      cases w <;> simp only [forget, reduceCtorEq] at h
      exact h.symm
    refine .ofInst (fun _ s => ⟨fun hv => ?_, fun hv => ?_⟩) (fun k v hv => ?_) (fun k v hv => ?_) (fun v hv => ?_) (fun v hv => ?_)
    · obtain ⟨v', h3, h4⟩ := map_mem h1 hv
      exact hstr s v' h4 ▸ h3
    · obtain ⟨v', h3, h4⟩ := map_mem h1.symm hv
      exact hstr s v' h4 ▸ h3
    · obtain ⟨v', h3, h4⟩ := map_mem h1 hv
      exact ⟨v', h3, .inr (ih1 (k, v) hv v' h4)⟩
    · obtain ⟨v', h3, h4⟩ := map_mem h1.symm hv
      exact ⟨v', h3, .inr (ih1 (k, v') h3 v h4.symm)⟩
    · obtain ⟨v', h3, h4⟩ := map_mem h2 hv
      exact ⟨v', h3, ih2 (_, v) hv v' h4⟩
    · obtain ⟨v', h3, h4⟩ := map_mem h2.symm hv
      exact ⟨v', h3, ih2 (_, v') h3 v h4.symm⟩
  all_goals
    intros
    rename_i w h
    cases w <;> simp only [forget, reduceCtorEq] at h
    first
      | exact .plain .bool .bool | exact .plain .int .int | exact .plain .float .float | exact .none
      | (cases h; exact grows_refl _)

/-- Documents that grow into each other are the same to the validators. -/
theorem demands_both {U : Uni} {a b : V} (h1 : Grows a b) (h2 : Grows b a) {p : Validator} (h : Demands U a p) : Demands U b p := by
  rw [demands_iff] at h ⊢
  intro steps w s hat hr
  obtain ⟨steps', w', hpl, hat', hg⟩ := grows_at hat h2
  exact demandsOf_place (place_symm hpl) (C53_stays_right U a b h1 p steps' s (h steps' w' s hat' (grows_ref hg hr)))

/-- The part of the input that is not about processors, -/
def withoutProcessors (d : List (Str × V)) : List (Str × V) :=
  d.filter fun e => decide (e.1 ≠ p!"extra_converters" ∧ e.1 ≠ p!"extra_validators")

/-- and the part that is. -/
def processorsIn (d : List (Str × V)) : List (Str × V) :=
  d.filter fun e => !decide (e.1 ≠ p!"extra_converters" ∧ e.1 ≠ p!"extra_validators")

theorem mem_without {d : List (Str × V)} {e : Str × V} : e ∈ withoutProcessors d ↔
    e ∈ d ∧ e.1 ≠ p!"extra_converters" ∧ e.1 ≠ p!"extra_validators" := by
  unfold withoutProcessors
  rw [List.mem_filter, decide_eq_true_eq]

theorem mem_processorsIn {d : List (Str × V)} {e : Str × V} : e ∈ processorsIn d ↔
    e ∈ d ∧ (e.1 = p!"extra_converters" ∨ e.1 = p!"extra_validators") := by
  unfold processorsIn
  rw [List.mem_filter, Bool.not_eq_true', decide_eq_false_iff_not, ← not_or, Classical.not_not]

theorem same_without (d : List (Str × V)) : SameApartFromProcessors d (withoutProcessors d) := by
  unfold SameApartFromProcessors withoutProcessors
  rw [List.filter_filter]
  exact List.filter_congr fun e _ => by simp

theorem same_with {d e : List (Str × V)} : SameApartFromProcessors e (e ++ processorsIn d) := by
  unfold SameApartFromProcessors processorsIn
  rw [List.filter_append, List.filter_filter]
  have : (d.filter fun e => decide (e.1 ≠ p!"extra_converters" ∧ e.1 ≠ p!"extra_validators") &&
      !decide (e.1 ≠ p!"extra_converters" ∧ e.1 ≠ p!"extra_validators")) = [] := by
    rw [List.filter_eq_nil_iff]
    intro e _
    simp
  rw [this, List.append_nil]

theorem asked_none {number : Validator → Nat} {d : List (Str × V)}
    (h : ∀ e ∈ d, e.1 ≠ p!"extra_converters" ∧ e.1 ≠ p!"extra_validators") : Asked number d [] [] :=
  ⟨.inr ⟨rfl, .inl (lookup_none_of fun e he => (h e he).1)⟩, .inr ⟨rfl, .inl (lookup_none_of fun e he => (h e he).2)⟩⟩

theorem lookup_processorsIn {d : List (Str × V)} {k : Str} (h : k = p!"extra_converters" ∨ k = p!"extra_validators") :
    lookup k (processorsIn d) = lookup k d := by
  unfold processorsIn
  induction d with
  | nil => rfl
  | cons e d ih =>
    obtain ⟨k', v⟩ := e
    by_cases hk : k' = k
    · subst hk
      rw [List.filter_cons_of_pos (by rcases h with rfl | rfl <;> simp)]
      simp [lookup]
    · rw [List.filter_cons]
      split
      · simp only [lookup, hk, if_false]; exact ih
      · simp only [lookup, hk, if_false]; exact ih

/-- What processors the input asks for is no more than a list of them. -/
theorem asked_value {number : Validator → Nat} {d : List (Str × V)} {cs ps : List Validator} (ha : Asked number d cs ps)
    (hk : (d.map (·.1)).Nodup) {e : Str × V} (he : e ∈ d) (hx : e.1 = p!"extra_converters" ∨ e.1 = p!"extra_validators") :
    e.2 = .none ∨ ∃ qs : List Validator, e.2 = .list (qs.map fun p => .proc (number p)) := by
  have hl : lookup e.1 d = some e.2 := by
    have := lookup_named (·.1) (·.2) hk he
    simpa using this
  have key : ∀ {k qs}, Holds number d k qs → lookup k d = some e.2 →
      e.2 = .none ∨ ∃ qs : List Validator, e.2 = .list (qs.map fun p => .proc (number p)) := by
    intro k qs h hl
    rcases h with h | ⟨-, h | h⟩
    · rw [hl] at h; exact .inr ⟨qs, Option.some.inj h⟩
    · rw [hl] at h; cases h
    · rw [hl] at h; exact .inl (Option.some.inj h)
  rcases hx with hx | hx <;> rw [hx] at hl
  · exact key ha.1 hl
  · exact key ha.2 hl

theorem procs_plain {U : Uni} {limit : Option Nat} {number : Validator → Nat} (qs : List Validator) :
    Data (.list (qs.map fun p => .proc (number p))) ∧ Sound U limit (.list (qs.map fun p => .proc (number p))) := by
  constructor
  · refine .list fun v hv => ?_
    obtain ⟨_, _, rfl⟩ := List.mem_map.1 hv
    exact .proc
  · refine .list fun v hv => ?_
    obtain ⟨_, _, rfl⟩ := List.mem_map.1 hv
    exact .proc

theorem processors_plain {U : Uni} {limit : Option Nat} {number : Validator → Nat} {d : List (Str × V)} {cs ps : List Validator}
    (ha : Asked number d cs ps) (hk : (d.map (·.1)).Nodup) : ∀ e ∈ processorsIn d, Data e.2 ∧ Sound U limit e.2 := by
  intro e he
  obtain ⟨h1, h2⟩ := mem_processorsIn.1 he
  rcases asked_value ha hk h1 h2 with h | ⟨qs, h⟩ <;> rw [h]
  · exact ⟨.none, .none⟩
  · exact procs_plain qs

theorem shown_keys : ∀ f ∈ (classDef .AsyncAPI3).fields,
    (f.name = p!"extra_converters" ∨ f.name = p!"extra_validators") ∨
      (jsonName f ≠ p!"extra_converters" ∧ jsonName f ≠ p!"extra_validators") := by decide +kernel

open Classical in
/-- Processors are not written. -/
theorem written_no_processors {U : Uni} {limit : Option Nat} {v : V} (hv : Valid U limit v (.model .AsyncAPI3))
    {e : List (Str × V)} (h : dump v = .dict e) : ∀ x ∈ e, x.1 ≠ p!"extra_converters" ∧ x.1 ≠ p!"extra_validators" := by
  rw [C36_exact U limit .AsyncAPI3 (by decide) v hv] at h
  cases h
  intro x hx
  rcases List.mem_append.1 hx with hx | hx
  · obtain ⟨f, hf, rfl⟩ := List.mem_map.1 hx
    obtain ⟨hf, hs⟩ := List.mem_filter.1 hf
    have hs := of_decide_eq_true hs
    rcases shown_keys f hf with h | h
    · exact absurd ⟨rfl, h⟩ hs.1
    · exact h
  · obtain ⟨y, hy, rfl⟩ := List.mem_map.1 hx
    obtain ⟨fs, ex, set, rfl⟩ := valid_inst hv
    have := extra_extension (c := .AsyncAPI3) (by decide) hv hy
    constructor <;> (intro e; simp only at e; rw [e] at this; revert this; decide)

/-- **C55** (partial: documents that are `Regular`, as C39). A document that was accepted with package validators, written, and
read with the same validators is accepted again, and is the same document. -/
theorem C55_read_back_partial (E : Env) (hd : E.digits ≠ some 0) (number : Validator → Nat) (hn : Numbered E number) (d : List (Str × V))
    (cs ps : List Validator) (ha : Asked number d cs ps) (hk : (d.map (·.1)).Nodup)
    (hw : WellFormed (.dict (withoutProcessors d)))
    (hr : ∀ i, validate E .AsyncAPI3 (.dict (withoutProcessors d)) = some i → Regular i ∧ Keys (ReadsBack E) i)
    (j : V) (h : validate E .AsyncAPI3 (.dict d) = some j) :
    ∃ e j', dump j = .dict e ∧ validate E .AsyncAPI3 (.dict (e ++ processorsIn d)) = some j' ∧ forget j' = forget j ∧
      dump j' = dump j := by
  -- the input
  have hdata : Data (.dict d) ∧ Sound E.U E.digits (.dict d) := by
    have hall : ∀ e ∈ d, Data e.2 ∧ Sound E.U E.digits e.2 := by
      intro e he
      by_cases hx : e.1 = p!"extra_converters" ∨ e.1 = p!"extra_validators"
      · exact processors_plain ha hk e (mem_processorsIn.2 ⟨he, hx⟩)
      · simp only [not_or] at hx
        cases hw with
        | dict _ hw =>
          have := hw e (mem_without.2 ⟨he, hx⟩)
          exact ⟨wellFormed_data this, wellFormed_sound this⟩
    exact ⟨.dict fun e he => (hall e he).1, .dict hk fun e he => (hall e he).2⟩
  obtain ⟨hok, hb, rfl, hdem⟩ := (validate_validators hn ha hdata.2 hdata.1 j).1 h
  -- the document without processors
  have hsame := same_without d
  have haW : Asked number (withoutProcessors d) [] [] := asked_none fun e he => (mem_without.1 he).2
  have hokW := same_ok hsame haW hok
  have hbW : baseCheck E .AsyncAPI3 (built E (withoutProcessors d)) = true := by
    rw [baseCheck_iff E _ (by decide)] at hb ⊢
    unfold built at hb ⊢
    rw [← same_extras hsame]
    exact hb
  have hW : validate E .AsyncAPI3 (.dict (withoutProcessors d)) = some (built E (withoutProcessors d)) :=
    (validate_validators hn haW (wellFormed_sound hw) (wellFormed_data hw) _).2 ⟨hokW, hbW, rfl, by simp⟩
  obtain ⟨hreg, hkeys⟩ := hr _ hW
  obtain ⟨v', hv', hf', hd'⟩ := C39_json_partial E hd .AsyncAPI3 _ (wellFormed_json hw) _ hW hreg hkeys
  -- what is written
  have hwf := C54_written E .AsyncAPI3 _ hw _ hW
  have hvalW : Valid E.U E.digits (built E (withoutProcessors d)) (.model .AsyncAPI3) := validJson_valid (C39_json_valid E _ _ (wellFormed_json hw) _ hW)
  obtain ⟨e, he⟩ : ∃ e, dump (built E (withoutProcessors d)) = .dict e :=
    ⟨_, C36_exact E.U E.digits .AsyncAPI3 (by decide) _ hvalW⟩
  have hnoproc := written_no_processors hvalW he
  rw [he] at hv' hwf
  obtain ⟨hokE, hbE, rfl⟩ := json_document (wellFormed_json hwf) hv'
  -- reading it with the processors
  have haE : Asked number e [] [] := asked_none hnoproc
  have hlook : ∀ k, k = p!"extra_converters" ∨ k = p!"extra_validators" → lookup k (e ++ processorsIn d) = lookup k d := by
    intro k hk
    rw [Pyd.lookup_append, lookup_none_of (d := e) fun x hx => by
      obtain ⟨h1, h2⟩ := hnoproc x hx
      rcases hk with rfl | rfl
      · exact h1
      · exact h2]
    exact lookup_processorsIn hk
  have haP : Asked number (e ++ processorsIn d) cs ps := by
    obtain ⟨h1, h2⟩ := ha
    unfold Asked Holds at *
    rw [hlook _ (.inl rfl), hlook _ (.inr rfl)]
    exact ⟨h1, h2⟩
  have hsameE : SameApartFromProcessors e (e ++ processorsIn d) := same_with
  have hdataE : Data (.dict (e ++ processorsIn d)) ∧ Sound E.U E.digits (.dict (e ++ processorsIn d)) := by
    have hP := processors_plain (U := E.U) (limit := E.digits) ha hk
    cases hwf with
    | dict hn' hw' =>
      constructor
      · refine .dict fun x hx => ?_
        rcases List.mem_append.1 hx with hx | hx
        · exact wellFormed_data (hw' x hx)
        · exact (hP x hx).1
      · refine .dict ?_ fun x hx => ?_
        · rw [List.map_append, List.nodup_append]
          refine ⟨hn', hk.sublist (List.filter_sublist.map _), fun a ha b hb hab => ?_⟩
          subst hab
          obtain ⟨x, hx, rfl⟩ := List.mem_map.1 ha
          obtain ⟨y, hy, hxy⟩ := List.mem_map.1 hb
          obtain ⟨h1, h2⟩ := hnoproc x hx
          rcases (mem_processorsIn.1 hy).2 with h3 | h3
          · exact h1 (hxy ▸ h3)
          · exact h2 (hxy ▸ h3)
        · rcases List.mem_append.1 hx with hx | hx
          · exact wellFormed_sound (hw' x hx)
          · exact (hP x hx).2
  have hokP := same_ok hsameE haP hokE
  have hbP : baseCheck E .AsyncAPI3 (built E (e ++ processorsIn d)) = true := by
    rw [baseCheck_iff E _ (by decide)] at hbE ⊢
    unfold built at hbE ⊢
    rw [← same_extras hsameE]
    exact hbE
  refine ⟨e, built E (e ++ processorsIn d), (same_dump hsame).trans he, (validate_validators hn haP hdataE.2 hdataE.1 _).2
    ⟨hokP, hbP, rfl, fun p hp => ?_⟩, ?_, ?_⟩
  · -- the demands
    have h1 : Demands E.U (built E (withoutProcessors d)) p := by
      have h0 := hdem p hp
      have htw := same_fields (E := E) hsame ha haW
      unfold built at h0 ⊢
      rw [← same_extras hsame]
      exact twin_demands htw p h0
    have h2 := demands_both (grows_forget _ _ hf'.symm) (grows_forget _ _ hf') h1
    have htw := same_fields (E := E) hsameE haE haP
    unfold built at h2 ⊢
    rw [← same_extras hsameE]
    exact twin_demands htw p h2
  · -- the same document
    have hval : ∀ f ∈ (classDef .AsyncAPI3).fields, forget (valueOf E .AsyncAPI3 (e ++ processorsIn d) f) = forget (valueOf E .AsyncAPI3 d f) := by
      intro f hf
      by_cases hx : f.name = p!"extra_converters" ∨ f.name = p!"extra_validators"
      · obtain ⟨hal, -⟩ := processor_fields f hf hx
        have : findKey f (e ++ processorsIn d) = findKey f d := by
          unfold findKey
          rw [hal]
          simp only [hlook _ hx]
        unfold valueOf one
        rw [this]
      · have e1 : valueOf E .AsyncAPI3 (e ++ processorsIn d) f = valueOf E .AsyncAPI3 e f := by
          unfold valueOf; rw [same_one hsameE hf hx]
        have e2 : valueOf E .AsyncAPI3 (withoutProcessors d) f = valueOf E .AsyncAPI3 d f := by
          unfold valueOf; rw [same_one hsame hf hx]
        rw [e1, ← e2]
        have := congrArg (fun i => V.attr i f.name) hf'
        simp only [attr_forget] at this
        unfold built at this
        rwa [attr_fieldsOf hf, attr_fieldsOf hf] at this
    have hext : forgetDict (extrasOf .AsyncAPI3 (e ++ processorsIn d)) = forgetDict (extrasOf .AsyncAPI3 d) := by
      rw [← same_extras hsameE, same_extras hsame]
      unfold built at hf'
      simp only [forget, V.inst.injEq] at hf'
      exact hf'.2.2.1
    unfold built
    simp only [forget, V.inst.injEq, true_and, and_true]
    refine ⟨?_, hext⟩
    unfold fieldsOf
    rw [forgetDict_map, forgetDict_map, List.map_map, List.map_map]
    exact List.map_congr_left fun f hf => Prod.ext rfl (hval f hf)
  · rw [← same_dump hsameE, hd', same_dump hsame]

/-! ### A concrete case -/

/-- A document with References, to be checked by the unified validator and the tags validator, as converter and as validator. -/
def twice : List (Str × V) := askedInput p!"#/components/messages/n" [.tags] [.unified, .externalDocs]

set_option maxRecDepth 20000

theorem twice_json : WellFormed (.dict (withoutProcessors twice)) :=
  json_wellFormed _ rfl (plain_input (U := .ascii) (limit := none) rfl).2

theorem twice_accepted : (validate packageEnv .AsyncAPI3 (.dict twice)).isSome = true := by decide +kernel

/-- It meets the conditions of C55: it is accepted, written, and read again with its validators. -/
example : ∃ j e j', validate packageEnv .AsyncAPI3 (.dict twice) = some j ∧ dump j = .dict e ∧
    validate packageEnv .AsyncAPI3 (.dict (e ++ processorsIn twice)) = some j' ∧ forget j' = forget j ∧ dump j' = dump j := by
  obtain ⟨j, hj⟩ := Option.isSome_iff_exists.1 twice_accepted
  have hreg : (validate packageEnv .AsyncAPI3 (.dict (withoutProcessors twice))).all (fun i => isRegular i && noKafka i) = true := by
    decide +kernel
  obtain ⟨e, j', h⟩ := C55_read_back_partial packageEnv (by intro h; cases h) numberOf (by intro p; cases p <;> rfl) twice
    [.tags] [.unified, .externalDocs] ⟨.inl rfl, .inl rfl⟩ (by decide) twice_json (fun i hi => by
      rw [hi] at hreg
      simp only [Option.all_some, Bool.and_eq_true] at hreg
      exact ⟨isRegular_sound _ hreg.1, keys_free _ hreg.2⟩) j hj
  exact ⟨j, e, j', hj, h⟩
/-- The validators are among what is read. -/
example : (processorsIn twice).map (·.1) = [p!"extra_converters", p!"extra_validators"] := by decide
/-- What is written of it is JSON without duplicate keys (C54). -/
example : ∃ v, validate packageEnv .AsyncAPI3 (.dict (withoutProcessors twice)) = some v ∧ WellFormed (dump v) := by
  obtain ⟨v, hv⟩ := Option.isSome_iff_exists.1 (show (validate packageEnv .AsyncAPI3 (.dict (withoutProcessors twice))).isSome = true by
    decide +kernel)
  exact ⟨v, hv, C54_written packageEnv .AsyncAPI3 _ twice_json v hv⟩

/-! ### Where it fails -/

/-- **C55** without its condition. -/
def C55_Claim : Prop := ∀ (E : Env) (number : Validator → Nat), E.digits ≠ some 0 → Numbered E number →
  ∀ (d : List (Str × V)) (cs ps : List Validator), Asked number d cs ps → (d.map (·.1)).Nodup →
    WellFormed (.dict (withoutProcessors d)) → ∀ j e, validate E .AsyncAPI3 (.dict d) = some j → dump j = .dict e →
      (validate E .AsyncAPI3 (.dict (e ++ processorsIn d))).isSome = true

/-- A schema with a `$ref` that leads nowhere, and a keyword given as null. -/
def nullKeyword : List (Str × V) := [
  (p!"asyncapi", .str p!"3.0.0"),
  (p!"info", .dict [(p!"title", .str p!"t"), (p!"version", .str p!"1")]),
  (p!"components", .dict [(p!"schemas", .dict [(p!"s", .dict [(p!"$ref", .str p!"#/nowhere"), (p!"deprecated", .none)])])]),
  (p!"extra_validators", .list [.proc 0])]

/-- It is false: the schema is taken for a Schema, of which nothing is checked; written, it is a Reference that leads
nowhere, and the document is refused by the same validator. -/
theorem C55_refuted : ¬ C55_Claim := by
  intro h
  obtain ⟨j, hj⟩ := Option.isSome_iff_exists.1 (show (validate packageEnv .AsyncAPI3 (.dict nullKeyword)).isSome = true by
    decide +kernel)
  have hbad : (match validate packageEnv .AsyncAPI3 (.dict nullKeyword) with
      | some j => match dump j with
        | .dict e => !(validate packageEnv .AsyncAPI3 (.dict (e ++ processorsIn nullKeyword))).isSome
        | _ => false
      | none => false) = true := by decide +kernel
  rw [hj] at hbad
  split at hbad
  · rename_i j' hj'
    cases hj'
    split at hbad
    · rename_i e he
      have := h packageEnv numberOf (by intro h; cases h) (by intro p; cases p <;> rfl) nullKeyword [] [.unified]
        ⟨.inr ⟨rfl, .inl rfl⟩, .inl rfl⟩ (by decide) (json_wellFormed _ rfl (plain_input (U := .ascii) (limit := none) rfl).2)
        j e hj he
      rw [this] at hbad
      cases hbad
    · cases hbad
  · cases hbad

end Verif.Props
