import Verif.Lemmas.Accepted
import Verif.Props.RoundTrip
/-!
# C48, C49: conforming JSON

`Verif/Spec/Conform.lean` is a grammar of AsyncAPI documents as JSON. What the package writes conforms to it (C48), and what
conforms to it the package reads (C49).
-/
namespace Verif.Props
open Verif Verif.Gen Verif.Spec Verif.Pyd

theorem keyedTable : keyedObjects.all (fun e => fits (.keyed e.2) (.model e.1)) = true := by decide +kernel

theorem allTyped : Cls.all.all (fun c => grammar.any (fun e => e.1 == c) || keyedObjects.any fun e => e.1 == c) = true := by
  decide +kernel

theorem typeOf_fits {c : Cls} {t : STy} (h : TypeOf c t) : fits t (.model c) = true := by
  rcases h with ⟨rs, hrs, rfl⟩ | ⟨u, hu, rfl⟩
  · obtain ⟨hk, -, -⟩ := kind_cases hrs
    simp only [fits, Bool.and_eq_true, beq_self_eq_true, bne_iff_ne, true_and]
    exact hk
  · exact List.all_eq_true.1 keyedTable _ hu

/-- The grammar covers every class. -/
theorem C48_covers (c : Cls) : ∃ t, TypeOf c t := by
  have := List.all_eq_true.1 allTyped c (Cls.mem_all c)
  simp only [Bool.or_eq_true, List.any_eq_true, beq_iff_eq] at this
  rcases this with ⟨⟨c', rs⟩, h, rfl⟩ | ⟨⟨c', u⟩, h, rfl⟩
  · exact ⟨_, .inl ⟨rs, h, rfl⟩⟩
  · exact ⟨_, .inr ⟨u, h, rfl⟩⟩

/-- **C48.** Whatever JSON an object was read from, what is written of it conforms to the grammar: required fields are there,
every field has its JSON name, type and length, nothing else is there but extensions (or free fields of schemas), and the
rules between fields hold; so at every depth. -/
theorem C48_written (E : Env) (hd : E.digits ≠ some 0) (c : Cls) (t : STy) (ht : TypeOf c t) (j : V)
    (hj : j.isJson = true) (v : V) (h : validate E c j = some v) : Conforms (worldOf E fun _ _ => False) (dump v) t :=
  written_conforms hd (C39_json_valid E c j hj v h) t (typeOf_fits ht)

/-- **C48** for instances made in any other way, if they are valid and made of what JSON gives. -/
theorem C48_instance (E : Env) (hd : E.digits ≠ some 0) (c : Cls) (t : STy) (ht : TypeOf c t) (v : V)
    (h : ValidJson E.U E.digits (fun k s => E.url k s = some s) v (.model c)) :
    Conforms (worldOf E fun _ _ => False) (dump v) t :=
  written_conforms hd h t (typeOf_fits ht)

/-- What conformance says of a fixed field of an object. -/
theorem conforms_field {W : World} {c : Cls} {d : List (Str × V)} (h : Conforms W (.dict d) (.object c)) {rs : List Row}
    (hrs : (c, rs) ∈ grammar) {r : Row} (hr : r ∈ rs) {x : V} (hx : lookup r.name d = some x) : Conforms W x r.ty := by
  cases h with
  | object hrs' h1 h2 h3 h4 h5 =>
    cases rows_unique hrs hrs'
    exact h2 r hr _ (lookup_some_mem hx) rfl

/-- What conformance says of a required field of an object. -/
theorem conforms_required {W : World} {c : Cls} {d : List (Str × V)} (h : Conforms W (.dict d) (.object c)) {rs : List Row}
    (hrs : (c, rs) ∈ grammar) {r : Row} (hr : r ∈ rs) (hq : r.required = true) :
    ∃ x, lookup r.name d = some x ∧ Conforms W x r.ty := by
  have h' := h
  cases h with
  | object hrs' h1 h2 h3 h4 h5 =>
    cases rows_unique hrs hrs'
    obtain ⟨x, hx⟩ := h1 r hr hq
    exact ⟨x, hx, conforms_field h' hrs hr hx⟩

/-- **C48**, unfolded once: what is written of an object is a JSON object, in which each required field of the
specification is there and conforms, and each other fixed field that is there does. -/
theorem C48_fields (E : Env) (hd : E.digits ≠ some 0) (c : Cls) (rs : List Row) (hrs : (c, rs) ∈ grammar)
    (j : V) (hj : j.isJson = true) (v : V) (h : validate E c j = some v) : ∃ d, dump v = .dict d ∧
      (∀ r ∈ rs, r.required = true → ∃ x, lookup r.name d = some x) ∧
      (∀ r ∈ rs, ∀ x, lookup r.name d = some x → Conforms (worldOf E fun _ _ => False) x r.ty) ∧
      JsonRule E.U E.digits c d := by
  have hc := C48_written E hd c _ (.inl ⟨rs, hrs, rfl⟩) j hj v h
  generalize dump v = w at hc
  have hc' := hc
  cases hc' with
  | object hrs' h1 h2 h3 h4 h5 =>
    cases rows_unique hrs hrs'
    exact ⟨_, rfl, h1, fun r hr x hx => conforms_field hc hrs hr hx, h5⟩

/-- **C49.** JSON that conforms to the grammar, whose schemas have no keys that are Python names of declared fields, is
accepted. -/
theorem C49_accepted_partial (E : Env) (c : Cls) (t : STy) (ht : TypeOf c t) (j : V) (h : Conforms (worldOf E pythonNames) j t) :
    ∃ v, validate E c j = some v := by
  have := conforming_accepted (R := pythonNames) (fun _ _ h => h) h _ (typeOf_fits ht)
  obtain ⟨⟨v, sc⟩, hv⟩ := Option.isSome_iff_exists.1 this
  exact ⟨v, by unfold validate; rw [hv]; rfl⟩

/-- **C49.** Such JSON is accepted, and what is then written conforms. -/
theorem C49_preserved_partial (E : Env) (hd : E.digits ≠ some 0) (c : Cls) (t : STy) (ht : TypeOf c t) (j : V)
    (h : Conforms (worldOf E pythonNames) j t) :
    ∃ v, validate E c j = some v ∧ Conforms (worldOf E fun _ _ => False) (dump v) t := by
  obtain ⟨v, hv⟩ := C49_accepted_partial E c t ht j h
  exact ⟨v, hv, C48_written E hd c t ht j (conforms_json h) v hv⟩

/-! ### Concrete cases -/

set_option maxRecDepth 20000

theorem conforms_object {W : World} {c : Cls} {rs : List Row} {d : List (Str × V)} (hrs : (c, rs) ∈ grammar)
    (h1 : rs.all (fun r => (!r.required || (lookup r.name d).isSome) && r.max == none) = true)
    (hn : (rs.map (·.name)).Nodup)
    (h2 : ∀ e ∈ d, (∃ r ∈ rs, e.1 = r.name ∧ Conforms W e.2 r.ty) ∨
      (e.1 ∉ rs.map (·.name) ∧ OtherKey W c e.1 ∧ e.2.isJson = true))
    (h3 : JsonRule W.U W.limit c d) : Conforms W (.dict d) (.object c) := by
  have h1 := List.all_eq_true.1 h1
  refine .object hrs ?_ ?_ ?_ ?_ h3
  · intro r hr hq
    have := h1 r hr
    simp only [hq, Bool.not_true, Bool.false_or, Bool.and_eq_true] at this
    exact Option.isSome_iff_exists.1 this.1
  · intro r hr e he hk
    rcases h2 e he with ⟨r', hr', hk', h⟩ | ⟨hx, -⟩
    · have : r = r' := by
        have hinj := List.inj_on_of_nodup_map hn
        exact hinj hr hr' (hk.symm.trans hk')
      rw [this]; exact h
    · exact absurd (List.mem_map_of_mem (f := (·.name)) hr) (by rw [← hk]; exact hx)
  · intro r hr s m _ hm
    have := h1 r hr
    rw [hm] at this
    simp at this
  · intro e he
    rcases h2 e he with ⟨r', hr', hk', -⟩ | ⟨-, h⟩
    · exact .inl ⟨r', hr', hk'⟩
    · exact .inr h

/-- A document with a channel that has a parameter, and an extension. -/
def smallDocument : List (Str × V) := [(p!"asyncapi", .str p!"3.0.0"),
  (p!"info", .dict [(p!"title", .str p!"T"), (p!"version", .str p!"1")]),
  (p!"channels", .dict [(p!"c", .dict [(p!"address", .str p!"a/{x}"), (p!"parameters", .dict [(p!"x", .dict [])])])]),
  (p!"x-a", .int 1)]

/-- It conforms: the hypotheses of C49 are met. -/
theorem smallDocument_conforms {R : Cls → Str → Prop} {F : Prop} :
    Conforms (worldOf exactEnv R F) (.dict smallDocument) (.object .AsyncAPI3) := by
  have hp : Conforms (worldOf exactEnv R F) (.dict []) (.object .Parameter) := by
    refine conforms_object (List.mem_of_getElem (i := 7) (h := by decide +kernel) rfl) (by decide +kernel) (by decide +kernel)
      (by simp) trivial
  have hc : Conforms (worldOf exactEnv R F)
      (.dict [(p!"address", .str p!"a/{x}"), (p!"parameters", .dict [(p!"x", .dict [])])]) (.object .Channel) := by
    refine conforms_object (rs := channelRows) (List.mem_of_getElem (i := 6) (h := by decide +kernel) rfl) (by decide +kernel)
      (by decide +kernel) ?_ ?_
    · simp only [List.forall_mem_cons, List.not_mem_nil, false_implies, implies_true, and_true]
      refine ⟨.inl ⟨_, List.mem_cons_self, rfl, .either List.mem_cons_self (by simp [freeMap]) .string⟩,
        .inl ⟨_, List.mem_of_getElem (i := 6) (h := by decide) rfl, rfl, .keyed ?_ ?_⟩⟩
      · simp only [List.forall_mem_cons, List.not_mem_nil, false_implies, implies_true, and_true]
        exact (C20_keys_exact [p!"x"]).1 (by decide +kernel) _ List.mem_cons_self
      · simp only [List.forall_mem_cons, List.not_mem_nil, false_implies, implies_true, and_true]
        exact .either List.mem_cons_self (by simp [freeMap]) hp
    · intro _
      exact ⟨_, rfl, p!"a/", p!"x", [], rfl, by decide, by decide⟩
  have hi : Conforms (worldOf exactEnv R F) (.dict [(p!"title", .str p!"T"), (p!"version", .str p!"1")]) (.object .Info) := by
    refine conforms_object (rs := infoRows) (List.mem_of_getElem (i := 1) (h := by decide +kernel) rfl) (by decide +kernel)
      (by decide +kernel) ?_ trivial
    simp only [List.forall_mem_cons, List.not_mem_nil, false_implies, implies_true, and_true]
    exact ⟨.inl ⟨_, List.mem_cons_self, rfl, .string⟩,
      .inl ⟨_, List.mem_of_getElem (i := 1) (h := by decide) rfl, rfl, .string⟩⟩
  refine conforms_object (rs := documentRows) (List.mem_of_getElem (i := 0) (h := by decide +kernel) rfl) (by decide +kernel)
      (by decide +kernel) ?_ ⟨_, rfl, (C23_exact exactEnv.U exactEnv.digits _).1 (by decide +kernel)⟩
  simp only [smallDocument, List.forall_mem_cons, List.not_mem_nil, false_implies, implies_true, and_true]
  refine ⟨.inl ⟨_, List.mem_cons_self, rfl, .string⟩,
    .inl ⟨_, List.mem_of_getElem (i := 2) (h := by decide) rfl, rfl, hi⟩,
    .inl ⟨_, List.mem_of_getElem (i := 5) (h := by decide) rfl, rfl, .keyed ?_ ?_⟩,
    .inr ⟨by decide, .inr ⟨by decide, .inl ⟨p!"a", rfl, by decide, ?_⟩⟩, rfl⟩⟩
  · simp only [List.forall_mem_cons, List.not_mem_nil, false_implies, implies_true, and_true]
    exact (C20_keys_exact [p!"c"]).1 (by decide +kernel) _ List.mem_cons_self
  · simp only [List.forall_mem_cons, List.not_mem_nil, false_implies, implies_true, and_true]
    exact .either List.mem_cons_self (by simp [freeMap]) hc
  · show ∀ c ∈ p!"a", exactEnv.U.word c = true ∨ exactEnv.U.digit c = true ∨ c = '.' ∨ c = '-' ∨ c = '_'
    decide +kernel

/-- It is accepted, as C49 says, and so C48 applies to it. -/
example : (validate exactEnv .AsyncAPI3 (.dict smallDocument)).isSome = true := by
  obtain ⟨v, hv⟩ := C49_accepted_partial exactEnv .AsyncAPI3 _ (.inl ⟨documentRows, List.mem_of_getElem (i := 0) (h := by decide +kernel) rfl, rfl⟩) _
    smallDocument_conforms
  rw [hv]; rfl

/-- The converse of C49 fails: the package accepts a document without `asyncapi`, which does not conform (DESIGN.md, finding 6). -/
theorem C49_converse_refuted :
    (validate exactEnv .AsyncAPI3 (.dict [(p!"info", .dict [(p!"title", .str p!"T"), (p!"version", .str p!"1")])])).isSome = true ∧
    ∀ W, ¬ Conforms W (.dict [(p!"info", .dict [(p!"title", .str p!"T"), (p!"version", .str p!"1")])]) (.object .AsyncAPI3) := by
  refine ⟨by decide +kernel, fun W h => ?_⟩
  obtain ⟨x, hx, -⟩ := conforms_required h (rs := documentRows) (List.mem_of_getElem (i := 0) (h := by decide +kernel) rfl)
    (r := req p!"asyncapi" .string) List.mem_cons_self rfl
  cases hx

/-- **C49 is false without the restriction on names**: a JSON Schema may have a key `external_docs` like any other, but the
package reads it as `externalDocs`. -/
theorem C49_refuted : Conforms (worldOf exactEnv fun _ _ => False) (.dict [(p!"external_docs", .int 5)]) (.object .Schema) ∧
    validate exactEnv .Schema (.dict [(p!"external_docs", .int 5)]) = none := by
  constructor
  · refine conforms_object (List.mem_of_getElem (i := 19) (h := by decide +kernel) rfl) (by decide +kernel) (by decide +kernel)
      ?_ trivial
    simp only [List.forall_mem_cons, List.not_mem_nil, false_implies, implies_true, and_true]
    exact .inr ⟨by decide, .inl ⟨by decide, not_false⟩, rfl⟩
  · have : (validate exactEnv .Schema (.dict [(p!"external_docs", .int 5)])).isSome = false := by decide +kernel
    exact Option.not_isSome_iff_eq_none.1 (by rw [this]; simp)

end Verif.Props
