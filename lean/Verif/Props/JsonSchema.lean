import Verif.Lemmas.JsonTyped
import Verif.Props.Conform
import Verif.Props.Stable
/-!
# C73: the generated JSON Schema

`C.model_json_schema()` describes exactly the JSON that has the declared types, and so everything the package writes, everything that
conforms to AsyncAPI 3.0.0, and every input that is accepted without conversion.
-/
namespace Verif.Props
open Verif Verif.Gen Verif.Spec Verif.Pyd Verif.JsonSchema

/-- **C73.** A value satisfies the schema of a class iff it is JSON of the declared types: an object with the required fields, each field that
is there being of its type and length, and no other keys if the class is closed; at every depth. -/
theorem C73_exact (mode : Mode) (c : Cls) (v : V) :
    Satisfies (modelJsonSchema mode c) v (modelJsonSchema mode c) ↔ TypedJson v (.model c) := by
  rw [modes_eq]
  exact root_agrees c v

/-- **C73.** The schema for validation and that for serialization are the same. -/
theorem C73_modes (c : Cls) : modelJsonSchema .serialization c = modelJsonSchema .validation c := modes_eq _ c

/-- **C73.** The schema is well made: known keywords with values that make sense, no key twice, and all references lead to definitions. -/
theorem C73_well_made (mode : Mode) (c : Cls) : WellMade (modelJsonSchema mode c) (modelJsonSchema mode c) := by
  rw [modes_eq]
  exact wellMade_root c

/-- **C73.** Whatever JSON an object was read from, what is written of it satisfies the schema of its class. -/
theorem C73_written (E : Env) (hu : UrlsFit fun k s => E.url k s = some s) (mode : Mode) (c : Cls) (j : V) (hj : j.isJson = true) (v : V)
    (h : validate E c j = some v) : Satisfies (modelJsonSchema mode c) (dump v) (modelJsonSchema mode c) :=
  (C73_exact mode c _).2 (written_typed hu (C39_json_valid E c j hj v h))

/-- **C73** for instances made in any other way, if they are valid and made of what JSON gives. -/
theorem C73_instance (E : Env) (hu : UrlsFit fun k s => E.url k s = some s) (mode : Mode) (c : Cls) (v : V)
    (h : ValidJson E.U E.digits (fun k s => E.url k s = some s) v (.model c)) :
    Satisfies (modelJsonSchema mode c) (dump v) (modelJsonSchema mode c) :=
  (C73_exact mode c _).2 (written_typed hu h)

/-- **C73.** JSON that conforms to AsyncAPI 3.0.0 satisfies the schema. -/
theorem C73_conforming (W : World) (hu : UrlsFit W.isUrl) (mode : Mode) (c : Cls) (t : STy) (ht : TypeOf c t) (j : V) (h : Conforms W j t) :
    Satisfies (modelJsonSchema mode c) j (modelJsonSchema mode c) :=
  (C73_exact mode c _).2 (conforms_typed hu h _ (typeOf_fits ht))

/-- **C73.** JSON that the package accepts satisfies the schema, if nothing in it had to be converted (numerals, 0 and 1 for booleans) and
fields are given by their JSON names. -/
theorem C73_accepted (E : Env) (hu : UrlsFit fun k s => (E.url k s).isSome = true) (mode : Mode) (c : Cls) (j : V) (hj : j.isJson = true)
    (hl : Literally (Accepts E) j (.model c)) (v : V) (h : validate E c j = some v) :
    Satisfies (modelJsonSchema mode c) j (modelJsonSchema mode c) := by
  unfold validate at h
  obtain ⟨⟨y, sc⟩, hp, -⟩ := Option.map_eq_some_iff.1 h
  exact (C73_exact mode c _).2 (accepted_typed hu j hj _ y ⟨sc, hp⟩ hl)

/-! ### Limits -/

set_option maxRecDepth 20000

/-- Rules of the package's own validators are not in the schema: this satisfies it, and is refused. -/
theorem C73_more (E : Env) (mode : Mode) : ∃ j, Satisfies (modelJsonSchema mode .CorrelationID) j (modelJsonSchema mode .CorrelationID) ∧
    validate E .CorrelationID j = none := by
  refine ⟨.dict [(p!"location", .str p!"$header#/id")], (C73_exact _ _ _).2 (.object (by decide) ?_ ?_ ?_ ?_), rfl⟩
  · intro f hf _
    simp only [classDef, defCorrelationID, List.mem_cons, List.not_mem_nil, or_false] at hf
    rcases hf with rfl | rfl
    · rename_i h; cases h
    · exact ⟨_, rfl⟩
  · intro f hf _ x hx
    simp only [classDef, defCorrelationID, List.mem_cons, List.not_mem_nil, or_false] at hf
    rcases hf with rfl | rfl
    · cases hx
    · cases hx; exact .str
  · intro f hf m s hm
    simp only [classDef, defCorrelationID, List.mem_cons, List.not_mem_nil, or_false] at hf
    rcases hf with rfl | rfl <;> cases hm
  · intro h; cases h

/-- Conversions and Python names are not in the schema: these are accepted, and do not satisfy it. -/
theorem C73_fewer (E : Env) (mode : Mode) (j : V)
    (hj : j = .dict [(p!"sessionExpiryInterval", .bool true)] ∨ j = .dict [(p!"session_expiry_interval", .int 60)]) :
    (validate E .MQTT5ServerBindings j).isSome = true ∧
    ¬ Satisfies (modelJsonSchema mode .MQTT5ServerBindings) j (modelJsonSchema mode .MQTT5ServerBindings) := by
  have hm : (⟨p!"session_expiry_interval", some p!"sessionExpiryInterval",
      .union [.int, .model .Schema, .model .Reference, .none], .null, false, true, none⟩ : FieldDef Cls) ∈ (classDef .MQTT5ServerBindings).fields :=
    List.mem_cons_self
  rw [C73_exact]
  rcases hj with rfl | rfl
  · refine ⟨rfl, fun h => ?_⟩
    cases h with
    | root hk => cases hk
    | object _ _ h =>
      have := h _ hm rfl (.bool true) rfl
      cases this with
      | union ht h =>
        simp only [List.mem_cons, List.not_mem_nil, or_false] at ht
        rcases ht with rfl | rfl | rfl | rfl
        · cases h
        · cases h with | root hk => cases hk
        · cases h with | root hk => cases hk
        · cases h
  · refine ⟨rfl, fun h => ?_⟩
    cases h with
    | root hk => cases hk
    | object _ _ _ _ h =>
      obtain ⟨f, hf, _, e⟩ := h rfl _ List.mem_cons_self
      simp only [classDef, defMQTT5ServerBindings, List.mem_cons, List.not_mem_nil, or_false] at hf
      rcases hf with rfl | rfl <;> exact absurd e (by decide)

/-! ### Concrete cases -/

/-- URLs have between 1 and 2083 characters. -/
def urlEnv : Env := { exactEnv with
  url := fun _ s => if s ≠ [] ∧ s.length ≤ 2083 then some s else none
  url_idem := by
    intro k s u h
    split at h
    · cases h; rw [if_pos ‹_›]
    · cases h }

theorem urlEnv_fit : (UrlsFit fun k s => (urlEnv.url k s).isSome = true) ∧ UrlsFit fun k s => urlEnv.url k s = some s := by
  constructor
  · intro k s h
    simp only [urlEnv] at h
    split at h
    · rename_i hs; exact ⟨hs.1, fun _ => hs.2⟩
    · cases h
  · intro k s h
    simp only [urlEnv] at h
    split at h
    · rename_i hs; exact ⟨hs.1, fun _ => hs.2⟩
    · cases h

/-- The schema of bindings: nullable, a reference, a closed class. -/
example : lookup p!"properties" (classSchema .validation .MQTT5ServerBindings) = some (.dict [
    (p!"sessionExpiryInterval", .dict [(p!"anyOf", .list [.dict [(p!"type", .str p!"integer")],
      .dict [(p!"$ref", .str p!"#/$defs/Schema")], .dict [(p!"$ref", .str p!"#/$defs/Reference")], .dict [(p!"type", .str p!"null")]])]),
    (p!"bindingVersion", .dict [(p!"type", .str p!"string")])]) := rfl

/-- tests/models/test_helpers.py:93-95, tests/models/test_asyncapi.py:546-549. -/
example : tySchema .email = .dict [(p!"type", .str p!"string"), (p!"format", .str p!"email")] := rfl
example (mode : Mode) : ∃ d, modelJsonSchema mode .AsyncAPI3 = .dict d := ⟨_, rfl⟩

/-- What is written of a document satisfies the schema. -/
example : ∃ v, validate urlEnv .AsyncAPI3 aDocument = some v ∧
    Satisfies (modelJsonSchema .serialization .AsyncAPI3) (dump v) (modelJsonSchema .serialization .AsyncAPI3) :=
  ⟨((validate urlEnv .AsyncAPI3 aDocument).getD .none), rfl, C73_written urlEnv urlEnv_fit.2 _ _ aDocument rfl _ rfl⟩

/-- There is JSON that conforms and satisfies it. -/
example : ∃ t j, TypeOf .AsyncAPI3 t ∧ Conforms (worldOf urlEnv fun _ _ => False) j t ∧
    Satisfies (modelJsonSchema .validation .AsyncAPI3) j (modelJsonSchema .validation .AsyncAPI3) := by
  obtain ⟨t, ht⟩ := C48_covers .AsyncAPI3
  have h := C48_written urlEnv (by decide) .AsyncAPI3 t ht aDocument rfl ((validate urlEnv .AsyncAPI3 aDocument).getD .none) rfl
  exact ⟨t, _, ht, h, C73_conforming _ urlEnv_fit.1 _ _ t ht _ h⟩

/-- An input that is accepted without conversion. -/
def someBindings : V := .dict [(p!"sessionExpiryInterval", .int 60), (p!"bindingVersion", .str p!"0.2.0")]

theorem tried_keeps {P : V → Ty Cls → Prop} (step : ∀ v t pre v' t', P v t → Portion v t pre v' t' → P v' t') {v w : V} {t u : Ty Cls}
    (h : Tried v t w u) : P v t → P w u := by
  induction h with
  | self => exact id
  | part hp _ ih => exact fun h => ih (step _ _ _ _ _ h hp)

theorem someBindings_literal (E : Env) : Literally (Accepts E) someBindings (.model .MQTT5ServerBindings) := by
  have key : ∀ {w u}, Tried someBindings (.model .MQTT5ServerBindings) w u →
      (w = someBindings ∧ u = .model .MQTT5ServerBindings) ∨ w = .int 60 ∨ (w = .str p!"0.2.0" ∧ u = .str) := by
    intro w u h
    refine tried_keeps (P := fun w u => (w = someBindings ∧ u = .model .MQTT5ServerBindings) ∨ w = .int 60 ∨ (w = .str p!"0.2.0" ∧ u = .str))
      ?_ h (.inl ⟨rfl, rfl⟩)
    intro v t pre v' t' hv hp
    have hd : ∀ c f k x, GivenIn c someBindings f k x → lookup k [(p!"sessionExpiryInterval", V.int 60), (p!"bindingVersion", .str p!"0.2.0")] = some x ∧
        (f.alias = some k ∨ k = f.name) := by
      rintro c f k x ⟨⟨d, e, h⟩ | ⟨_, _, _, e, _⟩, h'⟩
      · cases e; exact ⟨h, h'.imp id (·.1)⟩
      · cases e
    rcases hv with ⟨rfl, rfl⟩ | rfl | ⟨rfl, rfl⟩
    · cases hp with
      | field hk hf hg =>
        obtain ⟨h1, h2⟩ := hd _ _ _ _ hg
        simp only [classDef, defMQTT5ServerBindings, List.mem_cons, List.not_mem_nil, or_false] at hf
        rcases hf with rfl | rfl
        · rcases h2 with h2 | rfl
          · cases h2; cases h1; exact .inr (.inl rfl)
          · cases h1
        · rcases h2 with h2 | rfl
          · cases h2; cases h1; exact .inr (.inr ⟨rfl, rfl⟩)
          · cases h1
      | root hk => cases hk
    · cases hp with
      | field _ _ hg =>
        obtain ⟨⟨d, e, _⟩ | ⟨_, _, _, e, _⟩, _⟩ := hg <;> cases e
      | only => exact .inr (.inl rfl)
      | one => exact .inr (.inl rfl)
    · cases hp
  constructor
  · intro w y h _
    rcases key h with ⟨-, h⟩ | h | ⟨-, h⟩
    · cases h
    · exact ⟨60, h⟩
    · cases h
  · intro w y h ha
    rcases key h with ⟨-, h⟩ | h | ⟨-, h⟩
    · cases h
    · subst h
      obtain ⟨sc, ha⟩ := ha
      cases ha
    · cases h
  · intro d c y f k x h _ hf hg
    rcases key h with ⟨h1, h2⟩ | h | ⟨h, -⟩
    · cases h1
      cases h2
      simp only [classDef, defMQTT5ServerBindings, List.mem_cons, List.not_mem_nil, or_false] at hf
      obtain ⟨h1, h2⟩ := hg
      rcases hf with rfl | rfl
      · rcases h2 with h2 | ⟨rfl, -⟩
        · cases h2; rfl
        · cases h1
      · rcases h2 with h2 | ⟨rfl, -⟩
        · cases h2; rfl
        · cases h1
    · cases h
    · cases h

example : ∃ v, validate urlEnv .MQTT5ServerBindings someBindings = some v ∧
    Satisfies (modelJsonSchema .validation .MQTT5ServerBindings) someBindings (modelJsonSchema .validation .MQTT5ServerBindings) :=
  ⟨((validate urlEnv .MQTT5ServerBindings someBindings).getD .none), rfl,
    C73_accepted urlEnv urlEnv_fit.1 _ _ someBindings rfl (someBindings_literal _) _ rfl⟩

/-- Not everything satisfies a schema: a required field is missing. -/
example (mode : Mode) : ¬ Satisfies (modelJsonSchema mode .AsyncAPI3) (.dict []) (modelJsonSchema mode .AsyncAPI3) := by
  rw [C73_exact]
  intro h
  cases h with
  | root hk => cases hk
  | object _ h =>
    obtain ⟨x, hx⟩ := h ⟨p!"info", none, .model .Info, .required, false, false, none⟩ (by simp [classDef, defAsyncAPI3]) rfl
    cases hx

end Verif.Props
