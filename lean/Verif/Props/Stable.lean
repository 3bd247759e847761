import Verif.Lemmas.Keeps
/-!
# C43: valid instances are stored as they are

All classes revalidate instances (`revalidate_instances="always"`): an instance used as the value of a field is
validated again. That must not change it.
-/
namespace Verif.Props
open Verif Verif.Gen Verif.Spec Verif.Pyd

/-- The key of a Kafka message, if it is a plain dict, is one that is accepted as it is. (The other dicts are
read as a schema or a reference.) -/
def StaysDict (E : Env) (k : V) : Prop := ∀ d, k = .dict d → Accepts E k keyTy k

/-- **C43.** A valid instance, validated again, is accepted and unchanged. -/
theorem C43_kept (E : Env) (hd : E.digits ≠ some 0) (c : Cls) (hc : c ≠ .AsyncAPI3) (v : V)
    (hv : Valid E.U E.digits v (.model c)) (hu : Unshadowed v) (hK : Keys (StaysDict E) v) : validate E c v = some v := by
  obtain ⟨sc, h⟩ := valid_kept hd hv (by show (c != .AsyncAPI3) = true; simpa using hc) (.inl rfl) hu hK
  rw [validate, h]; rfl

/-- **C43.** A valid value given to a field is stored as it is. -/
theorem C43_field (E : Env) (hd : E.digits ≠ some 0) (c : Cls) (f : FieldDef Cls)
    (hf : f ∈ (classDef c).fields) (v : V) (hv : Valid E.U E.digits v f.ty) (hu : Unshadowed v)
    (hK : Keys (StaysDict E) v) (hk : c = .KafkaMessageBindings → f.name = p!"key" → StaysDict E v) (v' : V) :
    Accepts E v f.ty v' ↔ v' = v := by
  obtain ⟨sc, h⟩ := valid_kept hd hv (field_docFree hf) (by
    rcases field_stable hf with h | ⟨rfl, hn, hty⟩
    · exact .inl h
    · exact .inr ⟨hty, fun d hd => by rw [hty]; exact hk rfl hn d hd⟩) hu hK
  constructor
  · rintro ⟨sc', h'⟩
    rw [h] at h'; cases h'; rfl
  · rintro rfl; exact ⟨sc, h⟩

/-- **C43.** Validating twice is the same as validating once, for every input. -/
theorem C43_idempotent (E : Env) (hd : E.digits ≠ some 0) (c : Cls) (hc : c ≠ .AsyncAPI3)
    (x v : V) (h : validate E c x = some v) (hu : Unshadowed v) : validate E c v = some v :=
by
  unfold validate at h
  rw [Option.map_eq_some_iff] at h
  obtain ⟨⟨v', sc⟩, h, rfl⟩ := h
  obtain ⟨sc', h'⟩ := parse_settled hd (by show (c != .AsyncAPI3) = true; simpa using hc) (.inl rfl) h hu
  rw [validate, h']; rfl

/-- **C43.** What is stored in a field is accepted there as it is, for every input. -/
theorem C43_stored (E : Env) (hd : E.digits ≠ some 0) (c : Cls) (f : FieldDef Cls) (hf : f ∈ (classDef c).fields)
    (x v : V) (h : Accepts E x f.ty v) (hu : Unshadowed v) (v' : V) : Accepts E v f.ty v' ↔ v' = v := by
  obtain ⟨sc, h⟩ := h
  obtain ⟨sc', h'⟩ := parse_settled hd (field_docFree hf) ((field_stable hf).imp_right fun h => h.2.2) h hu
  constructor
  · rintro ⟨sc', h''⟩
    rw [h'] at h''; cases h''; rfl
  · rintro rfl; exact ⟨sc', h'⟩

theorem items_of_valid {U : Uni} {limit : Option Nat} {w : V} (h : Valid U limit w (.union [.list .processors, .none])) :
    ∃ ns : List Nat, Items w (ns.map .proc) := by
  cases h with
  | union hm hv =>
    simp only [List.mem_cons, List.not_mem_nil, or_false] at hm
    rcases hm with rfl | rfl
    · cases hv with | @list l _ hl =>
      have : ∃ ns : List Nat, l = ns.map .proc := by
        induction l with
        | nil => exact ⟨[], rfl⟩
        | cons v l ih =>
          obtain ⟨ns, rfl⟩ := ih fun v hv => hl v (List.mem_cons_of_mem _ hv)
          cases hl v List.mem_cons_self with | @processors n => exact ⟨n :: ns, rfl⟩
      obtain ⟨ns, rfl⟩ := this
      exact ⟨ns, .inr rfl⟩
    · cases hv; exact ⟨[], .inl ⟨rfl, rfl⟩⟩

/-- **C43**, for the document: it is built again as it was, and given to its processors. -/
theorem C43_document (E : Env) (hd : E.digits ≠ some 0) (ht : Tame E.call) (v : V)
    (hv : Valid E.U E.digits v (.model .AsyncAPI3)) (hu : Unshadowed v) (hK : Keys (StaysDict E) v) (j : V) :
    validate E .AsyncAPI3 v = some j ↔ ∃ log, Processed E.call v log (some j) := by
  have hn : NotShadowed v := notShadowed_of_valid (by decide) hv
  cases hv with
  | @model _ fs ex set hfs hf hcon =>
    cases hu with | inst _ hu =>
    cases hK with | inst _ hK =>
    obtain ⟨sc, h⟩ := model_kept hd hfs (fun f hff => valid_kept hd (hf f hff) (field_docFree hff)
      (.inl ((field_stable hff).resolve_right fun h => by cases h.1))
      (hu _ (lookup_mem_attr (ex := ex) (set := set) hfs hff)) (hK _ (lookup_mem_attr (ex := ex) (set := set) hfs hff))) hcon hn
    have hafter : after E .AsyncAPI3 (.inst .AsyncAPI3 fs ex set) = (runProcessors E (.inst .AsyncAPI3 fs ex set)).2 := by
      unfold after; rw [(checks_of_consistent hd hfs hcon).1]; rfl
    rw [validate, h, hafter]
    have hl : ListsOk (.inst .AsyncAPI3 fs ex set) := by
      have := fun n (hn : ∃ f ∈ (classDef .AsyncAPI3).fields, f.name = n ∧
          f.ty = .union [.list .processors, .none]) => (show
          ∃ ns : List Nat, Items ((V.inst .AsyncAPI3 fs ex set).attr n) (ns.map .proc) from by
        obtain ⟨f, hff, rfl, hty⟩ := hn
        have := hf f hff
        rw [hty] at this
        generalize (V.inst .AsyncAPI3 fs ex set).attr f.name = w at this ⊢
        exact items_of_valid this)
      exact ⟨this p!"extra_converters" ⟨defAsyncAPI3.fields[8], List.mem_of_getElem (i := 8) rfl, rfl, rfl⟩,
        this p!"extra_validators" ⟨defAsyncAPI3.fields[9], List.mem_of_getElem (i := 9) rfl, rfl, rfl⟩⟩
    constructor
    · intro hj
      have : (runProcessors E (.inst .AsyncAPI3 fs ex set)).2 = some j := by
        revert hj
        cases (runProcessors E (.inst .AsyncAPI3 fs ex set)).2 <;> exact id
      exact ⟨_, (C32_exact E ht _ hl _ _).1 (Prod.ext rfl this)⟩
    · rintro ⟨log, hj⟩
      have := (C32_exact E ht _ hl _ _).2 hj
      rw [this]; rfl

/-! ### Concrete cases -/

set_option maxRecDepth 20000

/-- `plainEnv` with pydantic-core's choice between models and other values. -/
def exactEnv : Env := { plainEnv with mixed := fun a b => decide (a.exact < b.exact) }

theorem exactEnv_exact : ByExactness exactEnv.mixed := fun _ _ => rfl

theorem aChannel_unshadowed : Unshadowed aChannel := by
  refine .inst (fun h => by cases h) ?_
  have hn : ∀ {v : V}, v = .none → Unshadowed v := by rintro _ rfl; exact .none
  simp only [List.forall_mem_cons, List.not_mem_nil, false_implies, implies_true, and_true]
  refine ⟨.str, .none, .none, .none, .none, .none, .inst (fun h => by cases h) ?_, .none, .none, .none⟩
  simp only [List.forall_mem_cons, List.not_mem_nil, false_implies, implies_true, and_true]
  refine .dict ?_
  simp only [List.forall_mem_cons, List.not_mem_nil, false_implies, implies_true, and_true]
  refine .inst (fun h => by cases h) ?_
  simp only [List.forall_mem_cons, List.not_mem_nil, false_implies, implies_true, and_true]
  exact ⟨.none, .none, .none, .none, .none⟩

example : validate exactEnv .Channel aChannel = some aChannel :=
  C43_kept exactEnv (by intro h; cases h) .Channel (by decide) aChannel
    (C42_valid exactEnv .Channel (by decide) (.dict [(p!"address", .str p!"a/{x}"),
      (p!"parameters", .dict [(p!"x", .dict [])])]) _ rfl) aChannel_unshadowed
    (keys_free _ (by decide +kernel))

/-- If a dict fits a model only laxly, every Kafka message key that is a plain dict stays one. -/
theorem C43_keys_lax (E : Env) (hE : ByExactness E.mixed) (hb : E.built = 0) (k : V) : StaysDict E k :=
  fun d hd => by subst hd; exact kafka_dict hE hb d

/-- Otherwise a dict can become a schema: `StaysDict` is needed. -/
theorem C43_key_refuted : ∃ v w, Valid exactEnv.U exactEnv.digits v (.model .KafkaMessageBindings) ∧ Unshadowed v ∧
    validate exactEnv .KafkaMessageBindings v = some w ∧ v.attr p!"key" = .dict [(p!"type", .str p!"string")] ∧
    w.attr p!"key" = .inst .Schema [(p!"discriminator", .none), (p!"external_docs", .none), (p!"deprecated", .none)]
      [(p!"type", .str p!"string")] [p!"type"] := by
  refine ⟨.inst .KafkaMessageBindings [(p!"key", .dict [(p!"type", .str p!"string")]), (p!"schema_id_location", .none),
    (p!"schema_id_payload_encoding", .none), (p!"schema_lookup_strategy", .none), (p!"binding_version", .str p!"0.5.0")] [] [],
    _, ?_, ?_, rfl, rfl, rfl⟩
  · refine C42_valid { exactEnv with built := 0, built_le := Nat.zero_le _ } .KafkaMessageBindings (by decide)
      (.inst .KafkaMessageBindings [(p!"key", .dict [(p!"type", .str p!"string")]), (p!"schema_id_location", .none),
    (p!"schema_id_payload_encoding", .none), (p!"schema_lookup_strategy", .none), (p!"binding_version", .str p!"0.5.0")] [] []) _ rfl
  · refine .inst (fun h => by cases h) ?_
    simp only [List.forall_mem_cons, List.not_mem_nil, false_implies, implies_true, and_true]
    refine ⟨.dict ?_, .none, .none, .none, .str⟩
    simp only [List.forall_mem_cons, List.not_mem_nil, false_implies, implies_true, and_true]
    exact .str

/-- A key that was read as a schema is kept as one. -/
example : ∃ w, validate exactEnv .KafkaMessageBindings (.dict [(p!"key", .dict [(p!"type", .str p!"string")])]) = some w ∧
    Keys (StaysDict exactEnv) w := by
  refine ⟨_, rfl, .inst (fun _ d hd => by cases hd) ?_⟩
  intro e he
  refine keys_free _ ?_
  revert e
  decide +kernel

/-- Without `Unshadowed` it is false: a schema given `externalDocs` and also an extra field with the Python
name is valid, and refused when validated again. -/
theorem C43_shadow_refuted : ∃ v, Valid exactEnv.U exactEnv.digits v (.model .Schema) ∧
    validate exactEnv .Schema v = none :=
  ⟨_, C42_valid exactEnv .Schema (by decide) (.dict [(p!"externalDocs", .none), (p!"external_docs", .int 1)]) _ rfl, rfl⟩

/-- And one with a well-formed extra value is accepted, but changed. -/
theorem C43_changed_refuted : ∃ v w, Valid exactEnv.U exactEnv.digits v (.model .Schema) ∧
    validate exactEnv .Schema v = some w ∧ v.attr p!"discriminator" = .none ∧
    v.attr p!"external_docs" ≠ w.attr p!"external_docs" :=
  ⟨_, _, C42_valid exactEnv .Schema (by decide) (.dict [(p!"externalDocs", .none),
      (p!"external_docs", .dict [(p!"url", .str p!"https://x")])]) _ rfl, rfl, rfl, by intro h; cases h⟩

end Verif.Props
