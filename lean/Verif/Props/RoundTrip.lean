import Verif.Lemmas.JsonValid
import Verif.Props.Stable
/-!
# C39: writing and reading back

`v` written (`model_dump(mode="json")`) and read back (`model_validate`) is `v` again, up to the record of
which fields were given. It fails for three kinds of instances (see the `_refuted` theorems); `Regular`
excludes them.
-/
namespace Verif.Props
open Verif Verif.Gen Verif.Spec Verif.Pyd

/-- The key of a Kafka message, written, is read as the same. -/
def ReadsBack (E : Env) (k : V) : Prop := ∃ k', Accepts E (dump k) keyTy k' ∧ forget k' = forget k

theorem readsBack_iff {E : Env} {k : V} : ReadsBack E k ↔ Back E k keyTy :=
  ⟨fun ⟨k', ⟨sc, h⟩, hf⟩ => ⟨k', sc, h, hf⟩, fun ⟨k', sc, h, hf⟩ => ⟨k', ⟨sc, h⟩, hf⟩⟩

/-- **C39** (partial: `Regular` instances). An instance of any class, made in Python or by parsing, with
JSON in its untyped places: its written form is accepted and gives the same instance. -/
theorem C39_instance_partial (E : Env) (hd : E.digits ≠ some 0) (c : Cls) (v : V)
    (hv : ValidJson E.U E.digits (fun k s => E.url k s = some s) v (.model c)) (hr : Regular v)
    (hK : Keys (ReadsBack E) v) :
    ∃ v', validate E c (dump v) = some v' ∧ forget v' = forget v := by
  obtain ⟨v', sc, h, hf⟩ := back hd hv (.inl rfl) hr (keys_imp (fun k => readsBack_iff.1) hK)
  exact ⟨v', by rw [validate, h]; rfl, hf⟩

/-- **C39** (partial: `Regular` results). For all JSON and YAML input: what is parsed, written and parsed again
is the same, and is written in the same way ever after. -/
theorem C39_json_partial (E : Env) (hd : E.digits ≠ some 0) (c : Cls) (x : V)
    (hx : x.isJson = true) (v : V) (h : validate E c x = some v) (hr : Regular v)
    (hK : Keys (ReadsBack E) v) :
    ∃ v', validate E c (dump v) = some v' ∧ forget v' = forget v ∧ dump v' = dump v := by
  have hv : ValidJson E.U E.digits (NormalUrl E) v (.model c) := by
    unfold validate at h
    rw [Option.map_eq_some_iff] at h
    obtain ⟨⟨v', sc⟩, h, rfl⟩ := h
    exact parse_validJson x hx (.model c) v' sc rfl h
  obtain ⟨v', h', hf⟩ := C39_instance_partial E hd c v hv hr hK
  exact ⟨v', h', hf, dump_congr hf⟩

/-- What is parsed from JSON meets the hypothesis of `C39_instance_partial`. -/
theorem C39_json_valid (E : Env) (c : Cls) (x : V)
    (hx : x.isJson = true) (v : V) (h : validate E c x = some v) :
    ValidJson E.U E.digits (fun k s => E.url k s = some s) v (.model c) := by
  unfold validate at h
  rw [Option.map_eq_some_iff] at h
  obtain ⟨⟨v', sc⟩, h, rfl⟩ := h
  exact parse_validJson x hx (.model c) v' sc rfl h

/-! ### Which instances are regular -/

/-- A field of a class can be null and has a default that is not. -/
def nullNotDefault (c : Cls) (f : FieldDef Cls) : Prop :=
  (c = .AnypointMQChannelBindings ∧ f.name = p!"destination_type") ∨
  (c = .PulsarRetention ∧ (f.name = p!"time" ∨ f.name = p!"size"))

/-- Boolean form of the table below. -/
def nullTable : Bool := Cls.all.all fun c => (classDef c).fields.all fun f =>
  (c == .AnypointMQChannelBindings && f.name == p!"destination_type") ||
  (c == .PulsarRetention && (f.name == p!"time" || f.name == p!"size")) ||
  f.dflt == .null || !(nullable f.ty) || (c == .MultiFormatSchema && f.name == p!"schema")

/-- **C39.** The first condition of `Regular` holds of every valid instance of every class, except where one
of the three optional fields with a non-null default (`destinationType` of an Anypoint MQ channel, `time`
and `size` of a Pulsar retention) was set to null, or a document has an empty list of processors. -/
theorem C39_unshown (U : Uni) (limit : Option Nat) (c : Cls) (v : V) (hv : Valid U limit v (.model c))
    (f : FieldDef Cls) (hf : f ∈ (classDef c).fields) (hs : ¬ Shown c f (v.attr f.name)) :
    HasDefault f.dflt (v.attr f.name) ∨ (nullNotDefault c f ∧ v.attr f.name = .none) ∨
      (c = .AsyncAPI3 ∧ (f.name = p!"extra_converters" ∨ f.name = p!"extra_validators")) := by
  have hty : Valid U limit (v.attr f.name) f.ty := by
    cases hv with | model _ h _ => exact h f hf
  by_cases hp : c = .AsyncAPI3 ∧ (f.name = p!"extra_converters" ∨ f.name = p!"extra_validators")
  · exact .inr (.inr hp)
  have hn : v.attr f.name = .none := Classical.byContradiction fun h => hs ⟨hp, .inl h⟩
  have ht : nullTable = true := by decide +kernel
  have := List.all_eq_true.1 (List.all_eq_true.1 ht c (Cls.mem_all c)) f hf
  simp only [Bool.or_eq_true, Bool.and_eq_true, beq_iff_eq, Bool.not_eq_true'] at this
  rcases this with (((h | h) | h) | h) | h
  · exact .inr (.inl ⟨.inl h, hn⟩)
  · exact .inr (.inl ⟨.inr h, hn⟩)
  · rw [h, hn]; exact .inl rfl
  · exact absurd hn (not_none_of_valid hty h)
  · exact absurd ⟨hp, .inr (.inr h)⟩ hs

/-! ### Checking regularity of concrete values -/

/-- The value is the default. -/
def isDefault : Dflt → V → Bool
  | .null, .none => true
  | .bool b, .bool b' => b == b'
  | .str s, .str s' => s == s'
  | .int i, .int i' => i == i'
  | _, _ => false

/-- `Shown`, decided. -/
def isShown (c : Cls) (f : FieldDef Cls) (v : V) : Bool :=
  !(c == .AsyncAPI3 && (f.name == p!"extra_converters" || f.name == p!"extra_validators")) &&
  (!v.isNone || (c == .Channel && f.name == p!"address") || (c == .MultiFormatSchema && f.name == p!"schema"))

/-- A sufficient condition for `RegularInst`. -/
def isRegularInst (c : Cls) (i : V) : Bool :=
  (classDef c).fields.all (fun f => isShown c f (i.attr f.name) || isDefault f.dflt (i.attr f.name)) &&
  ((classDef c).kind != .openExtra || i.extras.all fun e => (classDef c).fields.all fun f =>
    e.1 != f.name && f.alias != some e.1) &&
  (c != .Schema || i.extras.all fun e => e.1 != p!"$ref" && e.1 != p!"ref" && e.1 != p!"schema") &&
  (c != .MultiFormatSchema || i.extras.all fun e => (classDef .Schema).fields.all fun f =>
    e.1 != f.name && e.1 != jsonName f)

mutual
def isRegular : V → Bool
  | .list l => isRegularList l
  | .dict d => isRegularDict d
  | .inst c fs ex set => isRegularInst c (.inst c fs ex set) && isRegularDict fs
  | _ => true
def isRegularList : List V → Bool
  | [] => true
  | v :: l => isRegular v && isRegularList l
def isRegularDict : List (Str × V) → Bool
  | [] => true
  | (_, v) :: d => isRegular v && isRegularDict d
end

theorem isDefault_sound {df : Dflt} {v : V} (h : isDefault df v = true) : HasDefault df v := by
  cases df <;> cases v <;> simp_all [isDefault, HasDefault]

theorem isShown_sound {c : Cls} {f : FieldDef Cls} {v : V} (h : isShown c f v = true) : Shown c f v := by
  unfold isShown at h
  simp only [Bool.and_eq_true, Bool.not_eq_true', Bool.or_eq_true, beq_iff_eq, Bool.and_eq_false_iff, Bool.or_eq_false_iff,
    beq_eq_false_iff_ne] at h
  refine ⟨?_, ?_⟩
  · rintro ⟨h1, h2⟩
    rcases h.1 with h' | h'
    · exact h' h1
    · exact h2.elim h'.1 h'.2
  · rcases h.2 with (h' | h') | h'
    · exact .inl (isNone_false.1 h')
    · exact .inr (.inl h')
    · exact .inr (.inr h')

theorem isRegularInst_sound {c : Cls} {fs ex : List (Str × V)} {set : List Str}
    (h : isRegularInst c (.inst c fs ex set) = true) : RegularInst c (.inst c fs ex set) := by
  unfold isRegularInst at h
  simp only [Bool.and_eq_true, Bool.or_eq_true, List.all_eq_true, bne_iff_ne] at h
  obtain ⟨⟨⟨h1, h2⟩, h3⟩, h4⟩ := h
  refine ⟨fun f hf hs => ?_, fun hk => ?_, fun hc => ⟨?_, fun e he => ?_⟩, fun hc => ?_⟩
  · exact isDefault_sound ((h1 f hf).resolve_left fun h => hs (isShown_sound h))
  · intro c' fs' ex' set' he e hm f hf
    cases he
    exact (h2.resolve_left fun h => h hk) e hm f hf
  · rintro ⟨_, k, s, hk, hl, _⟩
    have := (h3.resolve_left fun h => h hc) _ (lookup_some_mem hl)
    rcases hk with rfl | rfl
    · exact this.1.1 rfl
    · exact this.1.2 rfl
  · exact ((h3.resolve_left fun h => h hc) e he).2
  · exact h4.resolve_left fun h => h hc

theorem isRegularList_mem {l : List V} (h : isRegularList l = true) {v : V} (hv : v ∈ l) : isRegular v = true := by
  induction l with
  | nil => cases hv
  | cons a l ih =>
    rw [isRegularList, Bool.and_eq_true] at h
    rcases List.mem_cons.1 hv with rfl | hv
    · exact h.1
    · exact ih h.2 hv
theorem isRegularDict_mem {d : List (Str × V)} (h : isRegularDict d = true) {e : Str × V} (he : e ∈ d) :
    isRegular e.2 = true := by
  induction d with
  | nil => cases he
  | cons a d ih =>
    obtain ⟨k, a⟩ := a
    rw [isRegularDict, Bool.and_eq_true] at h
    rcases List.mem_cons.1 he with rfl | he
    · exact h.1
    · exact ih h.2 he

/-- A check for regularity. -/
theorem isRegular_sound : ∀ v, isRegular v = true → Regular v := by
  apply V.ind
  · intro l ih h; exact .list fun v hv => ih v hv (isRegularList_mem h hv)
  · intro d ih h; exact .dict fun e he => ih e he (isRegularDict_mem h he)
  · intro c fs ex set ih _ h
    rw [isRegular, Bool.and_eq_true] at h
    exact .inst (isRegularInst_sound h.1) fun e he => ih e he (isRegularDict_mem h.2 he)
  · intro _; exact .none
  · intro _ _; exact .bool
  · intro _ _; exact .int
  · intro _ _; exact .float
  · intro _ _; exact .str
  · intro _ _ _; exact .url
  · intro _ _; exact .proc

/-! ### Concrete cases -/

set_option maxRecDepth 20000

/-- A document with schemas of three kinds, a Reference, a binding version, extension fields and an unknown
address. -/
def aDocument : V := .dict [
  (p!"asyncapi", .str p!"3.0.0"),
  (p!"info", .dict [(p!"title", .str p!"t"), (p!"version", .str p!"1"), (p!"x-a", .list [.int 1, .none]),
    (p!"license", .dict [(p!"name", .str p!"MIT"), (p!"url", .str p!"https://x")])]),
  (p!"channels", .dict [(p!"c", .dict [(p!"address", .none),
    (p!"messages", .dict [(p!"m", .dict [(p!"payload", .dict [(p!"$ref", .str p!"#/components/schemas/a")])])])])]),
  (p!"components", .dict [(p!"schemas", .dict [
    (p!"a", .dict [(p!"type", .str p!"object"), (p!"deprecated", .bool true)]),
    (p!"b", .dict [(p!"schemaFormat", .str p!"f"), (p!"schema", .dict [(p!"z", .none)])]),
    (p!"r", .dict [(p!"$ref", .str p!"#/components/schemas/b")])])])]

/-- The document parsed. -/
def aParsed : V := ((validate exactEnv .AsyncAPI3 aDocument).getD .none)

example : aDocument.isJson = true ∧ validate exactEnv .AsyncAPI3 aDocument = some aParsed := ⟨rfl, rfl⟩
theorem aParsed_regular : Regular aParsed := isRegular_sound _ (by decide +kernel)
/-- It is a document, with a schema, a multi-format schema and a Reference. -/
example : ∃ s m r, ((aParsed.attr p!"components").attr p!"schemas").attr p!"root" = .dict [(p!"a", s), (p!"b", m), (p!"r", r)] ∧
    headOf s = .inst .Schema ∧ headOf m = .inst .MultiFormatSchema ∧ headOf r = .inst .Reference :=
  ⟨_, _, _, rfl, rfl, rfl, rfl⟩
example : ∃ v', validate exactEnv .AsyncAPI3 (dump aParsed) = some v' ∧ forget v' = forget aParsed ∧ dump v' = dump aParsed :=
  C39_json_partial exactEnv (by intro h; cases h) .AsyncAPI3 aDocument rfl aParsed rfl aParsed_regular
    (keys_free _ (by decide +kernel))

/-! ### Keys of Kafka messages -/

/-- No key, and a plain dict that stays one. -/
theorem C39_key_none (E : Env) : ReadsBack E .none := ⟨.none, ⟨.exactly, rfl⟩, rfl⟩
theorem C39_key_dict (E : Env) (d : List (Str × V)) (hj : (V.dict d).isJson = true) (h : StaysDict E (.dict d)) :
    ReadsBack E (.dict d) := ⟨.dict d, by rw [dump_json _ hj]; exact h d rfl, rfl⟩

/-- A Reference, if a dict fits the class strictly. -/
theorem C39_key_reference (E : Env) (hE : ByExactness E.mixed) (hb : E.built = 1) (s : Str) (set : List Str) :
    ReadsBack E (.inst .Reference [(p!"ref", .str s)] [] set) := by
  refine ⟨referenceTo s, ⟨⟨min 2 E.built, some 1⟩, ?_⟩, rfl⟩
  have h := C38_kafka_key E s
  rw [hE, if_neg (by rw [hb]; decide)] at h
  exact h

/-- An optional text and an optional flag hold no Kafka message, and what is written of one reads back strictly. -/
theorem optional_noKafka {U digits urlOk} {a : V} {s : Ty Cls} (hs : s = .str ∨ s = .bool) (h : ValidJson U digits urlOk a (.union [s, .none])) :
    noKafka a = true := by
  cases h with | union ht h =>
  simp only [List.mem_cons, List.not_mem_nil, or_false] at ht
  rcases hs with rfl | rfl <;> rcases ht with rfl | rfl <;> cases h <;> rfl

theorem optional_strict {E : Env} {U digits urlOk} {a w : V} {sc : Score} {s : Ty Cls} (hs : s = .str ∨ s = .bool)
    (h : ValidJson U digits urlOk a (.union [s, .none])) (hp : parse E (dump a) (.union [s, .none]) = some (w, sc)) : 1 ≤ sc.exact := by
  cases h with | union ht h =>
  simp only [List.mem_cons, List.not_mem_nil, or_false] at ht
  rcases hs with rfl | rfl <;> rcases ht with rfl | rfl <;> cases h <;> cases hp <;> decide

/-- A Schema without external documentation that has any content, if a dict fits the class strictly. -/
theorem C39_key_schema (E : Env) (hE : ByExactness E.mixed) (hb : E.built = 1) (hd : E.digits ≠ some 0) (i : V)
    (hv : ValidJson E.U E.digits (fun k s => E.url k s = some s) i (.model .Schema)) (hr : Regular i)
    (hdocs : i.attr p!"external_docs" = .none) (hne : dump i ≠ .dict []) : ReadsBack E i := by
  have hval := validJson_valid hv
  have hK : Keys (fun k => Back E k keyTy) i := by
    cases hv with
    | @model _ fs ex set h1 h2 h3 h4 h5 =>
    refine .inst (fun h => by cases h) fun e he => keys_free _ ?_
    obtain ⟨f, hf, hn⟩ : ∃ f ∈ (classDef Cls.Schema).fields, f.name = e.1 := by
      have : e.1 ∈ fs.map (·.1) := List.mem_map.2 ⟨e, he, rfl⟩
      rw [h1] at this
      simpa using this
    have hattr : (V.inst .Schema fs ex set).attr f.name = e.2 := by
      have hnd : (fs.map (·.1)).Nodup := by rw [h1]; exact names_nodup _
      have := (lookup_iff (v := e.2) (k := e.1) hnd).2 he
      unfold V.attr
      rw [hn]
      simp only [this, Option.getD_some]
    have h2 := h2 f hf
    change f ∈ defSchema.fields at hf
    simp only [defSchema, List.mem_cons, List.not_mem_nil, or_false] at hf
    rcases hf with rfl | rfl | rfl
    · rw [← hattr]
      exact optional_noKafka (.inl rfl) h2
    · rw [← hattr]
      change noKafka (V.attr _ p!"external_docs") = true
      rw [hdocs]; rfl
    · rw [← hattr]
      exact optional_noKafka (.inr rfl) h2
  obtain ⟨v', sc, hp, hf⟩ := back hd hv (.inl rfl) hr hK
  refine ⟨v', ⟨sc, ?_⟩, hf⟩
  cases hv with
  | @model _ fs ex set h1 h2 h3 h4 h5 =>
  cases hr with | inst hr _ =>
  have href := refuse_reference_schema (.model h1 h2 h3 h4 h5) (hr.2.2.1 rfl).1
  have hw := dump_written (by decide) hval h3
  rw [hw] at hp href hne ⊢
  have hsep : ∀ e ∈ ex, ∀ f ∈ (classDef .Schema).fields, e.1 ≠ f.name ∧ f.alias ≠ some e.1 :=
    fun e he f hff => hr.2.1 rfl .Schema fs ex set rfl e he f hff
  have hsc : 1 ≤ sc.exact := by
    rw [parse_model_dict E (by decide), construct_eq] at hp
    split at hp
    · rw [Option.map_eq_some_iff] at hp
      obtain ⟨j, _, hj⟩ := hp
      cases hj
      simp only [Score.and, hb]
      suffices h : ∀ L : List (FieldDef Cls), (∀ f ∈ L, f ∈ (classDef .Schema).fields) →
          1 ≤ (fieldsScore E .Schema (writtenFields .Schema (.inst .Schema fs ex set) ++ ex) L).exact by
        have := h (classDef .Schema).fields fun f hf => hf
        omega
      intro L hL
      induction L with
      | nil => exact Nat.le_succ 1
      | cons f L ih =>
        have ih := ih fun f hf => hL f (List.mem_cons_of_mem _ hf)
        have hfm := hL f List.mem_cons_self
        rw [fieldsScore, findKey_written hsep hfm]
        by_cases hs : Shown .Schema f ((V.inst .Schema fs ex set).attr f.name)
        · rw [if_pos hs]
          simp only
          split
          · rename_i w sc' hp'
            have : 1 ≤ sc'.exact := by
              have h2 := h2 f hfm
              change f ∈ defSchema.fields at hfm
              simp only [defSchema, List.mem_cons, List.not_mem_nil, or_false] at hfm
              rcases hfm with rfl | rfl | rfl
              · exact optional_strict (.inl rfl) h2 hp'
              · change parse E (dump (V.attr _ p!"external_docs")) _ = _ at hp'
                rw [hdocs] at hp'
                cases hp'; decide
              · exact optional_strict (.inr rfl) h2 hp'
            simp only [Score.and]; omega
          · exact ih
        · rw [if_neg hs]; exact ih
    · cases hp
  generalize writtenFields .Schema (.inst .Schema fs ex set) ++ ex = D at *
  obtain ⟨e, hany, he⟩ : ∃ e, parse E (.dict D) (.dict .any) = some (.dict D, ⟨e, none⟩) ∧ e ≤ 1 := by
    cases D with
    | nil => exact absurd rfl hne
    | cons a D =>
      obtain ⟨k, x⟩ := a
      obtain ⟨e, _, h⟩ := dict_any_parse E D
      refine ⟨min 1 e, ?_, by omega⟩
      rw [parse_eq_shape] at h ⊢
      simp only [parseAs, shapeOf, parseDict, Option.map_eq_some_iff, Prod.mk.injEq] at h ⊢
      obtain ⟨r, h, h', h''⟩ := h
      have hx : parse E x .any = some (x, ⟨1, none⟩) := by rw [parse_eq_shape]; rfl
      cases h'
      refine ⟨((k, x) :: r.1, ⟨min 1 e, none⟩), ?_, rfl, rfl⟩
      rw [entries, parseEntries, hx, h]
      simp only [h'', Score.and]
  obtain ⟨-, m, hm⟩ := model_dict_score (c := .Schema) (by decide) hp
  rw [keyTy, parse_union]
  simp only [V.isNone, Bool.false_and, Bool.false_eq_true, if_false, List.map_cons, List.map_nil, hp, href, hany]
  have hn : parse E (.dict D) .none = none := by rw [parse_eq_shape]; rfl
  have hbt : better E sc ⟨e, none⟩ = false := by
    unfold better; rw [hm]; simp only; rw [hE]; simp; omega
  rw [hn]
  simp only [pick, hbt, Bool.false_eq_true, if_false]

/-- A parsed message whose key is a schema: it reads back. -/
def aMessage : V := (validate exactEnv .KafkaMessageBindings
  (.dict [(p!"key", .dict [(p!"type", .str p!"string"), (p!"deprecated", .bool true)])])).getD .none

example : ∃ v', validate exactEnv .KafkaMessageBindings (dump aMessage) = some v' ∧ forget v' = forget aMessage ∧
    dump v' = dump aMessage := by
  refine C39_json_partial exactEnv (by intro h; cases h) .KafkaMessageBindings
    (.dict [(p!"key", .dict [(p!"type", .str p!"string"), (p!"deprecated", .bool true)])]) rfl aMessage rfl
    (isRegular_sound _ (by decide +kernel)) ?_
  refine .inst (fun _ => ?_) fun e he => keys_free _ (by revert e; decide +kernel)
  exact C39_key_schema exactEnv exactEnv_exact rfl (by intro h; cases h) _
    (C39_json_valid exactEnv .Schema (.dict [(p!"type", .str p!"string"), (p!"deprecated", .bool true)]) rfl _ rfl)
    (isRegular_sound _ (by decide +kernel)) rfl (by intro h; cases h)

/-! ### Where it fails -/

/-- **C39** is false of the key of a Kafka message that is a schema without content: written, it is an
empty dict, and stays one. -/
theorem C39_key_refuted : ∃ v v', validate exactEnv .KafkaMessageBindings
    (.dict [(p!"key", .dict [(p!"discriminator", .none)])]) = some v ∧
    validate exactEnv .KafkaMessageBindings (dump v) = some v' ∧ headOf (v.attr p!"key") = .inst .Schema ∧
    v'.attr p!"key" = .dict [] := ⟨_, _, rfl, rfl, rfl, rfl⟩


/-- **C39** is false of a schema with a `$ref` and a keyword given as null: written, it is a Reference. -/
theorem C39_reflike_refuted : ∃ v v', validate exactEnv .Schemas (.dict [(p!"s", .dict [(p!"$ref", .str p!"#/x"),
    (p!"deprecated", .none)])]) = some v ∧ validate exactEnv .Schemas (dump v) = some v' ∧
    (∃ i, v.attr p!"root" = .dict [(p!"s", i)] ∧ headOf i = .inst .Schema) ∧
    v'.attr p!"root" = .dict [(p!"s", referenceTo p!"#/x")] := ⟨_, _, rfl, rfl, ⟨_, rfl, rfl⟩, rfl⟩

/-- **C39** is false of a schema with a `schema` and keywords given as null: written, it is a multi-format
schema. -/
theorem C39_multi_refuted : ∃ v v', validate exactEnv .Schemas (.dict [(p!"s", .dict [(p!"schema", .int 1),
    (p!"deprecated", .none), (p!"discriminator", .none)])]) = some v ∧ validate exactEnv .Schemas (dump v) = some v' ∧
    (∃ i, v.attr p!"root" = .dict [(p!"s", i)] ∧ headOf i = .inst .Schema) ∧
    (∃ i, v'.attr p!"root" = .dict [(p!"s", i)] ∧ headOf i = .inst .MultiFormatSchema) :=
  ⟨_, _, rfl, rfl, ⟨_, rfl, rfl⟩, ⟨_, rfl, rfl⟩⟩

/-- **C39** is false of an optional field with a default that is given as null: it comes back with the default. -/
theorem C39_null_refuted : ∃ v v', validate exactEnv .PulsarRetention (.dict [(p!"time", .none)]) = some v ∧
    validate exactEnv .PulsarRetention (dump v) = some v' ∧
    v.attr p!"time" = .none ∧ v'.attr p!"time" = .int 0 := ⟨_, _, rfl, rfl, rfl, rfl⟩
theorem C39_null_anypoint_refuted : ∃ v v', validate exactEnv .AnypointMQChannelBindings
    (.dict [(p!"destinationType", .none)]) = some v ∧ validate exactEnv .AnypointMQChannelBindings (dump v) = some v' ∧
    v.attr p!"destination_type" = .none ∧ v'.attr p!"destination_type" = .str p!"queue" := ⟨_, _, rfl, rfl, rfl, rfl⟩

/-- **C39** is false of a schema given a null field by alias and also by Python name: the latter is kept as an
extra field, and becomes the field when read back. -/
theorem C39_shadow_refuted : ∃ v v', validate exactEnv .Schema (.dict [(p!"externalDocs", .none),
    (p!"external_docs", .dict [(p!"url", .str p!"https://x")])]) = some v ∧
    validate exactEnv .Schema (dump v) = some v' ∧
    v.attr p!"external_docs" = .none ∧ headOf (v'.attr p!"external_docs") = .inst .ExternalDocumentation :=
  ⟨_, _, rfl, rfl, rfl, rfl⟩

end Verif.Props
