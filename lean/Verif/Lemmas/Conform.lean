import Verif.Lemmas.JsonValid
import Verif.Props.Names
import Verif.Spec.Conform
/-! The declared types of fields against the grammar of conforming JSON. -/
namespace Verif.Pyd
open Verif Verif.Gen Verif.Spec Verif.Props

/-! ### Types of the grammar and declared types -/

mutual
/-- A type of the grammar and a declared type describe the same values. -/
def fits : STy → Ty Cls → Bool
  | .any, .any => true
  | .null, .none => true
  | .string, .str => true
  | .integer, .int => true
  | .boolean, .bool => true
  | .email, .email => true
  | .url .any, .anyUrl => true
  | .url .http, .httpUrl => true
  | .enum vs, .lit vs' => vs.all (fun v => vs'.contains v) && vs'.all (fun v => vs.contains v)
  | .object c, .model c' => c == c' && (classDef c).kind != .patterned
  | .list t, .list ty => fits t ty
  | .map t, .dict ty => fits t ty
  | .keyed t, .model c => (classDef c).kind == .patterned && (classDef c).fields.all fun f =>
      match f.ty with
      | .dict ty => fits t ty
      | _ => false
  | .either ts, .union ms => fitsEach ts ms && ms.all fun m => fitsSome ts m
  | _, _ => false
/-- Every alternative is a member. -/
def fitsEach : List STy → List (Ty Cls) → Bool
  | [], _ => true
  | t :: ts, ms => (ms.any fun m => fits t m) && fitsEach ts ms
/-- The member is one of the alternatives. -/
def fitsSome : List STy → Ty Cls → Bool
  | [], _ => false
  | t :: ts, m => fits t m || fitsSome ts m
end

theorem fitsEach_iff {ts : List STy} {ms : List (Ty Cls)} : fitsEach ts ms = true ↔ ∀ t ∈ ts, ∃ m ∈ ms, fits t m = true := by
  induction ts with
  | nil => simp [fitsEach]
  | cons t ts ih => simp [fitsEach, ih]

theorem fitsSome_iff {ts : List STy} {m : Ty Cls} : fitsSome ts m = true ↔ ∃ t ∈ ts, fits t m = true := by
  induction ts with
  | nil => simp [fitsSome]
  | cons t ts ih => simp [fitsSome, ih]

/-- Is it `None`? -/
def isNoneTy : Ty Cls → Bool
  | .none => true
  | _ => false

/-- A declared type without `None`. -/
def strip : Ty Cls → Ty Cls
  | .union ms => match ms.filter fun m => !isNoneTy m with
    | [m] => m
    | ms' => .union ms'
  | t => t

/-- A type of strings and perhaps null. -/
def strTy : Ty Cls → Bool
  | .str | .union [.str, .none] => true
  | _ => false

/-- Is the type of the grammar that of strings? -/
def isString : STy → Bool
  | .string => true
  | _ => false

/-- A declared field is the field of the grammar. -/
def rowOk (r : Row) (f : FieldDef Cls) : Bool :=
  jsonName f == r.name && !f.exclude && r.max == f.maxLen && (f.maxLen.isNone || strTy f.ty && isString r.ty) &&
  (fits r.ty f.ty || f.excludeNull && fits r.ty (strip f.ty)) && (if r.required then !f.excludeNull else f.dflt != .required)

/-- The base class is that of the grammar. -/
def kindOk (c : Cls) : Bool :=
  if anyFields.contains c then (classDef c).kind == .openExtra
  else if extensible.contains c then (classDef c).kind == .extendable
  else (classDef c).kind == .nonExtendable

/-- A declared class is the object of the grammar. -/
def classOk (c : Cls) (rs : List Row) : Bool :=
  kindOk c && (rs.all fun r => (classDef c).fields.any fun f => rowOk r f) &&
  ((classDef c).fields.all fun f => f.exclude || rs.any fun r => rowOk r f)

theorem grammar_ok : grammar.all (fun e => classOk e.1 e.2) = true := by decide +kernel

theorem grammar_complete : Cls.all.all (fun c => (classDef c).kind == .patterned || grammar.any fun e => e.1 == c) = true := by
  decide +kernel

/-! ### Rules between fields -/

/-- Fields whose presence a rule looks at: JSON name, Python name. -/
def presNames : Cls → List (Str × Str)
  | .Channel => [(p!"parameters", p!"parameters")]
  | .MessageExample => [(p!"headers", p!"headers"), (p!"payload", p!"payload")]
  | .SecurityScheme => [(p!"name", p!"name"), (p!"scheme", p!"scheme"), (p!"flows", p!"flows"),
      (p!"openIdConnectUrl", p!"open_id_connect_url"), (p!"bearerFormat", p!"bearer_format"), (p!"scopes", p!"scopes")]
  | .OAuthFlow => [(p!"authorizationUrl", p!"authorization_url"), (p!"tokenUrl", p!"token_url")]
  | .AMQPChannelBindings => [(p!"exchange", p!"exchange"), (p!"queue", p!"queue")]
  | .SolaceDestination => [(p!"queue", p!"queue"), (p!"topic", p!"topic")]
  | .IBMMQChannelBindings => [(p!"queue", p!"queue"), (p!"topic", p!"topic")]
  | .IBMMQMessageBindings => [(p!"headers", p!"headers")]
  | .KafkaServerBindings => [(p!"schemaRegistryVendor", p!"schema_registry_vendor"), (p!"schemaRegistryUrl", p!"schema_registry_url")]
  | _ => []

/-- Fields that a rule compares with strings: JSON name, Python name, default. -/
def strNames : Cls → List (Str × Str × Option Str)
  | .AsyncAPI3 => [(p!"asyncapi", p!"asyncapi", some p!"3.0.0")]
  | .Channel => [(p!"address", p!"address", none)]
  | .SecurityScheme => [(p!"type", p!"type_", none), (p!"in", p!"in_", none), (p!"scheme", p!"scheme", none)]
  | .CorrelationID => [(p!"location", p!"location", none)]
  | .AMQPChannelBindings => [(p!"is", p!"is_", none)]
  | .SolaceDestination => [(p!"destinationType", p!"destination_type", none)]
  | .IBMMQChannelBindings => [(p!"destinationType", p!"destination_type", some p!"topic")]
  | .IBMMQMessageBindings => [(p!"type", p!"type", some p!"string")]
  | _ => []

/-- Fields that a rule compares with integers: JSON name, Python name. -/
def intNames : Cls → List (Str × Str)
  | .AMQPOperationBindings => [(p!"expiration", p!"expiration")]
  | .SolaceOperationBindings => [(p!"priority", p!"priority")]
  | .IBMMQServerBindings => [(p!"heartBeatInterval", p!"heart_beat_interval")]
  | .IBMMQChannelBindings => [(p!"maxMsgLength", p!"max_msg_length")]
  | .IBMMQMessageBindings => [(p!"expiry", p!"expiry")]
  | .KafkaChannelBindings => [(p!"partitions", p!"partitions"), (p!"replicas", p!"replicas")]
  | _ => []

/-- The flows: JSON name, Python name. -/
def flowNames : List (Str × Str) := [(p!"implicit", p!"implicit"), (p!"password", p!"password"),
  (p!"clientCredentials", p!"client_credentials"), (p!"authorizationCode", p!"authorization_code")]

/-- A JSON object and an instance agree on what rules look at. -/
structure View (c : Cls) (d : List (Str × V)) (i : V) : Prop where
  pres : ∀ n ∈ presNames c, HasField d n.1 ↔ Present (i.attr n.2)
  str : ∀ n ∈ strNames c, ∀ s, Says d n.1 s → i.attr n.2.1 = .str s
  str' : ∀ n ∈ strNames c, ∀ s, i.attr n.2.1 = .str s → Says d n.1 s ∨ n.2.2 = some s
  int : ∀ n ∈ intNames c, ∀ k, lookup n.1 d = some (.int k) ↔ i.attr n.2 = .int k
  flow : c = .OAuthFlows → ∀ n ∈ flowNames, ∀ f, lookup n.1 d = some (.dict f) →
    Present (i.attr n.2) ∧ ∀ m ∈ presNames .OAuthFlow, HasField f m.1 ↔ Present ((i.attr n.2).attr m.2)
  flow' : c = .OAuthFlows → ∀ n ∈ flowNames, Present (i.attr n.2) → ∃ f, lookup n.1 d = some (.dict f)

theorem oneOf_json {d : List (Str × V)} {i : V} {sel sel' a b : Str} {l : List (Str × Str × Str)}
    (hl : ∀ e ∈ l, (e.2.1 = a ∨ e.2.1 = b) ∧ (e.2.2 = a ∨ e.2.2 = b))
    (h1 : HasField d a ↔ Present (i.attr a)) (h2 : HasField d b ↔ Present (i.attr b))
    (hs : ∀ s, Says d sel s ↔ i.attr sel' = .str s) : OneOfJson d sel l ↔ OneOf i sel' l := by
  have key : ∀ x, x = a ∨ x = b → (HasField d x ↔ Present (i.attr x)) := by rintro x (rfl | rfl) <;> assumption
  unfold OneOfJson OneOf Is
  constructor
  · intro h v y n hm he
    have := h v y n hm ((hs v).2 he)
    exact ⟨(key y (hl _ hm).1).1 this.1, fun hn => this.2 ((key n (hl _ hm).2).2 hn)⟩
  · intro h v y n hm he
    have := h v y n hm ((hs v).1 he)
    exact ⟨(key y (hl _ hm).1).2 this.1, fun hn => this.2 ((key n (hl _ hm).2).1 hn)⟩

/-- On the classes other than the document and IBM MQ messages, the rules in JSON are the rules of instances. -/
theorem rule_json {c : Cls} {d : List (Str × V)} {i : V} (h : View c d i) {U : Uni} {limit : Option Nat}
    (hc : c ≠ .AsyncAPI3) (hm : c ≠ .IBMMQMessageBindings) : JsonRule U limit c d ↔ Rule c i := by
  obtain ⟨hp, hs, hs', hi, hf, hf'⟩ := h
  cases c <;> try exact Iff.rfl
  case AsyncAPI3 => exact absurd rfl hc
  case IBMMQMessageBindings => exact absurd rfl hm
  all_goals simp only [presNames, strNames, intNames, List.forall_mem_cons, List.not_mem_nil, false_implies, implies_true,
    and_true, reduceCtorEq, or_false] at hp hs hs' hi
  all_goals simp only [Rule, JsonRule]
  case CorrelationID => exact exists_congr fun r => ⟨hs _, hs' _⟩
  case Channel =>
    unfold ChannelRule
    rw [hp]
    exact imp_congr Iff.rfl (exists_congr fun a => and_congr ⟨hs _, hs' _⟩ Iff.rfl)
  case MessageExample => unfold MessageExampleRule; rw [hp.1, hp.2]
  case SecurityScheme =>
    obtain ⟨p1, p2, p3, p4, p5, p6⟩ := hp
    have t1 : ∀ s, Says d p!"type" s ↔ Is (i.attr p!"type_") s := fun s => ⟨hs.1 s, hs'.1 s⟩
    have t2 : ∀ s, Says d p!"in" s ↔ Is (i.attr p!"in_") s := fun s => ⟨hs.2.1 s, hs'.2.1 s⟩
    have t3 : ∀ s, Says d p!"scheme" s ↔ Is (i.attr p!"scheme") s := fun s => ⟨hs.2.2 s, hs'.2.2 s⟩
    constructor
    · rintro ⟨h1, h2, h3, h4, h5, h6, h7⟩
      simp only [p1, p2, p3, p4, p5, p6, t1, t2, t3] at h1 h2 h3 h4 h5 h6 h7
      exact ⟨h1, h2, h3, h4, h5, h6, h7⟩
    · rintro ⟨h1, h2, h3, h4, h5, h6, h7⟩
      simp only [← p1, ← p2, ← p3, ← p4, ← p5, ← p6, ← t1, ← t2, ← t3] at h1 h2 h3 h4 h5 h6 h7
      exact ⟨h1, h2, h3, h4, h5, h6, h7⟩
  case OAuthFlows =>
    have hf := hf rfl
    have hf' := hf' rfl
    simp only [flowNames, presNames, List.forall_mem_cons, List.not_mem_nil, false_implies, implies_true, and_true] at hf hf'
    obtain ⟨f1, f2, f3, f4⟩ := hf
    obtain ⟨g1, g2, g3, g4⟩ := hf'
    unfold OAuthFlowsJson OAuthFlowsRule
    simp only [List.forall_mem_cons, List.not_mem_nil, false_implies, implies_true, and_true]
    constructor
    · rintro ⟨⟨h1, h2⟩, h3, h4, h5⟩
      refine ⟨⟨fun hp => ?_, fun hp => ?_⟩, fun hp => ?_, fun hp => ?_, fun hp => ?_⟩
      · obtain ⟨f, hf⟩ := g1 hp; exact (f1 f hf).2.1.1 (h1 f hf)
      · obtain ⟨f, hf⟩ := g4 hp; exact (f4 f hf).2.1.1 (h2 f hf)
      · obtain ⟨f, hf⟩ := g2 hp; exact (f2 f hf).2.2.1 (h3 f hf)
      · obtain ⟨f, hf⟩ := g3 hp; exact (f3 f hf).2.2.1 (h4 f hf)
      · obtain ⟨f, hf⟩ := g4 hp; exact (f4 f hf).2.2.1 (h5 f hf)
    · rintro ⟨⟨h1, h2⟩, h3, h4, h5⟩
      refine ⟨⟨fun f hf => ?_, fun f hf => ?_⟩, fun f hf => ?_, fun f hf => ?_, fun f hf => ?_⟩
      · exact (f1 f hf).2.1.2 (h1 (f1 f hf).1)
      · exact (f4 f hf).2.1.2 (h2 (f4 f hf).1)
      · exact (f2 f hf).2.2.2 (h3 (f2 f hf).1)
      · exact (f3 f hf).2.2.2 (h4 (f3 f hf).1)
      · exact (f4 f hf).2.2.2 (h5 (f4 f hf).1)
  case AMQPChannelBindings =>
    exact oneOf_json (a := p!"exchange") (b := p!"queue") (by decide) hp.1 hp.2 fun s => ⟨hs s, hs' s⟩
  case SolaceDestination =>
    exact oneOf_json (a := p!"queue") (b := p!"topic") (by decide) hp.1 hp.2 fun s => ⟨hs s, hs' s⟩
  case KafkaServerBindings => unfold KafkaServerRule; rw [hp.1, hp.2]
  case IBMMQChannelBindings =>
    unfold IBMMQChannelRule
    rw [hp.1, hp.2]
    refine and_congr Iff.rfl (and_congr (imp_congr ⟨hs _, fun h => (hs' _ h).resolve_right (by decide)⟩ Iff.rfl) ?_)
    exact forall_congr' fun n => imp_congr (hi n) Iff.rfl
  case KafkaChannelBindings =>
    unfold KafkaChannelRule
    exact and_congr (forall_congr' fun n => imp_congr (hi.1 n) Iff.rfl) (forall_congr' fun n => imp_congr (hi.2 n) Iff.rfl)
  all_goals exact forall_congr' fun n => imp_congr (hi n) Iff.rfl

/-- IBM MQ messages: the type is read from the JSON, or is "string" by default. -/
theorem rule_ibmmq {d : List (Str × V)} {i : V} (h : View .IBMMQMessageBindings d i) {U : Uni} {limit : Option Nat}
    (ht : ∃ s ∈ [p!"string", p!"jms", p!"binary"], i.attr p!"type" = .str s) :
    JsonRule U limit .IBMMQMessageBindings d ↔ Rule .IBMMQMessageBindings i := by
  obtain ⟨hp, hs, hs', hi, -, -⟩ := h
  simp only [presNames, strNames, intNames, List.forall_mem_cons, List.not_mem_nil, false_implies, implies_true,
    and_true] at hp hs hs' hi
  simp only [Rule, JsonRule, IBMMQMessageRule]
  rw [hp]
  refine and_congr (imp_congr Iff.rfl ?_) (forall_congr' fun n => imp_congr (hi n) Iff.rfl)
  unfold Is
  constructor
  · intro h
    rw [hs _ h]
    exact ⟨by simp, by simp⟩
  · rintro ⟨h1, h2⟩
    obtain ⟨s, hs1, hs2⟩ := ht
    simp only [List.mem_cons, List.not_mem_nil, or_false] at hs1
    rcases hs1 with rfl | rfl | rfl
    · exact absurd hs2 h1
    · exact absurd hs2 h2
    · exact (hs' _ hs2).resolve_right (by decide)

/-! ### What is written agrees with the instance -/

/-- A type of strings, strictly read, and perhaps null. -/
def strish : Ty Cls → Bool
  | .str | .lit _ | .union [.str, .none] | .union [.lit _, .none] => true
  | _ => false

/-- A type whose only scalars are integers and perhaps null. -/
def intish : Ty Cls → Bool
  | .int | .union [.int, .none] | .union [.int, .model .Schema, .model .Reference, .none] => true
  | _ => false

/-- A flow or null. -/
def flowish : Ty Cls → Bool
  | .union [.model .OAuthFlow, .none] => true
  | _ => false

def namesOk (c : Cls) : Bool :=
  ((presNames c).all fun n => (classDef c).fields.any fun f =>
    jsonName f == n.1 && f.name == n.2 && !f.exclude && f.dflt == .null) &&
  ((strNames c).all fun n => (classDef c).fields.any fun f =>
    jsonName f == n.1 && f.name == n.2.1 && !f.exclude && strish f.ty &&
    (match n.2.2 with | none => f.dflt == .null || f.dflt == .required | some s => f.dflt == .str s)) &&
  ((intNames c).all fun n => (classDef c).fields.any fun f =>
    jsonName f == n.1 && f.name == n.2 && !f.exclude && intish f.ty && f.dflt == .null)

theorem names_ok : Cls.all.all namesOk = true := by decide +kernel

theorem flows_ok : (flowNames.all fun n => (classDef .OAuthFlows).fields.any fun f =>
    jsonName f == n.1 && f.name == n.2 && !f.exclude && flowish f.ty && f.dflt == .null) = true := by decide +kernel

theorem pres_field {c : Cls} {n : Str × Str} (h : n ∈ presNames c) : ∃ f ∈ (classDef c).fields,
    jsonName f = n.1 ∧ f.name = n.2 ∧ f.exclude = false ∧ f.dflt = .null := by
  have := List.all_eq_true.1 names_ok c (Cls.mem_all c)
  unfold namesOk at this
  simp only [Bool.and_eq_true, List.all_eq_true, List.any_eq_true, beq_iff_eq, Bool.not_eq_true', and_assoc] at this
  exact this.1 n h

theorem str_field {c : Cls} {n : Str × Str × Option Str} (h : n ∈ strNames c) : ∃ f ∈ (classDef c).fields,
    jsonName f = n.1 ∧ f.name = n.2.1 ∧ f.exclude = false ∧ strish f.ty = true ∧
    (∀ v, HasDefault f.dflt v → v = .none ∨ ∃ s, v = .str s ∧ n.2.2 = some s) := by
  have := List.all_eq_true.1 names_ok c (Cls.mem_all c)
  unfold namesOk at this
  simp only [Bool.and_eq_true, List.all_eq_true, List.any_eq_true, beq_iff_eq, Bool.not_eq_true', and_assoc] at this
  obtain ⟨f, h1, h2, h3, h4, h5, h6⟩ := this.2.1 n h
  refine ⟨f, h1, h2, h3, h4, h5, fun v hv => ?_⟩
  cases hn : n.2.2 with
  | none =>
    rw [hn] at h6
    simp only [Bool.or_eq_true, beq_iff_eq] at h6
    rcases h6 with h6 | h6 <;> rw [h6] at hv
    · exact .inl hv
    · exact absurd hv id
  | some s =>
    rw [hn] at h6
    simp only [beq_iff_eq] at h6
    rw [h6] at hv
    exact .inr ⟨s, hv, rfl⟩

theorem int_field {c : Cls} {n : Str × Str} (h : n ∈ intNames c) : ∃ f ∈ (classDef c).fields,
    jsonName f = n.1 ∧ f.name = n.2 ∧ f.exclude = false ∧ intish f.ty = true ∧ f.dflt = .null := by
  have := List.all_eq_true.1 names_ok c (Cls.mem_all c)
  unfold namesOk at this
  simp only [Bool.and_eq_true, List.all_eq_true, List.any_eq_true, beq_iff_eq, Bool.not_eq_true', and_assoc] at this
  exact this.2.2 n h

theorem flow_field {n : Str × Str} (h : n ∈ flowNames) : ∃ f ∈ (classDef .OAuthFlows).fields,
    jsonName f = n.1 ∧ f.name = n.2 ∧ f.exclude = false ∧ f.ty = .union [.model .OAuthFlow, .none] ∧ f.dflt = .null := by
  have := flows_ok
  simp only [Bool.and_eq_true, List.all_eq_true, List.any_eq_true, beq_iff_eq, Bool.not_eq_true', and_assoc] at this
  obtain ⟨f, h1, h2, h3, h4, h5, h6⟩ := this n h
  refine ⟨f, h1, h2, h3, h4, ?_, h6⟩
  revert h5
  generalize f.ty = t
  unfold flowish
  split <;> simp

section
variable {U : Uni} {limit : Option Nat} {norm : UrlKind → Str → Prop}

theorem strish_dump {t : Ty Cls} (ht : strish t = true) {v : V} (hv : ValidJson U limit norm v t) :
    dump v = v ∧ (v = .none ∨ (∃ s, v = .str s) ∨ ∃ n, v = .int n) := by
  unfold strish at ht
  split at ht
  · cases hv; exact ⟨rfl, .inr (.inl ⟨_, rfl⟩)⟩
  · cases hv
    · exact ⟨rfl, .inr (.inl ⟨_, rfl⟩)⟩
    · exact ⟨rfl, .inr (.inr ⟨_, rfl⟩)⟩
  · cases hv with
    | union hm hv =>
      simp only [List.mem_cons, List.not_mem_nil, or_false] at hm
      rcases hm with rfl | rfl
      · cases hv; exact ⟨rfl, .inr (.inl ⟨_, rfl⟩)⟩
      · cases hv; exact ⟨rfl, .inl rfl⟩
  · cases hv with
    | union hm hv =>
      simp only [List.mem_cons, List.not_mem_nil, or_false] at hm
      rcases hm with rfl | rfl
      · cases hv
        · exact ⟨rfl, .inr (.inl ⟨_, rfl⟩)⟩
        · exact ⟨rfl, .inr (.inr ⟨_, rfl⟩)⟩
      · cases hv; exact ⟨rfl, .inl rfl⟩
  · cases ht

theorem dump_model_dict {c : Cls} (hk : (classDef c).kind ≠ .patterned) {v : V} (hv : ValidJson U limit norm v (.model c)) :
    ∃ fs ex set, v = .inst c fs ex set ∧ dump v = .dict (writtenFields c v ++ ex) := by
  have hvv := validJson_valid hv
  cases hv with
  | model h1 h2 h3 h4 h5 => exact ⟨_, _, _, rfl, dump_written hk hvv h3⟩

theorem intish_dump {t : Ty Cls} (ht : intish t = true) {v : V} (hv : ValidJson U limit norm v t) (n : Int) :
    dump v = .int n ↔ v = .int n := by
  unfold intish at ht
  split at ht
  · cases hv; exact Iff.rfl
  · cases hv with
    | union hm hv =>
      simp only [List.mem_cons, List.not_mem_nil, or_false] at hm
      rcases hm with rfl | rfl
      · cases hv; exact Iff.rfl
      · cases hv; exact Iff.rfl
  · cases hv with
    | union hm hv =>
      simp only [List.mem_cons, List.not_mem_nil, or_false] at hm
      rcases hm with rfl | rfl | rfl | rfl
      · cases hv; exact Iff.rfl
      · obtain ⟨fs, ex, set, e, h⟩ := dump_model_dict (by decide) hv
        rw [h, e]; simp
      · obtain ⟨fs, ex, set, e, h⟩ := dump_model_dict (by decide) hv
        rw [h, e]; simp
      · cases hv; exact Iff.rfl
  · cases ht

open Classical in
theorem lookup_dump {c : Cls} {fs ex : List (Str × V)} {set : List Str}
    (hv : ValidJson U limit norm (.inst c fs ex set) (.model c)) {f : FieldDef Cls} (hf : f ∈ (classDef c).fields) :
    lookup (jsonName f) (writtenFields c (.inst c fs ex set) ++ ex) =
      if Shown c f ((V.inst c fs ex set).attr f.name) then some (dump ((V.inst c fs ex set).attr f.name)) else none := by
  cases hv with
  | model h1 h2 h3 h4 h5 =>
    rw [lookup_append]
    split
    · rename_i hs
      rw [lookup_written_shown hf hs]; rfl
    · rename_i hs
      rw [lookup_written_none hf (.inr rfl) fun _ => hs]
      exact lookup_none_of fun e he => h5 e he f hf

theorem shown_of_ne {c : Cls} {f : FieldDef Cls} (hf : f ∈ (classDef c).fields) (he : f.exclude = false) {v : V}
    (hv : ValidJson U limit norm v f.ty) (hn : v ≠ .none) : Shown c f v := by
  refine (shown_iff hf (validJson_valid hv)).1 ?_
  rw [he]
  cases v <;> first | exact absurd rfl hn | simp [V.isNone]

theorem field_validJson {c : Cls} {fs ex : List (Str × V)} {set : List Str}
    (hv : ValidJson U limit norm (.inst c fs ex set) (.model c)) {f : FieldDef Cls} (hf : f ∈ (classDef c).fields) :
    ValidJson U limit norm ((V.inst c fs ex set).attr f.name) f.ty := by
  cases hv with
  | model h1 h2 h3 h4 h5 => exact h2 f hf

theorem pres_dump {c : Cls} {fs ex : List (Str × V)} {set : List Str}
    (hv : ValidJson U limit norm (.inst c fs ex set) (.model c)) {f : FieldDef Cls} (hf : f ∈ (classDef c).fields)
    (he : f.exclude = false) : HasField (writtenFields c (.inst c fs ex set) ++ ex) (jsonName f) ↔
      Present ((V.inst c fs ex set).attr f.name) := by
  unfold HasField Present
  rw [lookup_dump hv hf]
  constructor
  · rintro ⟨x, h1, h2⟩ h
    split at h1
    · simp only [Option.some.injEq] at h1
      rw [h] at h1
      exact h2 h1.symm
    · cases h1
  · intro h
    rw [if_pos (shown_of_ne hf he (field_validJson hv hf) h)]
    exact ⟨_, rfl, fun e => h (dump_ne_none (field_validJson hv hf) e)⟩

theorem view_dump {c : Cls} {fs ex : List (Str × V)} {set : List Str}
    (hv : ValidJson U limit norm (.inst c fs ex set) (.model c)) :
    View c (writtenFields c (.inst c fs ex set) ++ ex) (.inst c fs ex set) where
  pres := by
    intro n hn
    obtain ⟨f, hf, h1, h2, h3, -⟩ := pres_field hn
    rw [← h1, ← h2]
    exact pres_dump hv hf h3
  str := by
    intro n hn s hs
    obtain ⟨f, hf, h1, h2, h3, h4, -⟩ := str_field hn
    unfold Says at hs
    rw [← h1, lookup_dump hv hf] at hs
    rw [← h2]
    split at hs
    · rw [(strish_dump h4 (field_validJson hv hf)).1] at hs
      exact Option.some.inj hs
    · cases hs
  str' := by
    intro n hn s hs
    obtain ⟨f, hf, h1, h2, h3, h4, -⟩ := str_field hn
    rw [← h2] at hs
    left
    unfold Says
    rw [← h1, lookup_dump hv hf, if_pos (shown_of_ne hf h3 (field_validJson hv hf) (by rw [hs]; simp)), hs]
    rfl
  int := by
    intro n hn k
    obtain ⟨f, hf, h1, h2, h3, h4, -⟩ := int_field hn
    rw [← h1, ← h2, lookup_dump hv hf, ← intish_dump h4 (field_validJson hv hf)]
    constructor
    · intro h
      split at h
      · exact Option.some.inj h
      · cases h
    · intro h
      rw [if_pos (shown_of_ne hf h3 (field_validJson hv hf) ?_), h]
      intro e; rw [e] at h; cases h
  flow := by
    rintro rfl n hn f0 hf0
    obtain ⟨f, hf, h1, h2, h3, h4, -⟩ := flow_field hn
    have hfv := field_validJson hv hf
    rw [h4] at hfv
    rw [← h1, lookup_dump hv hf] at hf0
    rw [← h2]
    split at hf0
    · have hf0 := Option.some.inj hf0
      generalize (V.inst Cls.OAuthFlows fs ex set).attr f.name = w at hfv hf0
      cases hfv with
      | union hm hw =>
        simp only [List.mem_cons, List.not_mem_nil, or_false] at hm
        rcases hm with rfl | rfl
        · obtain ⟨fs', ex', set', rfl, he⟩ := dump_model_dict (by decide) hw
          rw [he] at hf0
          simp only [V.dict.injEq] at hf0
          subst hf0
          refine ⟨by simp [Present], fun m hm => ?_⟩
          obtain ⟨g, hg, g1, g2, g3, -⟩ := pres_field hm
          rw [← g1, ← g2]
          exact pres_dump hw hg g3
        · cases hw; cases hf0
    · cases hf0
  flow' := by
    rintro rfl n hn hp
    obtain ⟨f, hf, h1, h2, h3, h4, -⟩ := flow_field hn
    have hfv := field_validJson hv hf
    rw [← h1, lookup_dump hv hf]
    rw [← h2] at hp
    rw [if_pos (shown_of_ne hf h3 hfv hp)]
    rw [h4] at hfv
    generalize (V.inst Cls.OAuthFlows fs ex set).attr f.name = w at hfv hp
    cases hfv with
    | union hm hw =>
      simp only [List.mem_cons, List.not_mem_nil, or_false] at hm
      rcases hm with rfl | rfl
      · obtain ⟨fs', ex', set', rfl, he⟩ := dump_model_dict (by decide) hw
        exact ⟨_, by rw [he]⟩
      · cases hw; exact absurd rfl hp
end

/-! ### What is written conforms -/

/-- The world of an environment: its Unicode tables, its limit, its URLs; `reserved` and `freeKeys` as given. -/
def worldOf (E : Env) (reserved : Cls → Str → Prop) (freeKeys : Prop := True) : World where
  U := E.U
  limit := E.digits
  isUrl k s := (E.url k s).isSome = true
  reserved := reserved
  freeKeys := freeKeys

theorem kind_cases {c : Cls} {rs : List Row} (h : (c, rs) ∈ grammar) :
    (classDef c).kind ≠ .patterned ∧ ((classDef c).kind = .openExtra ↔ c ∈ anyFields) ∧
    ((classDef c).kind = .extendable ↔ c ∈ extensible) := by
  have h1 := List.all_eq_true.1 grammar_ok _ h
  unfold classOk at h1
  simp only [Bool.and_eq_true] at h1
  have h2 := h1.1.1
  unfold kindOk at h2
  have hx : ∀ c ∈ anyFields, c ∉ extensible := by decide
  split at h2
  · rename_i hc
    have hc : c ∈ anyFields := by simpa using hc
    simp only [beq_iff_eq] at h2
    rw [h2]
    exact ⟨by simp, by simp [hc], by simp [hx c hc]⟩
  · rename_i hc
    have hc : c ∉ anyFields := by simpa using hc
    split at h2
    · rename_i hc2
      have hc2 : c ∈ extensible := by simpa using hc2
      simp only [beq_iff_eq] at h2
      rw [h2]
      exact ⟨by simp, by simp [hc], by simp [hc2]⟩
    · rename_i hc2
      have hc2 : c ∉ extensible := by simpa using hc2
      simp only [beq_iff_eq] at h2
      rw [h2]
      exact ⟨by simp, by simp [hc], by simp [hc2]⟩

/-- A row of the grammar and its declared field. -/
structure RowField (r : Row) (f : FieldDef Cls) : Prop where
  name : jsonName f = r.name
  exclude : f.exclude = false
  max : r.max = f.maxLen
  long : f.maxLen = none ∨ (strTy f.ty = true ∧ isString r.ty = true)
  ty : fits r.ty f.ty = true ∨ (f.excludeNull = true ∧ fits r.ty (strip f.ty) = true)
  required : r.required = true → f.excludeNull = false
  optional : r.required = false → f.dflt ≠ .required

theorem rowField {r : Row} {f : FieldDef Cls} (h : rowOk r f = true) : RowField r f := by
  unfold rowOk at h
  simp only [Bool.and_eq_true, beq_iff_eq, Bool.not_eq_true', Bool.or_eq_true, Option.isNone_iff_eq_none] at h
  obtain ⟨⟨⟨⟨⟨h1, h2⟩, h3⟩, h4⟩, h5⟩, h6⟩ := h
  refine ⟨h1, h2, h3, h4, h5, fun hr => ?_, fun hr => ?_⟩
  · rw [if_pos hr] at h6; simpa using h6
  · rw [hr] at h6; simpa using h6

theorem field_of_row {c : Cls} {rs : List Row} (h : (c, rs) ∈ grammar) {r : Row} (hr : r ∈ rs) :
    ∃ f ∈ (classDef c).fields, RowField r f := by
  have h1 := List.all_eq_true.1 grammar_ok _ h
  unfold classOk at h1
  simp only [Bool.and_eq_true, List.all_eq_true, List.any_eq_true] at h1
  obtain ⟨f, hf, h2⟩ := h1.1.2 r hr
  exact ⟨f, hf, rowField h2⟩

theorem row_of_field {c : Cls} {rs : List Row} (h : (c, rs) ∈ grammar) {f : FieldDef Cls} (hf : f ∈ (classDef c).fields)
    (he : f.exclude = false) : ∃ r ∈ rs, RowField r f := by
  have h1 := List.all_eq_true.1 grammar_ok _ h
  unfold classOk at h1
  simp only [Bool.and_eq_true, List.all_eq_true, List.any_eq_true, Bool.or_eq_true] at h1
  obtain ⟨r, hr, h2⟩ := (h1.2 f hf).resolve_left (by rw [he]; simp)
  exact ⟨r, hr, rowField h2⟩

theorem grammar_of {c : Cls} (hk : (classDef c).kind ≠ .patterned) : ∃ rs, (c, rs) ∈ grammar := by
  have := List.all_eq_true.1 grammar_complete c (Cls.mem_all c)
  simp only [Bool.or_eq_true, beq_iff_eq, List.any_eq_true] at this
  obtain ⟨e, he, rfl⟩ := this.resolve_left hk
  exact ⟨e.2, he⟩

theorem strip_valid {U : Uni} {limit : Option Nat} {norm : UrlKind → Str → Prop} {v : V} {t : Ty Cls}
    (h : ValidJson U limit norm v t) (hn : v ≠ .none) : ValidJson U limit norm v (strip t) := by
  cases t with
  | union ms =>
    cases h with
    | @union _ t _ hm hv =>
      have hm' : t ∈ ms.filter fun m => !isNoneTy m := by
        rw [List.mem_filter]
        refine ⟨hm, ?_⟩
        cases t <;> first | rfl | (cases hv; exact absurd rfl hn)
      simp only [strip]
      split
      · rename_i m heq
        rw [heq, List.mem_singleton] at hm'
        subst hm'
        exact hv
      · exact .union hm' hv
  | _ => exact h

/-- What is written of a valid value has the type of the grammar. -/
def Written (W : World) (v : V) (t : Ty Cls) : Prop := ∀ s, fits s t = true → Conforms W (dump v) s

theorem written_object {E : Env} (hd : E.digits ≠ some 0) {norm : UrlKind → Str → Prop}
    {c : Cls} (hk : (classDef c).kind ≠ .patterned) {fs ex : List (Str × V)} {set : List Str}
    (hv : ValidJson E.U E.digits norm (.inst c fs ex set) (.model c))
    (ih : ∀ f ∈ (classDef c).fields, Written (worldOf E fun _ _ => False) ((V.inst c fs ex set).attr f.name) f.ty)
    (ih' : ∀ f ∈ (classDef c).fields, (V.inst c fs ex set).attr f.name ≠ .none →
      Written (worldOf E fun _ _ => False) ((V.inst c fs ex set).attr f.name) (strip f.ty)) :
    Conforms (worldOf E fun _ _ => False) (dump (.inst c fs ex set)) (.object c) := by
  obtain ⟨rs, hrs⟩ := grammar_of hk
  obtain ⟨-, hk1, hk2⟩ := kind_cases hrs
  have hview := view_dump hv
  have hlook := fun f hf => lookup_dump hv (f := f) hf
  have hfield := fun f hf => field_validJson hv (f := f) hf
  have hvv := validJson_valid hv
  cases hv with
  | model h1 h2 h3 h4 h5 =>
    rw [dump_written hk hvv h3]
    refine .object hrs ?_ ?_ ?_ ?_ ?_
    · intro r hr hreq
      obtain ⟨f, hf, hrf⟩ := field_of_row hrs hr
      rw [← hrf.name, hlook f hf, if_pos]
      · exact ⟨_, rfl⟩
      · exact (shown_iff hf (validJson_valid (hfield f hf))).1 (by rw [hrf.exclude, hrf.required hreq]; rfl)
    · intro r hr e hee hen
      obtain ⟨f, hf, hrf⟩ := field_of_row hrs hr
      rcases List.mem_append.1 hee with hee | hee
      · obtain ⟨g, hg, hs, rfl⟩ := mem_written hee
        have : g = f := apart hg hf (.inr (.inr (by rw [hrf.name]; exact hen)))
        subst this
        rcases hrf.ty with ht | ⟨he, ht⟩
        · exact ih g hf _ ht
        · refine ih' g hf ?_ _ ht
          have := (shown_iff hf (validJson_valid (hfield g hf))).2 hs
          intro hnone
          rw [hnone, he] at this
          simp [V.isNone] at this
      · exact absurd (hen.trans hrf.name.symm) (h5 e hee f hf)
    · intro r hr s m hx hm
      obtain ⟨f, hf, hrf⟩ := field_of_row hrs hr
      rw [← hrf.name, hlook f hf] at hx
      rw [hrf.max] at hm
      rcases hrf.long with hl | ⟨hl, -⟩
      · rw [hl] at hm; cases hm
      · split at hx
        · have hx := Option.some.inj hx
          have hsh : strish f.ty = true := by
            revert hl
            generalize f.ty = t
            unfold strTy
            split <;> simp [strish]
          rw [(strish_dump hsh (hfield f hf)).1] at hx
          exact h4.lengths f hf m s hm hx
        · cases hx
    · intro e he
      rcases List.mem_append.1 he with he | he
      · left
        obtain ⟨f, hf, hs, rfl⟩ := mem_written he
        have hne : f.exclude = false := by
          have := (shown_iff hf (validJson_valid (hfield f hf))).2 hs
          simp only [Bool.and_eq_true, Bool.not_eq_true'] at this
          exact this.1
        obtain ⟨r, hr, hrf⟩ := row_of_field hrs hf hne
        exact ⟨r, hr, hrf.name⟩
      · right
        refine ⟨?_, h3 e he⟩
        cases hkk : (classDef c).kind with
        | openExtra => exact .inl ⟨hk1.1 hkk, id⟩
        | extendable => exact .inr ⟨hk2.1 hkk, h4.extensions hkk e he⟩
        | nonExtendable =>
          have : ex = [] := h4.closed (.inl hkk)
          rw [this] at he; cases he
        | patterned => exact absurd hkk hk
    · by_cases hc : c = .AsyncAPI3
      · subst hc
        show ∃ s, _
        have hver : ∃ s, (V.inst Cls.AsyncAPI3 fs ex set).attr p!"asyncapi" = .str s ∧ VersionOk E.U E.digits s := by
          rcases h4.version rfl with h | h
          · exact ⟨_, h, (C23_exact _ _ _).1 (version_default hd)⟩
          · exact h
        obtain ⟨s, hs1, hs2⟩ := hver
        obtain ⟨f, hf, hf1⟩ := asyncapi_field
        have hjn : jsonName f = p!"asyncapi" := by
          have : ∀ f ∈ (classDef .AsyncAPI3).fields, f.name = p!"asyncapi" → jsonName f = p!"asyncapi" ∧ f.exclude = false := by
            decide +kernel
          exact (this f hf hf1).1
        refine ⟨s, ?_, hs2⟩
        unfold Says
        rw [← hjn, hlook f hf, hf1, hs1, if_pos]
        · rfl
        · exact ⟨by rw [hf1]; decide, .inl (by simp)⟩
      · by_cases hm : c = .IBMMQMessageBindings
        · subst hm
          refine (rule_ibmmq hview ?_).2 h4.rule
          have ht := hfield (defIBMMQMessageBindings.fields[0]) (List.mem_of_getElem (i := 0) rfl)
          have ht' : ValidJson E.U E.digits norm ((V.inst Cls.IBMMQMessageBindings fs ex set).attr p!"type")
            (.lit [.s p!"string", .s p!"jms", .s p!"binary"]) := ht
          generalize (V.inst Cls.IBMMQMessageBindings fs ex set).attr p!"type" = w at ht'
          cases ht' with
          | litStr h => exact ⟨_, by simpa using h, rfl⟩
          | litInt h => simp at h
        · exact (rule_json hview hc hm).2 h4.rule

theorem written_mem {W : World} (hW : W.freeKeys) {ts : List STy} {m : Ty Cls} (h : fitsSome ts m = true) {v : V} (hw : Written W v m) :
    Conforms W (dump v) (.either ts) := by
  obtain ⟨t, ht, hf⟩ := fitsSome_iff.1 h
  exact .either ht (fun _ _ => hW) (hw t hf)

theorem written_conforms {E : Env} (hd : E.digits ≠ some 0) {v : V} {ty : Ty Cls}
    (hv : ValidJson E.U E.digits (NormalUrl E) v ty) : Written (worldOf E fun _ _ => False) v ty := by
  have hurl : ∀ {k s}, NormalUrl E k s → (worldOf E fun _ _ => False).isUrl k s := by
    intro k s h; show (E.url k s).isSome = true; rw [h]; rfl
  suffices Written (worldOf E fun _ _ => False) v ty ∧ (v ≠ .none → Written (worldOf E fun _ _ => False) v (strip ty)) from this.1
  have same : ∀ {v : V} {t : Ty Cls}, Written (worldOf E fun _ _ => False) v t → strip t = t →
      Written (worldOf E fun _ _ => False) v t ∧ (v ≠ .none → Written (worldOf E fun _ _ => False) v (strip t)) :=
    fun h e => ⟨h, fun _ => by rw [e]; exact h⟩
  induction hv with
  | @union v t ts hm hv ih =>
    have hmem : ∀ ms, t ∈ ms → Written (worldOf E fun _ _ => False) v (.union ms) := by
      intro ms hm s hs
      cases s <;> simp only [fits, Bool.false_eq_true] at hs
      rw [Bool.and_eq_true, List.all_eq_true] at hs
      exact written_mem (W := worldOf E fun _ _ => False) trivial (hs.2 t hm) ih.1
    refine ⟨hmem ts hm, fun hn => ?_⟩
    have hm' : t ∈ ts.filter fun m => !isNoneTy m := by
      rw [List.mem_filter]
      refine ⟨hm, ?_⟩
      cases t <;> first | rfl | (cases hv; exact absurd rfl hn)
    simp only [strip]
    split
    · rename_i m heq
      rw [heq, List.mem_singleton] at hm'
      subst hm'
      exact ih.1
    · exact hmem _ hm'
  | @model c fs ex set h1 h2 h3 h4 h5 ih =>
    suffices h : Written (worldOf E fun _ _ => False) (.inst c fs ex set) (.model c) from ⟨h, fun _ => h⟩
    have hv := ValidJson.model h1 h2 h3 h4 h5
    intro s hs
    cases s <;> simp only [fits, Bool.false_eq_true, Bool.and_eq_true, beq_iff_eq, bne_iff_ne] at hs
    · obtain ⟨rfl, hk⟩ := hs
      exact written_object hd hk hv (fun f hf => (ih f hf).1) fun f hf => (ih f hf).2
    · obtain ⟨hk, hs⟩ := hs
      rename_i t
      obtain ⟨ty, hfs⟩ := patterned_root c hk
      rw [hfs] at ih hs
      simp only [List.all_cons, List.all_nil, Bool.and_true] at hs
      have hw := (ih _ List.mem_cons_self).1 (.map t) hs
      obtain ⟨d, hd1, hd2⟩ := C36_patterned E.U E.digits c hk _ (validJson_valid hv)
      rw [hd2]
      simp only [hd1] at hw
      change Conforms _ (.dict (dumpDict d)) _ at hw
      rw [dumpDict_map] at hw
      cases hw with
      | map hw =>
        refine .keyed (fun e he => ?_) hw
        obtain ⟨e', he', rfl⟩ := List.mem_map.1 he
        exact h4.keys hk d hd1 e' he'
  | any hj => 
    refine same ?_ rfl
    intro s hs
    cases s <;> simp only [fits, Bool.false_eq_true] at hs
    rw [dump_json _ hj]
    exact .any hj
  | list h ih =>
    refine same ?_ rfl
    intro s hs
    cases s <;> simp only [fits, Bool.false_eq_true] at hs
    show Conforms _ (.list (dumpList _)) _
    rw [dumpList_map]
    refine .list fun v hv => ?_
    obtain ⟨w, hw, rfl⟩ := List.mem_map.1 hv
    exact (ih w hw).1 _ hs
  | dict h ih =>
    refine same ?_ rfl
    intro s hs
    cases s <;> simp only [fits, Bool.false_eq_true] at hs
    show Conforms _ (.dict (dumpDict _)) _
    rw [dumpDict_map]
    refine .map fun v hv => ?_
    obtain ⟨w, hw, rfl⟩ := List.mem_map.1 hv
    exact (ih w hw).1 _ hs
  | anyUrl hn =>
    refine same ?_ rfl
    intro s hs
    cases s with
    | url k => cases k <;> first | exact .url (hurl hn) | cases hs
    | _ => cases hs
  | httpUrl hn =>
    refine same ?_ rfl
    intro s hs
    cases s with
    | url k => cases k <;> first | exact .url (hurl hn) | cases hs
    | _ => cases hs
  | email hn =>
    refine same ?_ rfl
    intro s hs
    cases s <;> simp only [fits, Bool.false_eq_true] at hs
    exact .email hn
  | litStr hm =>
    refine same ?_ rfl
    intro s hs
    cases s <;> simp only [fits, Bool.false_eq_true, Bool.and_eq_true, List.all_eq_true, List.contains_iff_mem] at hs
    exact .enumStr (hs.2 _ hm)
  | litInt hm =>
    refine same ?_ rfl
    intro s hs
    cases s <;> simp only [fits, Bool.false_eq_true, Bool.and_eq_true, List.all_eq_true, List.contains_iff_mem] at hs
    exact .enumInt (hs.2 _ hm)
  | none =>
    refine same ?_ rfl
    intro s hs
    cases s <;> simp only [fits, Bool.false_eq_true] at hs
    exact .null
  | str =>
    refine same ?_ rfl
    intro s hs
    cases s <;> simp only [fits, Bool.false_eq_true] at hs
    exact .string
  | int =>
    refine same ?_ rfl
    intro s hs
    cases s <;> simp only [fits, Bool.false_eq_true] at hs
    exact .integer
  | bool =>
    refine same ?_ rfl
    intro s hs
    cases s <;> simp only [fits, Bool.false_eq_true] at hs
    exact .boolean

theorem grammar_unique : (grammar.map (·.1)).Nodup := by decide +kernel

theorem rows_unique {c : Cls} {rs rs' : List Row} (h : (c, rs) ∈ grammar) (h' : (c, rs') ∈ grammar) : rs = rs' := by
  have := List.inj_on_of_nodup_map grammar_unique h h' rfl
  exact congrArg Prod.snd this

end Verif.Pyd
