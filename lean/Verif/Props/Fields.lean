import Verif.Lemmas.Fieldwise
/-!
# C24–C31, C41: constraints on the fields of instances
-/
namespace Verif.Props
open Verif Verif.Spec Verif.Pyd Verif.Gen Verif.Regex

theorem isStr_iff {v : V} {s : Str} : Fields.isStr v s = true ↔ Is v s := by
  cases v <;> simp [Fields.isStr, Is]

theorem expression_iff (a : Str) : isSearch Fields.expressionRegex a = true ↔ HasExpression a := by
  rw [isSearch_iff]
  unfold Fields.expressionRegex HasExpression
  simp only [mem_seq, mem_lit, mem_plus, bne_iff_ne, ne_eq]
  constructor
  · rintro ⟨before, _, rest, rfl, _, rfl, _, ⟨inside, rfl, h1, h2⟩, rfl⟩
    exact ⟨before, inside, rest, rfl, h1, fun h => h2 _ h rfl⟩
  · rintro ⟨before, inside, rest, rfl, h1, h2⟩
    exact ⟨before, _, rest, rfl, _, rfl, _, ⟨inside, rfl, h1, fun c hc e => h2 (e ▸ hc)⟩, rfl⟩

theorem ifInt_iff {P : Int → Prop} {v : V} {b : V → Bool} (h1 : ∀ n, b (.int n) = true ↔ P n)
    (h2 : (∀ n, v ≠ .int n) → b v = true) : b v = true ↔ IfInt v P := by
  unfold IfInt
  constructor
  · rintro h n rfl; exact (h1 n).1 h
  · intro h
    by_cases hv : ∃ n, v = .int n
    · obtain ⟨n, rfl⟩ := hv; exact (h1 n).2 (h n rfl)
    · exact h2 fun n e => hv ⟨n, e⟩

theorem positive_iff {v : V} : Fields.positive v = true ↔ IfInt v (1 ≤ ·) :=
  ifInt_iff (fun n => by simp only [Fields.positive, Bool.not_eq_true', decide_eq_false_iff_not]; omega)
    (fun h => by cases v <;> first | rfl | exact absurd rfl (h _))
theorem notNegative_iff {v : V} : Fields.notNegative v = true ↔ IfInt v (0 ≤ ·) :=
  ifInt_iff (fun n => by simp only [Fields.notNegative, Bool.not_eq_true', decide_eq_false_iff_not]; omega)
    (fun h => by cases v <;> first | rfl | exact absurd rfl (h _))
theorem heartBeat_iff {v : V} : Fields.heartBeat v = true ↔ IfInt v fun n => 0 ≤ n ∧ n ≤ 999999 :=
  ifInt_iff (fun n => by
      simp only [Fields.heartBeat, Bool.not_eq_true', Bool.or_eq_false_iff, decide_eq_false_iff_not]; omega)
    (fun h => by cases v <;> first | rfl | exact absurd rfl (h _))
theorem maxMsgLength_iff {v : V} : Fields.maxMsgLength v = true ↔ IfInt v fun n => 0 ≤ n ∧ n ≤ 104857600 :=
  ifInt_iff (fun n => by
      simp only [Fields.maxMsgLength, Bool.not_eq_true', Bool.or_eq_false_iff, decide_eq_false_iff_not]; omega)
    (fun h => by cases v <;> first | rfl | exact absurd rfl (h _))
theorem solacePriority_iff {v : V} : Fields.solacePriority v = true ↔ IfInt v fun n => 0 ≤ n ∧ n ≤ 255 :=
  ifInt_iff (fun n => by
      simp only [Fields.solacePriority, Bool.not_eq_true', Bool.or_eq_false_iff, decide_eq_false_iff_not]; omega)
    (fun h => by cases v <;> first | rfl | exact absurd rfl (h _))

theorem channel_iff (i : V) : Fields.channelParameters i = true ↔ ChannelRule i := by
  unfold Fields.channelParameters ChannelRule Present
  by_cases h : i.attr p!"parameters" = .none
  · simp [h, V.isNone]
  · rw [if_neg (fun h' => h (isNone_iff.1 h'))]
    cases ha : i.attr p!"address" <;> simp [h, expression_iff]

theorem messageExample_iff (i : V) : Fields.headersOrPayload i = true ↔ MessageExampleRule i := by
  unfold Fields.headersOrPayload MessageExampleRule Present
  rw [Bool.not_eq_true', Bool.and_eq_false_iff, isNone_false, isNone_false]

theorem securityScheme_iff (i : V) : Fields.securityScheme i = true ↔ SecuritySchemeRule i := by
  have hb : ∀ (p q r : Bool), (if p = true then (if q = true then false else if (!r) = true then false else true) else true) =
      true ↔ (p = true → q = false ∧ r = true) := by decide
  have hb' : ∀ (p q q' r : Bool), (if p = true then (if q = true then false else if q' = true then false else
      if (!r) = true then false else true) else true) = true ↔ (p = true → q = false ∧ q' = false ∧ r = true) := by decide
  have h2 : ∀ (p q : Bool), (!(p && q)) = true ↔ (p = true → q = false) := by decide
  have h3 : ∀ (p q r : Bool), (!(!p && (!q || !r))) = true ↔ (p = false → q = true ∧ r = true) := by decide
  have h4 : ∀ (p q r : Bool), (!(!p && !(q || r))) = true ↔ (p = false → q = true ∨ r = true) := by decide
  unfold Fields.securityScheme Fields.apiKey Fields.httpApiKey Fields.http Fields.bearerFormat Fields.oauth2
    Fields.openIdConnect Fields.scopes
  simp only [Bool.and_eq_true, hb, hb', h3, h4, h2, isStr_iff, isNone_false, Bool.or_eq_true]
  constructor
  · rintro ⟨⟨⟨⟨⟨⟨h1, h2⟩, h3⟩, h4⟩, h5⟩, h6⟩, h7⟩
    refine ⟨fun h => (h1 h).2, fun h => ?_, h4, h5, h6, h2, h7⟩
    have := h3 h
    exact ⟨this.1, by simpa [or_assoc] using this.2.2⟩
  · rintro ⟨h1, h2, h3, h4, h5, h6, h7⟩
    refine ⟨⟨⟨⟨⟨⟨fun h => ⟨?_, h1 h⟩, h6⟩, fun h => ⟨(h2 h).1, ?_, by simpa [or_assoc] using (h2 h).2⟩⟩, h3⟩, h4⟩, h5⟩, h7⟩
    · rcases h1 h with e | e <;> rw [e] <;> simp
    · rcases (h2 h).2 with e | e | e <;> rw [e] <;> simp

theorem oauthFlows_iff (i : V) : Fields.oauthFlows i = true ↔ OAuthFlowsRule i := by
  have h1 : ∀ p q : Bool, (!(!p && q)) = true ↔ (p = false → q = false) := by decide
  have h2 : ∀ p q r : Bool, (if (!p) = true then (if q = true then false else if r = true then false else true) else true) =
      true ↔ (p = false → q = false ∧ r = false) := by decide
  unfold Fields.oauthFlows Fields.implicitFlow Fields.passwordFlow Fields.clientCredentialsFlow
    Fields.authorizationCodeFlow OAuthFlowsRule Present
  simp only [Bool.and_eq_true, h1, h2, isNone_false, List.mem_cons, List.not_mem_nil, or_false, forall_eq_or_imp,
    forall_eq]
  constructor
  · rintro ⟨⟨⟨a, b⟩, c⟩, e⟩; exact ⟨⟨a, fun h => (e h).1⟩, b, c, fun h => (e h).2⟩
  · rintro ⟨⟨a, e⟩, b, c, g⟩; exact ⟨⟨⟨a, b⟩, c⟩, fun h => ⟨e h, g h⟩⟩

theorem correlationID_iff (i : V) : Fields.runtimeExpression (i.attr p!"location") = true ↔ CorrelationIDRule i := by
  unfold CorrelationIDRule
  cases h : i.attr p!"location" <;> simp only [Fields.runtimeExpression, Str.startsWith, List.isPrefixOf_iff_prefix,
    Bool.false_eq_true, reduceCtorEq, exists_false, V.str.injEq]
  constructor
  · rintro ⟨r, e⟩; exact ⟨r, e.symm⟩
  · rintro ⟨r, e⟩; exact ⟨r, e.symm⟩

theorem oneOf_iff (i : V) (sel v1 f1 v2 f2 : Str) (hne : v1 ≠ v2) :
    (if Fields.isStr (i.attr sel) v1 = true then
      (if (i.attr f1).isNone = true then false else if (!(i.attr f2).isNone) = true then false else true)
     else if Fields.isStr (i.attr sel) v2 = true then
      (if (i.attr f2).isNone = true then false else if (!(i.attr f1).isNone) = true then false else true)
     else true) = true ↔ OneOf i sel [(v1, f1, f2), (v2, f2, f1)] := by
  have hb : ∀ p q : Bool, (if p = true then false else if (!q) = true then false else true) = true ↔
      (p = false ∧ q = true) := by decide
  have hspec : OneOf i sel [(v1, f1, f2), (v2, f2, f1)] ↔
      (Is (i.attr sel) v1 → Present (i.attr f1) ∧ ¬ Present (i.attr f2)) ∧
      (Is (i.attr sel) v2 → Present (i.attr f2) ∧ ¬ Present (i.attr f1)) := by
    unfold OneOf
    constructor
    · intro h; exact ⟨h v1 f1 f2 (by simp), h v2 f2 f1 (by simp)⟩
    · rintro ⟨h1, h2⟩ v y n hm
      simp only [List.mem_cons, Prod.mk.injEq, List.not_mem_nil, or_false] at hm
      rcases hm with ⟨rfl, rfl, rfl⟩ | ⟨rfl, rfl, rfl⟩
      · exact h1
      · exact h2
  rw [hspec]
  by_cases h1 : Is (i.attr sel) v1
  · have h2 : ¬ Is (i.attr sel) v2 := by
      intro h; unfold Is at h h1; rw [h1] at h; exact hne (V.str.inj h)
    rw [if_pos (isStr_iff.2 h1), hb, isNone_false, isNone_iff]
    simp [h1, h2, Present]
  · rw [if_neg (fun h => h1 (isStr_iff.1 h))]
    by_cases h2 : Is (i.attr sel) v2
    · rw [if_pos (isStr_iff.2 h2), hb, isNone_false, isNone_iff]
      simp [h1, h2, Present]
    · rw [if_neg (fun h => h2 (isStr_iff.1 h))]
      simp [h1, h2]

theorem amqpChannel_iff (i : V) : Fields.amqpChannel i = true ↔ AMQPChannelRule i :=
  oneOf_iff i p!"is_" p!"routingKey" p!"exchange" p!"queue" p!"queue" (by decide)

theorem solaceDestination_iff (i : V) : Fields.solaceDestination i = true ↔ SolaceDestinationRule i :=
  oneOf_iff i p!"destination_type" p!"queue" p!"queue" p!"topic" p!"topic" (by decide)

theorem ibmmqChannel_iff (i : V) : (Fields.maxMsgLength (i.attr p!"max_msg_length") = true ∧
    Fields.ibmmqChannel i = true) ↔ IBMMQChannelRule i := by
  have hb : ∀ p q r : Bool, (if (!p && !q) = true then false else if (r && p) = true then false else true) = true ↔
      (¬ (p = false ∧ q = false) ∧ (r = true → p = false)) := by decide
  unfold Fields.ibmmqChannel IBMMQChannelRule
  rw [maxMsgLength_iff, hb, isNone_false, isNone_false, isStr_iff]
  unfold Present
  constructor
  · rintro ⟨a, b, c⟩; exact ⟨b, c, a⟩
  · rintro ⟨b, c, a⟩; exact ⟨a, b, c⟩

theorem ibmmqMessage_iff (i : V) : (Fields.notNegative (i.attr p!"expiry") = true ∧
    Fields.ibmmqMessage i = true) ↔ IBMMQMessageRule i := by
  have hb : ∀ p q r : Bool, (!((p || q) && !r)) = true ↔ (r = false → ¬ p = true ∧ ¬ q = true) := by decide
  unfold Fields.ibmmqMessage IBMMQMessageRule
  rw [notNegative_iff, hb, isNone_false, isStr_iff, isStr_iff]
  exact and_comm

theorem kafkaServer_iff (i : V) : Fields.kafkaServer i = true ↔ KafkaServerRule i := by
  have hb : ∀ p q : Bool, (!(p && !q)) = true ↔ (q = false → p = false) := by decide
  unfold Fields.kafkaServer KafkaServerRule
  rw [hb, isNone_false, isNone_false]; rfl

theorem rule_iff (E : Env) (c : Cls) (hc : c ≠ .AsyncAPI3) (i : V) :
    ((∀ f ∈ (classDef c).fields, fieldCheck E c f.name (i.attr f.name) = true) ∧ modelCheck c i = true) ↔
      Rule c i := by
  -- a class with validated fields
  have key : ∀ names : List Str, names = checkedFields c → (∀ n ∈ names, ∃ f ∈ (classDef c).fields, f.name = n) →
      ((∀ f ∈ (classDef c).fields, fieldCheck E c f.name (i.attr f.name) = true) ↔
        ∀ n ∈ names, fieldCheck E c n (i.attr n) = true) := by
    rintro _ rfl hn
    constructor
    · intro h n hm
      obtain ⟨f, hf, rfl⟩ := hn n hm
      exact h f hf
    · intro h f hf
      by_cases hm : f.name ∈ checkedFields c
      · exact h _ hm
      · exact check_of_not_checked _ hm
  have hnames : ∀ n ∈ checkedFields c, ∃ f ∈ (classDef c).fields, f.name = n := by
    have : ∀ c, (checkedFields c).all (fun n => (classDef c).fields.any fun f => f.name == n) = true := by
      intro c; cases c <;> decide
    intro n hn
    have := List.any_eq_true.1 (List.all_eq_true.1 (this c) n hn)
    simpa using this
  rw [key _ rfl hnames]
  cases c
  case AsyncAPI3 => exact absurd rfl hc
  case Channel => simpa [checkedFields, modelCheck, Rule] using channel_iff i
  case MessageExample => simpa [checkedFields, modelCheck, Rule] using messageExample_iff i
  case SecurityScheme => simpa [checkedFields, modelCheck, Rule] using securityScheme_iff i
  case OAuthFlows => simpa [checkedFields, modelCheck, Rule] using oauthFlows_iff i
  case CorrelationID => simpa [checkedFields, modelCheck, fieldCheck, Rule] using correlationID_iff i
  case AMQPChannelBindings => simpa [checkedFields, modelCheck, Rule] using amqpChannel_iff i
  case SolaceDestination => simpa [checkedFields, modelCheck, Rule] using solaceDestination_iff i
  case KafkaServerBindings => simpa [checkedFields, modelCheck, Rule] using kafkaServer_iff i
  case AMQPOperationBindings => simpa [checkedFields, modelCheck, fieldCheck, Rule] using notNegative_iff
  case SolaceOperationBindings => simpa [checkedFields, modelCheck, fieldCheck, Rule] using solacePriority_iff
  case IBMMQServerBindings => simpa [checkedFields, modelCheck, fieldCheck, Rule] using heartBeat_iff
  case IBMMQChannelBindings => simpa [checkedFields, modelCheck, fieldCheck, Rule] using ibmmqChannel_iff i
  case IBMMQMessageBindings => simpa [checkedFields, modelCheck, fieldCheck, Rule] using ibmmqMessage_iff i
  case KafkaChannelBindings =>
    simp only [checkedFields, modelCheck, Rule, KafkaChannelRule, List.mem_cons, List.not_mem_nil, or_false,
      forall_eq_or_imp, forall_eq, and_true]
    exact and_congr positive_iff positive_iff
  all_goals simp [checkedFields, modelCheck, Rule]

theorem baseCheck_iff (E : Env) (c : Cls) (hk : (classDef c).kind ≠ .patterned) (i : V) :
    baseCheck E c i = true ↔ ExtensionRule E.U c i := by
  unfold baseCheck ExtensionRule
  have := (C21_exact E.U c (i.extras.map (·.1))).1
  cases h : (classDef c).kind with
  | extendable =>
    rw [h] at this
    have h' := this rfl
    simp only [Patterns.acceptsExtras] at h'
    simp only [true_implies]
    rw [h']; simp
  | nonExtendable => simp
  | openExtra => simp
  | patterned => exact absurd h hk

/-- **C41.** For every class (the document itself and the patterned objects have their own
theorems) and every input object: the instance is made exactly when each field on its own is
right, the extra fields are extension names where the class demands it, and the class's rule
holds; nothing else is checked. -/
theorem C41_accepts_iff (E : Env) (c : Cls) (hk : (classDef c).kind ≠ .patterned) (hc : c ≠ .AsyncAPI3)
    (d : List (Str × V)) (i : V) :
    validate E c (.dict d) = some i ↔
      Fieldwise (Accepts E) c d i ∧ ExtensionRule E.U c i ∧ Rule c i := by
  unfold validate
  rw [parse_model_dict E hk, construct_eq]
  have hafter : ∀ j, after E c j = if baseCheck E c j && modelCheck c j then some j else none := by
    intro j; cases c <;> first | rfl | exact absurd rfl hc
  constructor
  · intro h
    split at h
    · rename_i hok
      rw [hafter] at h
      simp only [Option.getD_none] at h
      split at h
      · rename_i hb
        simp only [Option.map_some, Option.some.injEq] at h
        rw [Bool.and_eq_true] at hb
        subst h
        obtain ⟨h1, h2⟩ := (allOk_iff hc _).1 ⟨hok, rfl⟩
        exact ⟨h1, (baseCheck_iff E c hk _).1 hb.1, (rule_iff E c hc _).1 ⟨h2, hb.2⟩⟩
      · cases h
    · cases h
  · rintro ⟨h1, h2, h3⟩
    obtain ⟨h4, h5⟩ := (rule_iff E c hc i).2 h3
    obtain ⟨hok, rfl⟩ := (allOk_iff hc i).2 ⟨h1, h4⟩
    rw [if_pos hok, hafter]
    simp only [Option.getD_none]
    rw [if_pos (by rw [(baseCheck_iff E c hk _).2 h2, h5]; rfl)]
    rfl

/-- **C24.** -/
theorem C24_channel (E : Env) (d : List (Str × V)) (i : V) : validate E .Channel (.dict d) = some i ↔
    Fieldwise (Accepts E) .Channel d i ∧ ExtensionRule E.U .Channel i ∧
    (i.attr p!"parameters" ≠ .none → ∃ a before inside rest, i.attr p!"address" = .str a ∧
      a = before ++ '{' :: (inside ++ '}' :: rest) ∧ inside ≠ [] ∧ '}' ∉ inside) := by
  rw [C41_accepts_iff E .Channel (by decide) (by decide)]
  simp only [Rule, ChannelRule, Present, HasExpression]
  constructor
  · rintro ⟨h1, h2, h3⟩
    refine ⟨h1, h2, fun h => ?_⟩
    obtain ⟨a, ha, b, c, e, h⟩ := h3 h
    exact ⟨a, b, c, e, ha, h⟩
  · rintro ⟨h1, h2, h3⟩
    refine ⟨h1, h2, fun h => ?_⟩
    obtain ⟨a, b, c, e, ha, h⟩ := h3 h
    exact ⟨a, ha, b, c, e, h⟩

/-- **C25.** -/
theorem C25_messageExample (E : Env) (d : List (Str × V)) (i : V) : validate E .MessageExample (.dict d) = some i ↔
    Fieldwise (Accepts E) .MessageExample d i ∧ ExtensionRule E.U .MessageExample i ∧
    (i.attr p!"headers" ≠ .none ∨ i.attr p!"payload" ≠ .none) :=
  C41_accepts_iff E .MessageExample (by decide) (by decide) d i

/-- **C26.** -/
theorem C26_securityScheme (E : Env) (d : List (Str × V)) (i : V) : validate E .SecurityScheme (.dict d) = some i ↔
    Fieldwise (Accepts E) .SecurityScheme d i ∧ ExtensionRule E.U .SecurityScheme i ∧ SecuritySchemeRule i :=
  C41_accepts_iff E .SecurityScheme (by decide) (by decide) d i

/-- **C27.** -/
theorem C27_oauthFlows (E : Env) (d : List (Str × V)) (i : V) : validate E .OAuthFlows (.dict d) = some i ↔
    Fieldwise (Accepts E) .OAuthFlows d i ∧ ExtensionRule E.U .OAuthFlows i ∧ OAuthFlowsRule i :=
  C41_accepts_iff E .OAuthFlows (by decide) (by decide) d i

/-- **C28.** -/
theorem C28_correlationID (E : Env) (d : List (Str × V)) (i : V) : validate E .CorrelationID (.dict d) = some i ↔
    Fieldwise (Accepts E) .CorrelationID d i ∧ ExtensionRule E.U .CorrelationID i ∧
    ∃ rest, i.attr p!"location" = .str (p!"$message." ++ rest) :=
  C41_accepts_iff E .CorrelationID (by decide) (by decide) d i

/-! ### Values a declared type admits -/

theorem parse_eq (E : Env) (x : V) (t : Ty Cls) : ∃ s, parse E x t = parseAs E x s t := by
  cases x <;> exact ⟨_, rfl⟩

theorem accepts_lit {E : Env} {x v : V} {vs : List Lit} (h : Accepts E x (.lit vs) v) :
    (∃ s, v = .str s ∧ Lit.s s ∈ vs) ∨ (∃ n, v = .int n ∧ Lit.i n ∈ vs) := by
  obtain ⟨sc, h⟩ := h
  obtain ⟨sh, hs⟩ := parse_eq E x (.lit vs)
  rw [hs] at h
  simp only [parseAs] at h
  cases x <;> simp only [parseLit, reduceCtorEq, Option.ite_none_right_eq_some, Option.some.injEq, Prod.mk.injEq,
    List.contains_iff_mem] at h
  · exact .inr ⟨_, h.2.1.symm, h.1⟩
  · exact .inl ⟨_, h.2.1.symm, h.1⟩

theorem accepts_intNull {E : Env} {x v : V} (h : Accepts E x (.union [.int, .none]) v) :
    v = .none ∨ ∃ n, v = .int n := by
  obtain ⟨sc, h⟩ := h
  obtain ⟨sh, hs⟩ := parse_eq E x (.union [.int, .none])
  rw [hs] at h
  cases x <;> simp only [parseAs, parseEach, hasNone, V.isNone, Bool.and_true, if_true, Bool.false_eq_true, if_false, parseInt,
    pick, Option.some.injEq, Prod.mk.injEq, reduceCtorEq] at h
  · exact .inl h.1.symm
  · exact .inr ⟨_, h.1.symm⟩
  · exact .inr ⟨_, h.1.symm⟩
  · cases hf : E.floatToInt _ <;> rw [hf] at h <;>
      simp only [Option.map_none, Option.map_some, pick, Option.some.injEq, Prod.mk.injEq, reduceCtorEq] at h
    exact .inr ⟨_, h.1.symm⟩
  · cases hf : E.strToInt _ <;> rw [hf] at h <;>
      simp only [Option.map_none, Option.map_some, pick, Option.some.injEq, Prod.mk.injEq, reduceCtorEq] at h
    exact .inr ⟨_, h.1.symm⟩

/-- A field of a `Literal` type of strings is one of the listed strings. -/
theorem fieldOk_lit {E : Env} {d : List (Str × V)} {f : FieldDef Cls} {v : V} {ss : List Str}
    (hf : f.ty = .lit (ss.map Lit.s)) (hd : ∀ w, dfltValue f.dflt = some w → ∃ s ∈ ss, w = .str s)
    (h : FieldOk (Accepts E) d f v) : ∃ s ∈ ss, v = .str s := by
  rcases h.1 with ⟨_, x, _, ha⟩ | ⟨_, hv⟩
  · rw [hf] at ha
    rcases accepts_lit ha with ⟨s, rfl, hs⟩ | ⟨n, rfl, hn⟩
    · simp at hs; exact ⟨s, hs, rfl⟩
    · simp at hn
  · exact hd v (hasDefault_iff.1 hv)

/-- An optional integer field is null or an integer. -/
theorem fieldOk_int {E : Env} {d : List (Str × V)} {f : FieldDef Cls} {v : V}
    (hf : f.ty = .union [.int, .none]) (hd : f.dflt = .null)
    (h : FieldOk (Accepts E) d f v) : v = .none ∨ ∃ n, v = .int n := by
  rcases h.1 with ⟨_, x, _, ha⟩ | ⟨_, hv⟩
  · rw [hf] at ha; exact accepts_intNull ha
  · rw [hd] at hv; exact .inl hv

theorem fieldwise_field {E : Env} {c : Cls} {d : List (Str × V)} {i : V} (h : Fieldwise (Accepts E) c d i)
    {f : FieldDef Cls} (hf : f ∈ (classDef c).fields) : FieldOk (Accepts E) d f (i.attr f.name) := by
  obtain ⟨_, _, h, _⟩ := h; exact h f hf

theorem accepts_nonExtendable (E : Env) (c : Cls) (hk : (classDef c).kind = .nonExtendable) (d : List (Str × V)) (i : V) :
    validate E c (.dict d) = some i ↔ Fieldwise (Accepts E) c d i ∧ Rule c i := by
  rw [C41_accepts_iff E c (by rw [hk]; decide) (by rintro rfl; cases hk)]
  refine and_congr Iff.rfl ⟨fun h => h.2, fun h => ⟨fun h' => ?_, h⟩⟩
  rw [hk] at h'; cases h'

/-- **C29**, AMQP channels. -/
theorem C29_amqpChannel (E : Env) (d : List (Str × V)) (i : V) :
    validate E .AMQPChannelBindings (.dict d) = some i ↔ Fieldwise (Accepts E) .AMQPChannelBindings d i ∧
    ((i.attr p!"is_" = .str p!"routingKey" ∧ i.attr p!"exchange" ≠ .none ∧ i.attr p!"queue" = .none) ∨
     (i.attr p!"is_" = .str p!"queue" ∧ i.attr p!"queue" ≠ .none ∧ i.attr p!"exchange" = .none)) := by
  rw [accepts_nonExtendable E _ rfl]
  refine and_congr_right fun hw => ?_
  have hs := fieldOk_lit (ss := [p!"queue", p!"routingKey"]) rfl (by intro w hw; cases hw)
    (fieldwise_field hw (f := defAMQPChannelBindings.fields[0]) (by exact List.mem_cons_self))
  obtain ⟨s, hs, he⟩ := hs
  change i.attr p!"is_" = _ at he
  show AMQPChannelRule i ↔ _
  unfold AMQPChannelRule OneOf Is Present
  rw [he]
  simp only [List.mem_cons, List.not_mem_nil, or_false] at hs
  rcases hs with rfl | rfl
  · constructor
    · intro h
      have := h p!"queue" p!"queue" p!"exchange" (by simp) rfl
      exact .inr ⟨rfl, this.1, Classical.not_not.1 this.2⟩
    · rintro (⟨h, _⟩ | ⟨_, h1, h2⟩)
      · cases h
      · intro v y n hm hv
        simp only [List.mem_cons, List.not_mem_nil, or_false, Prod.mk.injEq] at hm
        rcases hm with ⟨rfl, _⟩ | ⟨rfl, rfl, rfl⟩
        · cases hv
        · exact ⟨h1, fun h => h h2⟩
  · constructor
    · intro h
      have := h p!"routingKey" p!"exchange" p!"queue" (by simp) rfl
      exact .inl ⟨rfl, this.1, Classical.not_not.1 this.2⟩
    · rintro (⟨_, h1, h2⟩ | ⟨h, _⟩)
      · intro v y n hm hv
        simp only [List.mem_cons, List.not_mem_nil, or_false, Prod.mk.injEq] at hm
        rcases hm with ⟨rfl, rfl, rfl⟩ | ⟨rfl, _⟩
        · exact ⟨h1, fun h => h h2⟩
        · cases hv
      · cases h

/-- **C29**, Solace destinations. -/
theorem C29_solaceDestination (E : Env) (d : List (Str × V)) (i : V) :
    validate E .SolaceDestination (.dict d) = some i ↔ Fieldwise (Accepts E) .SolaceDestination d i ∧
    ((i.attr p!"destination_type" = .str p!"queue" ∧ i.attr p!"queue" ≠ .none ∧ i.attr p!"topic" = .none) ∨
     (i.attr p!"destination_type" = .str p!"topic" ∧ i.attr p!"topic" ≠ .none ∧ i.attr p!"queue" = .none)) := by
  rw [accepts_nonExtendable E _ rfl]
  refine and_congr_right fun hw => ?_
  have hs := fieldOk_lit (ss := [p!"queue", p!"topic"]) rfl (by intro w hw; cases hw)
    (fieldwise_field hw (f := defSolaceDestination.fields[1])
      (by exact List.mem_cons_of_mem _ List.mem_cons_self))
  obtain ⟨s, hs, he⟩ := hs
  change i.attr p!"destination_type" = _ at he
  show SolaceDestinationRule i ↔ _
  unfold SolaceDestinationRule OneOf Is Present
  rw [he]
  simp only [List.mem_cons, List.not_mem_nil, or_false] at hs
  rcases hs with rfl | rfl
  · constructor
    · intro h
      have := h p!"queue" p!"queue" p!"topic" (by simp) rfl
      exact .inl ⟨rfl, this.1, Classical.not_not.1 this.2⟩
    · rintro (⟨_, h1, h2⟩ | ⟨h, _⟩)
      · intro v y n hm hv
        simp only [List.mem_cons, List.not_mem_nil, or_false, Prod.mk.injEq] at hm
        rcases hm with ⟨rfl, rfl, rfl⟩ | ⟨rfl, _⟩
        · exact ⟨h1, fun h => h h2⟩
        · cases hv
      · cases h
  · constructor
    · intro h
      have := h p!"topic" p!"topic" p!"queue" (by simp) rfl
      exact .inr ⟨rfl, this.1, Classical.not_not.1 this.2⟩
    · rintro (⟨h, _⟩ | ⟨_, h1, h2⟩)
      · cases h
      · intro v y n hm hv
        simp only [List.mem_cons, List.not_mem_nil, or_false, Prod.mk.injEq] at hm
        rcases hm with ⟨rfl, _⟩ | ⟨rfl, rfl, rfl⟩
        · cases hv
        · exact ⟨h1, fun h => h h2⟩

/-- **C29**, **C30**, IBM MQ channels: exactly this is checked (so a queue with destination type
`topic` passes). -/
theorem C29_ibmmqChannel (E : Env) (d : List (Str × V)) (i : V) :
    validate E .IBMMQChannelBindings (.dict d) = some i ↔ Fieldwise (Accepts E) .IBMMQChannelBindings d i ∧
    (i.attr p!"queue" = .none ∨ i.attr p!"topic" = .none) ∧
    (i.attr p!"destination_type" = .str p!"queue" → i.attr p!"queue" ≠ .none) ∧
    (i.attr p!"max_msg_length" = .none ∨ ∃ n, i.attr p!"max_msg_length" = .int n ∧ 0 ≤ n ∧ n ≤ 104857600) := by
  rw [accepts_nonExtendable E _ rfl]
  refine and_congr_right fun hw => ?_
  have hi := fieldOk_int rfl rfl (fieldwise_field hw (f := defIBMMQChannelBindings.fields[3])
      (by exact List.mem_of_getElem (i := 3) rfl))
  change i.attr p!"max_msg_length" = _ ∨ ∃ n, i.attr p!"max_msg_length" = _ at hi
  show IBMMQChannelRule i ↔ _
  unfold IBMMQChannelRule Present Is IfInt
  refine and_congr ?_ (and_congr Iff.rfl ?_)
  · rw [Classical.not_and_iff_not_or_not, Classical.not_not, Classical.not_not]
  · rcases hi with e | ⟨n, e⟩ <;> rw [e]
    · simp
    · simp

/-- **C30**: a range of an optional integer field. -/
theorem rangeOf {v : V} (P : Int → Prop) (hi : v = .none ∨ ∃ n, v = .int n) :
    IfInt v P ↔ (v = .none ∨ ∃ n, v = .int n ∧ P n) := by
  unfold IfInt
  rcases hi with e | ⟨n, e⟩ <;> rw [e] <;> simp

/-- **C30**, Kafka channels. -/
theorem C30_kafkaChannel (E : Env) (d : List (Str × V)) (i : V) :
    validate E .KafkaChannelBindings (.dict d) = some i ↔ Fieldwise (Accepts E) .KafkaChannelBindings d i ∧
    (i.attr p!"partitions" = .none ∨ ∃ n, i.attr p!"partitions" = .int n ∧ 1 ≤ n) ∧
    (i.attr p!"replicas" = .none ∨ ∃ n, i.attr p!"replicas" = .int n ∧ 1 ≤ n) := by
  rw [accepts_nonExtendable E _ rfl]
  refine and_congr_right fun hw => ?_
  have h1 := fieldOk_int rfl rfl (fieldwise_field hw (f := defKafkaChannelBindings.fields[1])
      (by exact List.mem_of_getElem (i := 1) rfl))
  have h2 := fieldOk_int rfl rfl (fieldwise_field hw (f := defKafkaChannelBindings.fields[2])
      (by exact List.mem_of_getElem (i := 2) rfl))
  exact and_congr (rangeOf _ h1) (rangeOf _ h2)

/-- **C30**, IBM MQ servers. -/
theorem C30_ibmmqServer (E : Env) (d : List (Str × V)) (i : V) :
    validate E .IBMMQServerBindings (.dict d) = some i ↔ Fieldwise (Accepts E) .IBMMQServerBindings d i ∧
    (i.attr p!"heart_beat_interval" = .none ∨
      ∃ n, i.attr p!"heart_beat_interval" = .int n ∧ 0 ≤ n ∧ n ≤ 999999) := by
  rw [accepts_nonExtendable E _ rfl]
  refine and_congr_right fun hw => ?_
  have h1 := fieldOk_int rfl rfl (fieldwise_field hw (f := defIBMMQServerBindings.fields[4])
      (by exact List.mem_of_getElem (i := 4) rfl))
  exact rangeOf (fun n => 0 ≤ n ∧ n ≤ 999999) h1

/-- **C30**, AMQP operations. -/
theorem C30_amqpOperation (E : Env) (d : List (Str × V)) (i : V) :
    validate E .AMQPOperationBindings (.dict d) = some i ↔ Fieldwise (Accepts E) .AMQPOperationBindings d i ∧
    (i.attr p!"expiration" = .none ∨ ∃ n, i.attr p!"expiration" = .int n ∧ 0 ≤ n) := by
  rw [accepts_nonExtendable E _ rfl]
  refine and_congr_right fun hw => ?_
  have h1 := fieldOk_int rfl rfl (fieldwise_field hw (f := defAMQPOperationBindings.fields[0])
      (by exact List.mem_of_getElem (i := 0) rfl))
  exact rangeOf (0 ≤ ·) h1

/-- **C30**, Solace operations (the priority may also be a schema or a reference). -/
theorem C30_solaceOperation (E : Env) (d : List (Str × V)) (i : V) :
    validate E .SolaceOperationBindings (.dict d) = some i ↔ Fieldwise (Accepts E) .SolaceOperationBindings d i ∧
    ∀ n, i.attr p!"priority" = .int n → 0 ≤ n ∧ n ≤ 255 := by
  rw [accepts_nonExtendable E _ rfl]; rfl

/-- **C31**, Kafka servers. -/
theorem C31_kafkaServer (E : Env) (d : List (Str × V)) (i : V) :
    validate E .KafkaServerBindings (.dict d) = some i ↔ Fieldwise (Accepts E) .KafkaServerBindings d i ∧
    (i.attr p!"schema_registry_vendor" ≠ .none → i.attr p!"schema_registry_url" ≠ .none) := by
  rw [accepts_nonExtendable E _ rfl]; rfl

/-- **C31**, **C30**, IBM MQ messages. -/
theorem C31_ibmmqMessage (E : Env) (d : List (Str × V)) (i : V) :
    validate E .IBMMQMessageBindings (.dict d) = some i ↔ Fieldwise (Accepts E) .IBMMQMessageBindings d i ∧
    (i.attr p!"headers" ≠ .none → i.attr p!"type" = .str p!"binary") ∧
    (i.attr p!"expiry" = .none ∨ ∃ n, i.attr p!"expiry" = .int n ∧ 0 ≤ n) := by
  rw [accepts_nonExtendable E _ rfl]
  refine and_congr_right fun hw => ?_
  have h1 := fieldOk_int rfl rfl (fieldwise_field hw (f := defIBMMQMessageBindings.fields[3])
      (by exact List.mem_of_getElem (i := 3) rfl))
  obtain ⟨s, hs, he⟩ := fieldOk_lit (ss := [p!"string", p!"jms", p!"binary"]) rfl
    (by intro w hw; exact ⟨p!"string", by simp, (Option.some.inj hw).symm⟩)
    (fieldwise_field hw (f := defIBMMQMessageBindings.fields[0]) (by exact List.mem_cons_self))
  change i.attr p!"type" = _ at he
  refine and_congr (imp_congr Iff.rfl ?_) (rangeOf (0 ≤ ·) h1)
  unfold Is
  rw [he]
  simp only [List.mem_cons, List.not_mem_nil, or_false] at hs
  rcases hs with rfl | rfl | rfl <;> simp

/-! ### Concrete cases -/

/-- A trivial environment: ASCII character classes, no lax conversions, every string a URL, processors do
nothing. -/
def plainEnv : Env where
  U := .ascii
  digits := some 4300
  floatToInt _ := none
  strToInt _ := none
  floatToBool _ := none
  strToBool _ := none
  url _ s := some s
  url_idem _ _ _ _ := rfl
  mixed _ _ := false
  built := 1
  built_le := Nat.le_refl 1
  call _ d := some d

set_option maxRecDepth 10000

/-- C24 -/
example : (validate plainEnv .Channel (.dict [(p!"address", .str p!"a/{x}"),
    (p!"parameters", .dict [(p!"x", .dict [])])])).isSome = true := by decide +kernel
example : (validate plainEnv .Channel (.dict [(p!"address", .str p!"a/x"),
    (p!"parameters", .dict [])])).isSome = false := by decide +kernel
example : (validate plainEnv .Channel (.dict [(p!"address", .str p!"a/x")])).isSome = true := by decide +kernel
/-- C25 -/
example : (validate plainEnv .MessageExample (.dict [(p!"payload", .int 1)])).isSome = true := by decide +kernel
example : (validate plainEnv .MessageExample (.dict [(p!"name", .str p!"a")])).isSome = false := by decide +kernel
/-- C26 -/
example : (validate plainEnv .SecurityScheme (.dict [(p!"type", .str p!"http"), (p!"scheme", .str p!"bearer"),
    (p!"bearerFormat", .str p!"JWT")])).isSome = true := by decide +kernel
example : (validate plainEnv .SecurityScheme (.dict [(p!"type", .str p!"http"), (p!"scheme", .str p!"basic"),
    (p!"bearerFormat", .str p!"JWT")])).isSome = false := by decide +kernel
example : (validate plainEnv .SecurityScheme (.dict [(p!"type", .str p!"oauth2"), (p!"flows", .dict [(p!"password",
    .dict [(p!"tokenUrl", .str p!"https://x"), (p!"availableScopes", .dict [])])])])).isSome = true := by decide +kernel
/-- C27 -/
example : (validate plainEnv .OAuthFlows (.dict [(p!"password",
    .dict [(p!"authorizationUrl", .str p!"https://x"), (p!"availableScopes", .dict [])])])).isSome = false := by
  decide +kernel
/-- C28 -/
example : (validate plainEnv .CorrelationID (.dict [(p!"location", .str p!"$message.header#/id"),
    (p!"x-a", .int 1)])).isSome = true := by decide +kernel
example : (validate plainEnv .CorrelationID (.dict [(p!"location", .str p!"$messages")])).isSome = false := by
  decide +kernel
/-- C29 -/
example : (validate plainEnv .AMQPChannelBindings (.dict [(p!"is", .str p!"queue"),
    (p!"queue", .dict [])])).isSome = true := by decide +kernel
example : (validate plainEnv .AMQPChannelBindings (.dict [(p!"is", .str p!"queue"), (p!"queue", .dict []),
    (p!"exchange", .dict [])])).isSome = false := by decide +kernel
example : (validate plainEnv .SolaceDestination (.dict [(p!"destinationType", .str p!"topic"),
    (p!"topic", .dict [])])).isSome = true := by decide +kernel
/-- A queue with destination type `topic` is accepted. -/
example : (validate plainEnv .IBMMQChannelBindings (.dict [(p!"destinationType", .str p!"topic"),
    (p!"queue", .dict [(p!"objectName", .str p!"q")])])).isSome = true := by decide +kernel
/-- C30 -/
example : (validate plainEnv .KafkaChannelBindings (.dict [(p!"partitions", .int 1)])).isSome = true ∧
    (validate plainEnv .KafkaChannelBindings (.dict [(p!"partitions", .int 0)])).isSome = false := by decide +kernel
example : (validate plainEnv .IBMMQServerBindings (.dict [(p!"heartBeatInterval", .int 999999)])).isSome = true ∧
    (validate plainEnv .IBMMQServerBindings (.dict [(p!"heartBeatInterval", .int 1000000)])).isSome = false := by
  decide +kernel
example : (validate plainEnv .SolaceOperationBindings (.dict [(p!"priority", .int 255)])).isSome = true ∧
    (validate plainEnv .SolaceOperationBindings (.dict [(p!"priority", .int 256)])).isSome = false := by decide +kernel
example : (validate plainEnv .AMQPOperationBindings (.dict [(p!"expiration", .int 0)])).isSome = true := by
  decide +kernel
/-- C31 -/
example : (validate plainEnv .KafkaServerBindings (.dict [(p!"schemaRegistryVendor", .str p!"x")])).isSome = false := by
  decide +kernel
example : (validate plainEnv .IBMMQMessageBindings (.dict [(p!"headers", .str p!"h"),
    (p!"type", .str p!"binary")])).isSome = true := by decide +kernel

end Verif.Props
