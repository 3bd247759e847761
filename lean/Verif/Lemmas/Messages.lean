import Verif.Model.Messages
import Verif.Spec.Messages
import Verif.Props.Fields
/-! The texts of the validators, against the specification. -/
namespace Verif.Messages
open Verif Verif.Gen Verif.Spec Verif.Fields

theorem first_nil {i : V} {text : Str} : ¬ First [] i text := by
  rintro ⟨_, _, _, e, _⟩
  simp at e

theorem first_cons {m : Message} {l : List Message} {i : V} {text : Str} :
    First (m :: l) i text ↔ (m.2 i ∧ text = m.1) ∨ (¬ m.2 i ∧ First l i text) := by
  constructor
  · rintro ⟨before, sit, rest, e, h1, h2⟩
    cases before with
    | nil => cases e; exact .inl ⟨h1, rfl⟩
    | cons b before =>
      cases e
      exact .inr ⟨h2 _ (List.mem_cons_self ..), before, sit, rest, rfl, h1, fun m hm => h2 m (List.mem_cons_of_mem _ hm)⟩
  · rintro (⟨h1, rfl⟩ | ⟨h1, before, sit, rest, rfl, h2, h3⟩)
    · exact ⟨[], m.2, l, rfl, h1, by simp⟩
    · refine ⟨m :: before, sit, rest, rfl, h2, ?_⟩
      intro m' hm'
      rcases List.mem_cons.1 hm' with rfl | h
      · exact h1
      · exact h3 m' h

theorem present_iff' {v : V} : Present v ↔ v.isNone = false := by
  unfold Present; cases v <;> simp [V.isNone]

theorem is_iff' {v : V} {s : Str} : Is v s ↔ isStr v s = true := by
  unfold Is; cases v <;> simp [isStr]

theorem firstBad_nil {good : Str → Prop} {key : Str} : ¬ FirstBad good [] key := by
  rintro ⟨_, _, e, _⟩
  simp at e

theorem firstBad_cons {good : Str → Prop} {k key : Str} {ks : List Str} :
    FirstBad good (k :: ks) key ↔ (¬ good k ∧ key = k) ∨ (good k ∧ FirstBad good ks key) := by
  constructor
  · rintro ⟨before, rest, e, h1, h2⟩
    cases before with
    | nil => cases e; exact .inl ⟨h1, rfl⟩
    | cons b before =>
      cases e
      exact .inr ⟨h2 _ (List.mem_cons_self ..), before, rest, rfl, h1, fun m hm => h2 m (List.mem_cons_of_mem _ hm)⟩
  · rintro (⟨h1, rfl⟩ | ⟨h1, before, rest, rfl, h2, h3⟩)
    · exact ⟨[], ks, rfl, h1, by simp⟩
    · refine ⟨k :: before, rest, rfl, h2, ?_⟩
      intro m' hm'
      rcases List.mem_cons.1 hm' with rfl | h
      · exact h1
      · exact h3 m' h

theorem orRaise_some {b : Bool} {m text : Str} : orRaise b m = some text ↔ b = false ∧ text = m := by
  cases b <;> simp [orRaise, eq_comm]

/-- The text is that of the first message of the list that is the case. -/
def Covers (i : V) (o : Option Str) (l : List Message) : Prop := ∀ text, o = some text ↔ First l i text

theorem first_append {l l' : List Message} {i : V} {text : Str} :
    First (l ++ l') i text ↔ First l i text ∨ ((∀ t, ¬ First l i t) ∧ First l' i text) := by
  induction l with
  | nil => simp [first_nil]
  | cons m l ih =>
    simp only [List.cons_append, first_cons, ih]
    by_cases h : m.2 i <;> simp [h]

theorem Covers.or {i : V} {a b : Option Str} {l l' : List Message} (h : Covers i a l) (h' : Covers i b l') :
    Covers i (a.or b) (l ++ l') := by
  intro text
  rw [first_append, ← h text, ← h' text]
  simp only [← h _]
  cases a <;> simp

theorem covers_one {i : V} {b : Bool} {m : Str} {sit : V → Prop} (h : b = false ↔ sit i) :
    Covers i (orRaise b m) [(m, sit)] := by
  intro text
  simp only [first_cons, first_nil, and_false, or_false, orRaise_some, h]

theorem ofClass_iff {c : Cls} {i : V} {text : Str} : ofClass c i = some text ↔ First (messages c) i text := by
  cases c
  case Channel =>
    simp only [ofClass, messages, first_cons, first_nil, and_false, or_false, present_iff', channel]
    cases hp : (i.attr p!"parameters").isNone
    · have he : ∀ a, Regex.isSearch expressionRegex a = false ↔ ¬ HasExpression a := by
        intro a; rw [← Props.expression_iff, Bool.not_eq_true]
      cases ha : i.attr p!"address" with
      | none => simp [V.isNone, eq_comm]
      | str a =>
        simp only [Bool.false_eq_true, if_false, orRaise_some, he, V.isNone, true_and, Bool.true_eq_false, not_true_eq_false, and_false,
          false_and, false_or, not_false_eq_true, V.str.injEq, exists_eq_left']
        rfl
      | _ => simp [V.isNone]
    · simp
  case MessageExample =>
    simp only [ofClass, messages, first_cons, first_nil, and_false, or_false, present_iff', messageExample, orRaise_some,
      headersOrPayload]
    cases (i.attr p!"headers").isNone <;> cases (i.attr p!"payload").isNone <;> simp
  case OAuthFlows =>
    refine Covers.or (l := [_]) (covers_one ?_) (Covers.or (l := [_]) (covers_one ?_) (Covers.or (l := [_]) (covers_one ?_) ?_)) text
    · unfold implicitFlow; rw [Lacks, present_iff', present_iff']
      cases (i.attr p!"implicit").isNone <;> cases ((i.attr p!"implicit").attr p!"authorization_url").isNone <;> simp
    · unfold passwordFlow; rw [Lacks, present_iff', present_iff']
      cases (i.attr p!"password").isNone <;> cases ((i.attr p!"password").attr p!"token_url").isNone <;> simp
    · unfold clientCredentialsFlow; rw [Lacks, present_iff', present_iff']
      cases (i.attr p!"client_credentials").isNone <;> cases ((i.attr p!"client_credentials").attr p!"token_url").isNone <;> simp
    · intro text
      simp only [first_cons, first_nil, and_false, or_false, Lacks, present_iff', authorizationCodeFlow]
      cases (i.attr p!"authorization_code").isNone <;>
        cases ((i.attr p!"authorization_code").attr p!"authorization_url").isNone <;>
        cases ((i.attr p!"authorization_code").attr p!"token_url").isNone <;> simp [eq_comm]
  case SecurityScheme =>
    have hi : (i.attr p!"in_").isNone = true → ∀ s, isStr (i.attr p!"in_") s = false := by
      intro h s; cases hv : i.attr p!"in_" <;> rw [hv] at h <;> simp_all [V.isNone, isStr]
    refine Covers.or (l := [_, _]) ?_ (Covers.or (l := [_]) (covers_one ?_) (Covers.or (l := [_, _, _]) ?_
      (Covers.or (l := [_]) (covers_one ?_) (Covers.or (l := [_]) (covers_one ?_) (Covers.or (l := [_]) (covers_one ?_)
        (covers_one ?_)))))) text
    · intro text
      simp only [first_cons, first_nil, and_false, or_false, present_iff', is_iff', apiKey]
      cases isStr (i.attr p!"type_") p!"apiKey" <;> cases hn : (i.attr p!"in_").isNone <;>
        cases h1 : isStr (i.attr p!"in_") p!"user" <;> cases h2 : isStr (i.attr p!"in_") p!"password" <;> simp [eq_comm]
    · unfold bearerFormat; rw [present_iff', is_iff', is_iff']
      cases (i.attr p!"bearer_format").isNone <;> cases isStr (i.attr p!"type_") p!"http" <;>
        cases isStr (i.attr p!"scheme") p!"bearer" <;> simp
    · intro text
      simp only [first_cons, first_nil, and_false, or_false, present_iff', is_iff', httpApiKey]
      cases isStr (i.attr p!"type_") p!"httpApiKey" <;> cases (i.attr p!"name").isNone <;> cases hn : (i.attr p!"in_").isNone <;>
        cases h1 : isStr (i.attr p!"in_") p!"query" <;> cases h2 : isStr (i.attr p!"in_") p!"header" <;>
        cases h3 : isStr (i.attr p!"in_") p!"cookie" <;> simp [eq_comm]
    · unfold http; rw [present_iff', is_iff']
      cases isStr (i.attr p!"type_") p!"http" <;> cases (i.attr p!"scheme").isNone <;> simp
    · unfold oauth2; rw [present_iff', is_iff']
      cases isStr (i.attr p!"type_") p!"oauth2" <;> cases (i.attr p!"flows").isNone <;> simp
    · unfold openIdConnect; rw [present_iff', is_iff']
      cases isStr (i.attr p!"type_") p!"openIdConnect" <;> cases (i.attr p!"open_id_connect_url").isNone <;> simp
    · unfold scopes; rw [present_iff', is_iff', is_iff']
      cases isStr (i.attr p!"type_") p!"oauth2" <;> cases isStr (i.attr p!"type_") p!"openIdConnect" <;>
        cases (i.attr p!"scopes").isNone <;> simp
  case AMQPChannelBindings =>
    simp only [ofClass, messages, first_cons, first_nil, and_false, or_false, present_iff', is_iff', amqpChannel]
    have h : isStr (i.attr p!"is_") p!"routingKey" = true → isStr (i.attr p!"is_") p!"queue" = false := by
      cases i.attr p!"is_" <;> simp [isStr]
      rintro rfl; decide
    generalize isStr (i.attr p!"is_") p!"routingKey" = b1 at *
    generalize isStr (i.attr p!"is_") p!"queue" = b2 at *
    generalize (i.attr p!"queue").isNone = b3
    generalize (i.attr p!"exchange").isNone = b4
    cases b1 <;> cases b2 <;> cases b3 <;> cases b4 <;> simp_all [eq_comm]
  case SolaceDestination =>
    simp only [ofClass, messages, first_cons, first_nil, and_false, or_false, present_iff', is_iff', solaceDestination]
    have h : isStr (i.attr p!"destination_type") p!"queue" = true → isStr (i.attr p!"destination_type") p!"topic" = false := by
      cases i.attr p!"destination_type" <;> simp [isStr]
      rintro rfl; decide
    generalize isStr (i.attr p!"destination_type") p!"queue" = b1 at *
    generalize isStr (i.attr p!"destination_type") p!"topic" = b2 at *
    generalize (i.attr p!"queue").isNone = b3
    generalize (i.attr p!"topic").isNone = b4
    cases b1 <;> cases b2 <;> cases b3 <;> cases b4 <;> simp_all [eq_comm]
  case IBMMQChannelBindings =>
    simp only [ofClass, messages, first_cons, first_nil, and_false, or_false, present_iff', is_iff', ibmmqChannel]
    generalize isStr (i.attr p!"destination_type") p!"queue" = b1 at *
    generalize (i.attr p!"queue").isNone = b3
    generalize (i.attr p!"topic").isNone = b4
    cases b1 <;> cases b3 <;> cases b4 <;> simp_all [eq_comm]
  case IBMMQMessageBindings =>
    simp only [ofClass, messages, first_cons, first_nil, and_false, or_false, present_iff', is_iff', orRaise_some, ibmmqMessage]
    generalize isStr (i.attr p!"type") p!"string" = b1 at *
    generalize isStr (i.attr p!"type") p!"jms" = b3
    generalize (i.attr p!"headers").isNone = b4
    cases b1 <;> cases b3 <;> cases b4 <;> simp_all [eq_comm]
  case KafkaServerBindings =>
    simp only [ofClass, messages, first_cons, first_nil, and_false, or_false, present_iff', orRaise_some, kafkaServer]
    generalize (i.attr p!"schema_registry_vendor").isNone = b3
    generalize (i.attr p!"schema_registry_url").isNone = b4
    cases b3 <;> cases b4 <;> simp_all [eq_comm]
  all_goals simp [ofClass, messages, first_nil]

theorem extensions_iff {U : Uni} {ks : List Str} {text : Str} :
    extensions U ks = some text ↔ ∃ key, FirstBad (OrNewline (ExtensionForm U)) ks key ∧ text = extensionText key := by
  induction ks with
  | nil => simp [extensions, firstBad_nil]
  | cons k ks ih =>
    simp only [extensions, firstBad_cons, ← Props.extension_exact]
    split
    · rename_i h; simp only [h, not_true_eq_false, false_and, false_or, true_and, ih]
    · rename_i h; simp [h, eq_comm]

theorem patternedKeys_iff {ks : List Str} {text : Str} :
    patternedKeys ks = some text ↔ ∃ key, FirstBad (OrNewline KeyForm) ks key ∧ text = keyText key := by
  induction ks with
  | nil => simp [patternedKeys, firstBad_nil]
  | cons k ks ih =>
    simp only [patternedKeys, firstBad_cons, ← Props.C20_key_exact]
    split
    · rename_i h; simp only [h, not_true_eq_false, false_and, false_or, true_and, ih]
    · rename_i h; simp [h, eq_comm]

theorem ofBase_iff {U : Uni} {c : Cls} {i : V} {text : Str} : ofBase U c i = some text ↔ KeySays U c i text := by
  have hx : ∀ key, extensionText key = p!"Field '" ++ key ++ p!"' does not match specification extension pattern. Extensions must start with 'x-' and contain only word characters, digits, dots, hyphens, and underscores." := by
    intro key; unfold extensionText; simp only [List.append_assoc]; rfl
  have hp : ∀ key, keyText key = p!"Field '" ++ key ++ p!"' does not match patterned object key pattern. Keys must contain letters, digits, hyphens, and underscores." := by
    intro key; unfold keyText; simp only [List.append_assoc]; rfl
  unfold ofBase
  constructor
  · intro h
    split at h
    · rename_i hk
      obtain ⟨key, h', rfl⟩ := extensions_iff.1 h
      rw [hx]; exact .extension hk h'
    · rename_i hk
      split at h
      · rename_i d hd
        obtain ⟨key, h', rfl⟩ := patternedKeys_iff.1 h
        rw [hp]; exact .patterned hk hd h'
      · cases h
    · cases h
  · intro h
    cases h with
    | extension hk h => rw [hk]; exact extensions_iff.2 ⟨_, h, (hx _).symm⟩
    | patterned hk hd h => rw [hk]; simp only [hd]; exact patternedKeys_iff.2 ⟨_, h, (hp _).symm⟩

theorem ofObject_iff {U : Uni} {c : Cls} {i : V} {text : Str} : ofObject U c i = some text ↔ ObjectSays U c i text := by
  unfold ofObject ObjectSays
  simp only [← ofBase_iff, ← ofClass_iff]
  cases ofBase U c i <;> simp

theorem version_says {U : Uni} {limit : Option Nat} {s text : Str} :
    version U limit s = some text ↔ FieldSays U limit .AsyncAPI3 p!"asyncapi" (.str s) text := by
  have key : ∀ major, OrNewline (fun s => VersionForm U s major) s → ∃ rest, Str.split '.' s = major :: rest := by
    rintro major (h | ⟨b, rfl, h⟩)
    · have := Props.split_major U h []
      rwa [List.append_nil] at this
    · exact Props.split_major U h _
  have hform : Regex.isMatch (Patterns.versionRegex U) s = true ↔ ∃ major, OrNewline (fun s => VersionForm U s major) s := by
    rw [Props.version_exact]
    constructor
    · rintro (⟨major, h⟩ | ⟨b, rfl, major, h⟩)
      · exact ⟨major, .inl h⟩
      · exact ⟨major, .inr ⟨b, rfl, h⟩⟩
    · rintro ⟨major, h | ⟨b, rfl, h⟩⟩
      · exact .inl ⟨major, h⟩
      · exact .inr ⟨b, rfl, major, h⟩
  unfold version
  by_cases hm : Regex.isMatch (Patterns.versionRegex U) s = true
  · rw [if_pos hm]
    obtain ⟨major, hv⟩ := hform.1 hm
    obtain ⟨rest, hs⟩ := key major hv
    simp only [hs]
    constructor
    · intro h
      cases hi : Patterns.intOf U limit major with
      | none => rw [hi] at h; cases h
      | some m =>
        rw [hi] at h
        obtain ⟨h1, h2⟩ := (Props.intOf_eq U limit major m).1 hi
        simp only at h
        split at h
        · cases h
        · rename_i h3
          have e := Option.some.inj h
          rw [← e]
          have := FieldSays.major hv h1 (by rw [h2]; simpa using h3)
          simp only [List.append_assoc] at this ⊢
          exact this
    · intro h
      cases h with
      | form h => exact absurd hv (h major)
      | @major _ major' h h1 h2 =>
        obtain ⟨rest', hs'⟩ := key major' h
        rw [hs] at hs'
        obtain ⟨rfl, _⟩ := List.cons.inj hs'
        rw [(Props.intOf_eq U limit major _).2 ⟨h1, rfl⟩]
        simp only
        rw [if_neg (by simpa using h2)]
        simp only [List.append_assoc]
        rfl
  · rw [if_neg hm]
    constructor
    · intro h
      cases h
      exact .form fun major h => hm (hform.2 ⟨major, h⟩)
    · intro h
      cases h with
      | form h => rfl
      | major h => exact absurd (hform.2 ⟨_, h⟩) hm

theorem field_iff {E : Pyd.Env} {c : Cls} {name : Str} {v : V} {text : Str} :
    field E c name v = some text ↔ FieldSays E.U E.digits c name v text := by
  constructor
  · intro h
    cases c
    case AsyncAPI3 =>
      simp only [field] at h
      split at h
      · rename_i hn; subst hn
        split at h
        · exact version_says.1 h
        · cases h
      · cases h
    case CorrelationID =>
      simp only [field] at h
      split at h
      · rename_i hn; subst hn
        obtain ⟨h', rfl⟩ := orRaise_some.1 h
        refine .location ?_
        rintro rest rfl
        simp [runtimeExpression, Str.startsWith, List.isPrefixOf] at h'
      · cases h
    case AMQPOperationBindings =>
      simp only [field] at h
      split at h
      · rename_i hn; subst hn
        obtain ⟨h', rfl⟩ := orRaise_some.1 h
        cases v <;> simp [notNegative] at h'
        exact .expiration h'
      · cases h
    case SolaceOperationBindings =>
      simp only [field] at h
      split at h
      · rename_i hn; subst hn
        obtain ⟨h', rfl⟩ := orRaise_some.1 h
        cases v <;> simp [solacePriority] at h'
        exact .priority (by omega)
      · cases h
    case IBMMQServerBindings =>
      simp only [field] at h
      split at h
      · rename_i hn; subst hn
        obtain ⟨h', rfl⟩ := orRaise_some.1 h
        cases v <;> simp [heartBeat] at h'
        exact .heartBeat (by omega)
      · cases h
    case IBMMQChannelBindings =>
      simp only [field] at h
      split at h
      · rename_i hn; subst hn
        obtain ⟨h', rfl⟩ := orRaise_some.1 h
        cases v <;> simp [maxMsgLength] at h'
        exact .msgLength (by omega)
      · cases h
    case IBMMQMessageBindings =>
      simp only [field] at h
      split at h
      · rename_i hn; subst hn
        obtain ⟨h', rfl⟩ := orRaise_some.1 h
        cases v <;> simp [notNegative] at h'
        exact .expiry h'
      · cases h
    case KafkaChannelBindings =>
      simp only [field] at h
      split at h
      · rename_i hn; subst hn
        obtain ⟨h', rfl⟩ := orRaise_some.1 h
        cases v <;> simp [positive] at h'
        exact .partitions (by omega)
      · split at h
        · rename_i hn; subst hn
          obtain ⟨h', rfl⟩ := orRaise_some.1 h
          cases v <;> simp [positive] at h'
          exact .replicas (by omega)
        · cases h
    all_goals cases h
  · intro h
    cases h with
    | form h => exact version_says.2 (.form h)
    | major h h1 h2 => exact version_says.2 (.major h h1 h2)
    | location h =>
      simp only [field, if_true]
      refine orRaise_some.2 ⟨?_, rfl⟩
      cases v with
      | str s =>
        simp only [runtimeExpression, Str.startsWith]
        rw [← Bool.not_eq_true, List.isPrefixOf_iff_prefix]
        rintro ⟨r, e⟩
        exact h r (by rw [e])
      | _ => rfl
    | expiration h => exact orRaise_some.2 ⟨by simpa [notNegative] using h, rfl⟩
    | priority h => exact orRaise_some.2 ⟨by simp [solacePriority]; omega, rfl⟩
    | heartBeat h => exact orRaise_some.2 ⟨by simp [heartBeat]; omega, rfl⟩
    | msgLength h => exact orRaise_some.2 ⟨by simp [maxMsgLength]; omega, rfl⟩
    | expiry h => exact orRaise_some.2 ⟨by simpa [notNegative] using h, rfl⟩
    | partitions h => exact orRaise_some.2 ⟨by simp [positive]; omega, rfl⟩
    | replicas h => exact orRaise_some.2 ⟨by simp [positive]; omega, rfl⟩

end Verif.Messages
