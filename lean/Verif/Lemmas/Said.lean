import Verif.Lemmas.Accepted
import Verif.Lemmas.Errors
/-! The messages come when the validators refuse, and only then. -/
namespace Verif.Pyd
open Verif Verif.Gen Verif.Spec

theorem extensions_none {U : Uni} {ks : List Str} : Messages.extensions U ks = none ↔ Patterns.validateExtensions U ks = true := by
  induction ks with
  | nil => simp [Messages.extensions, Patterns.validateExtensions]
  | cons k ks ih =>
    simp only [Messages.extensions, Patterns.validateExtensions]
    split <;> simp [ih]

theorem patternedKeys_none {ks : List Str} : Messages.patternedKeys ks = none ↔ Patterns.patternedKeys ks = true := by
  induction ks with
  | nil => simp [Messages.patternedKeys, Patterns.patternedKeys]
  | cons k ks ih =>
    simp only [Messages.patternedKeys, Patterns.patternedKeys]
    split <;> simp [ih]

theorem ofBase_none {E : Env} {c : Cls} {i : V} : Messages.ofBase E.U c i = none ↔ baseCheck E c i = true := by
  unfold Messages.ofBase baseCheck
  cases (classDef c).kind
  case extendable => exact extensions_none
  case patterned =>
    simp only
    cases i.attr p!"root" <;> simp only [patternedKeys_none]
  all_goals simp

theorem orRaise_none {b : Bool} {m : Str} : Messages.orRaise b m = none ↔ b = true := by
  cases b <;> simp [Messages.orRaise]

theorem ofClass_none {c : Cls} {i : V}
    (ha : c = .Channel → i.attr p!"address" = .none ∨ ∃ s, i.attr p!"address" = .str s) :
    Messages.ofClass c i = none ↔ modelCheck c i = true := by
  cases c
  case Channel =>
    simp only [Messages.ofClass, modelCheck, Messages.channel, Fields.channelParameters]
    rcases ha rfl with h | ⟨s, h⟩ <;> rw [h] <;> split <;> simp [Messages.orRaise]
  case SecurityScheme =>
    simp only [Messages.ofClass, modelCheck, Messages.securityScheme, Fields.securityScheme, Option.or_eq_none_iff,
      Bool.and_eq_true, orRaise_none]
    have h1 : Messages.apiKey i = none ↔ Fields.apiKey i = true := by
      unfold Messages.apiKey Fields.apiKey
      repeat' split
      all_goals simp
    have h2 : Messages.httpApiKey i = none ↔ Fields.httpApiKey i = true := by
      unfold Messages.httpApiKey Fields.httpApiKey
      repeat' split
      all_goals simp
    rw [h1, h2]
    simp only [and_assoc]
  case OAuthFlows =>
    simp only [Messages.ofClass, modelCheck, Messages.oauthFlows, Fields.oauthFlows, Option.or_eq_none_iff,
      Bool.and_eq_true, orRaise_none]
    have h1 : Messages.authorizationCodeFlow i = none ↔ Fields.authorizationCodeFlow i = true := by
      unfold Messages.authorizationCodeFlow Fields.authorizationCodeFlow
      repeat' split
      all_goals simp
    rw [h1]
    simp only [and_assoc]
  case AMQPChannelBindings =>
    simp only [Messages.ofClass, modelCheck, Messages.amqpChannel, Fields.amqpChannel]
    repeat' split
    all_goals simp
  case SolaceDestination =>
    simp only [Messages.ofClass, modelCheck, Messages.solaceDestination, Fields.solaceDestination]
    repeat' split
    all_goals simp
  case IBMMQChannelBindings =>
    simp only [Messages.ofClass, modelCheck, Messages.ibmmqChannel, Fields.ibmmqChannel]
    repeat' split
    all_goals simp
  all_goals first
    | exact orRaise_none
    | simp [Messages.ofClass, modelCheck]

theorem ofObject_none {E : Env} {c : Cls} {i : V}
    (ha : c = .Channel → i.attr p!"address" = .none ∨ ∃ s, i.attr p!"address" = .str s) :
    Messages.ofObject E.U c i = none ↔ (baseCheck E c i && modelCheck c i) = true := by
  unfold Messages.ofObject
  rw [Option.or_eq_none_iff, ofBase_none, ofClass_none ha, Bool.and_eq_true]

theorem strOrNone {E : Env} {x y : V} (h : Accepts E x (.union [.str, .none]) y) : y = .none ∨ ∃ s, y = .str s := by
  obtain ⟨sc, h⟩ := h
  rcases union_cases h with ⟨_, h⟩ | ⟨t, ht, h⟩
  · exact .inl h
  · simp only [List.mem_cons, List.not_mem_nil, or_false] at ht
    rcases ht with rfl | rfl
    · cases x <;> simp [parse, parseAs, parseStr] at h
      exact .inr ⟨_, h.1.symm⟩
    · cases x <;> simp [parse, parseAs] at h
      all_goals exact .inl h.2.1.symm

theorem assembled_address {E : Env} {c : Cls} {v i : V} (h : Assembled (Accepts E) c v i) (hc : c = .Channel) :
    i.attr p!"address" = .none ∨ ∃ s, i.attr p!"address" = .str s := by
  subst hc
  have hf : ∀ {d}, Fieldwise (Accepts E) .Channel d i → i.attr p!"address" = .none ∨ ∃ s, i.attr p!"address" = .str s := by
    rintro d ⟨_, _, h, _⟩
    have h := h ⟨p!"address", none, .union [.str, .none], .null, false, false, none⟩ (List.mem_cons_self ..)
    rw [fieldOk_iff] at h
    obtain ⟨h, _⟩ := h
    split at h
    · exact strOrNone h
    · exact .inl (Option.some.inj h).symm
  cases h with
  | dict _ h => exact hf h
  | inst _ h => exact hf h
  | root h => exact absurd h (by decide)

/-- What comes of an object whose fields are right. -/
theorem outcome {E : Env} {c : Cls} {v i : V} (ha : Assembled (Accepts E) c v i)
    (hr : ∀ f ∈ (classDef c).fields, (∃ k x, GivenIn c v f k x) → FieldRule (VersionOk E.U E.digits) c f.name (i.attr f.name)) :
    ∃ r, ((baseCheck E c i && modelCheck c i) = false → r = none) ∧
      (c ≠ .AsyncAPI3 → (baseCheck E c i && modelCheck c i) = true → r ≠ none) ∧
      check E v (.model c) = orSaying (Messages.ofObject E.U c i) r := by
  have hafter : ∀ (fs ex set set') (g : V → V × Score), i = .inst c fs ex set →
      ((baseCheck E c i && modelCheck c i) = false → (after E c (.inst c fs ex set')).map g = none) ∧
      (c ≠ .AsyncAPI3 → (baseCheck E c i && modelCheck c i) = true → (after E c (.inst c fs ex set')).map g ≠ none) := by
    rintro fs ex set set' g rfl
    have he : (baseCheck E c (.inst c fs ex set) && modelCheck c (.inst c fs ex set)) =
        (baseCheck E c (.inst c fs ex set') && modelCheck c (.inst c fs ex set')) := by cases c <;> rfl
    rw [he]
    unfold after
    constructor
    · intro h; simp [h]
    · intro hc h
      rw [if_pos h]
      cases c <;> first | exact absurd rfl hc | simp
  by_cases hk : (classDef c).kind = .patterned
  · cases ha with
    | dict h => exact absurd hk h
    | inst h => exact absurd hk h
    | @root _ v' t' y set _ hp hy =>
      obtain ⟨f, t, hf, hty, hn⟩ := root_is_dict c hk
      obtain ⟨sc, hy⟩ := accepts_iff.1 hy
      have hh : ∃ set? floor, check E v (.model c) = makeRoot E c (check E v' t') set? floor := by
        cases hp with
        | @root _ d f' h1 h2 =>
          rw [hf] at h2
          obtain rfl := List.mem_singleton.1 h2
          refine ⟨none, E.built, ?_⟩
          rw [hty]
          simp only [check, checkAs, checkModel, hk, hf, hty, checkRootTy]
        | @rootOf _ fs ex set f' x h1 h2 h3 =>
          rw [hf] at h2
          obtain rfl := List.mem_singleton.1 h2
          refine ⟨some set, 2, ?_⟩
          simp only [check, checkAs, checkModel, hk, hf, if_true, lookup_checks, h3, Option.map_some]
      obtain ⟨set?, floor, hc⟩ := hh
      rw [hy] at hc
      have h := hafter _ _ set (set?.getD [p!"root"]) (fun i => (i, sc.and ⟨floor, none⟩)) rfl
      refine ⟨_, h.1, h.2, ?_⟩
      rw [hc, ofObject_set E.U c _ _ set (set?.getD [p!"root"])]
      rfl
  · obtain ⟨d, hd⟩ : ∃ d, objectEntries c v = some d := by
      cases ha with
      | dict => exact ⟨_, rfl⟩
      | inst => exact ⟨_, by simp only [objectEntries, if_true]; rfl⟩
      | root h => exact absurd h hk
    have hf := (assembled_iff hk hd).1 ha
    obtain ⟨set?, floor, hc⟩ := check_object (E := E) hk hd
    obtain ⟨hok, hi⟩ := (allOk_given (E := E) (c := c) (d := d) i).2 ⟨hf, fun f hf' ⟨k, x, hg⟩ =>
      fieldRule_iff.2 (hr f hf' ⟨k, x, (givenIn_iff hd).2 hg⟩)⟩
    have hq : (checkFields E c (checks E d) (classDef c).fields).errors ++
        forbidden c (spare (checkFields E c (checks E d) (classDef c).fields).res.used (checks E d)) = [] := by
      rcases nil_or_mem ((checkFields E c (checks E d) (classDef c).fields).errors ++
        forbidden c (spare (checkFields E c (checks E d) (classDef c).fields).res.used (checks E d))) with h | ⟨q0, h⟩
      · exact h
      · exfalso
        obtain ⟨_, _, hall, hex⟩ := hf
        rcases (mem_fieldErrors E c d q0).1 h with ⟨f, hf', h'⟩ | ⟨hn, k, x, h3, h4, _⟩
        · have h1 := fieldOk_iff.1 (hall f hf')
          unfold About at h'
          cases hfk : findKey f d with
          | none =>
            rw [hfk] at h1 h'
            simp only at h1 h'
            rw [h'.1] at h1
            cases h1.1
          | some e =>
            obtain ⟨k, x⟩ := e
            rw [hfk] at h1 h'
            simp only at h1 h'
            obtain ⟨sc, h1c⟩ := accepts_iff.1 h1.1
            rw [h1c] at h'
            rcases h' with ⟨p, hp, _⟩ | ⟨y, sc', he, hb, _⟩
            · cases hp
            · cases he
              refine hb ?_
              rw [h1.2, fieldRule_iff.2 (hr f hf' ⟨k, x, (givenIn_iff hd).2 (findKey_iff.1 hfk)⟩)]
              rfl
        · have h5 := hex.2 hn
          simp only [List.filter_eq_nil_iff, decide_eq_true_eq] at h5
          exact h5 _ (lookup_some_mem h3) h4
    obtain ⟨_, r, hr1, hr2⟩ := make_quiet (set? := set?) (floor := floor) hq
    have h := hafter _ _ _ (set?.getD (setOf c d)) (fun i => (i, Score.exactly)) hi
    refine ⟨r, ?_, ?_, ?_⟩
    · intro hb
      exact hr1.2 (Option.map_eq_none_iff.1 (h.1 hb))
    · intro hcc hb e
      exact h.2 hcc hb (Option.map_eq_none_iff.2 (hr1.1 e))
    · rw [hc, hr2, hi, ofObject_set E.U c _ _ (setOf c d) (set?.getD (setOf c d))]

end Verif.Pyd
