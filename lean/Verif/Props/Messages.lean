import Verif.Lemmas.Said
import Verif.Props.Errors
/-!
# C71: what the messages of the package's validators say
-/
namespace Verif.Props
open Verif Verif.Spec Verif.Pyd Verif.Gen

/-- The fields of `v` that are given are not refused by their own validators. -/
abbrev EachRight (E : Env) (c : Cls) (v i : V) : Prop :=
  ∀ f ∈ (classDef c).fields, (∃ k x, GivenIn c v f k x) → FieldRule (VersionOk E.U E.digits) c f.name (i.attr f.name)

/-- C71: an object whose fields are right on their own is refused with the message that the specification
has for it, and with nothing else. -/
theorem C71_object (E : Env) (c : Cls) (v i : V) (ha : Assembled (Accepts E) c v i) (hr : EachRight E c v i) (text : Str)
    (hs : ObjectSays E.U c i text) : faults E c v = [⟨[], .wrong (some text)⟩] := by
  obtain ⟨r, h1, _, h3⟩ := outcome ha hr
  have ho := Messages.ofObject_iff.2 hs
  have hb : (baseCheck E c i && modelCheck c i) = false := by
    rw [← Bool.not_eq_true, ← ofObject_none (assembled_address ha), ho]
    simp
  rw [faults_eq, h3, h1 hb, ho]
  rfl

/-- C71: if there is no message for it, it is accepted. Only a processor can still refuse a document. -/
theorem C71_silent (E : Env) (c : Cls) (v i : V) (ha : Assembled (Accepts E) c v i) (hr : EachRight E c v i)
    (hs : ∀ text, ¬ ObjectSays E.U c i text) :
    faults E c v = [] ∨ (c = .AsyncAPI3 ∧ faults E c v = [⟨[], .wrong none⟩]) := by
  obtain ⟨r, _, h2, h3⟩ := outcome ha hr
  have ho : Messages.ofObject E.U c i = none := by
    cases h : Messages.ofObject E.U c i with
    | none => rfl
    | some t => exact absurd (Messages.ofObject_iff.1 h) (hs t)
  rw [faults_eq, h3, ho]
  cases r with
  | some r => exact .inl rfl
  | none =>
    by_cases hc : c = .AsyncAPI3
    · exact .inr ⟨hc, rfl⟩
    · exact absurd rfl (h2 hc ((ofObject_none (assembled_address ha)).1 ho))

/-- C71: so an object that is refused as a whole is never refused without a word. -/
theorem C71_always (E : Env) (c : Cls) (v i : V) (hc : c ≠ .AsyncAPI3) (ha : Assembled (Accepts E) c v i)
    (hr : EachRight E c v i) :
    validate E c v = none ↔ ∃ text, ObjectSays E.U c i text ∧ faults E c v = [⟨[], .wrong (some text)⟩] := by
  rw [C70_refused]
  constructor
  · intro h
    by_cases hs : ∃ text, ObjectSays E.U c i text
    · obtain ⟨text, hs⟩ := hs
      exact ⟨text, hs, C71_object E c v i ha hr text hs⟩
    · rcases C71_silent E c v i ha hr (fun t ht => hs ⟨t, ht⟩) with h' | ⟨h', _⟩
      · exact absurd h' h
      · exact absurd h' hc
  · rintro ⟨text, _, h⟩
    rw [h]; simp

theorem fieldSays_refused {U : Uni} {limit : Option Nat} {c : Cls} {name : Str} {v : V} {text : Str}
    (h : FieldSays U limit c name v text) : ¬ FieldRule (VersionOk U limit) c name v := by
  have hm : ∀ {s major}, OrNewline (fun s => VersionForm U s major) s → ∃ rest, Str.split '.' s = major :: rest := by
    rintro s major (h | ⟨b, rfl, h⟩)
    · have := split_major U h []
      rwa [List.append_nil] at this
    · exact split_major U h _
  have hv : ∀ {s}, VersionOk U limit s → ∃ major, OrNewline (fun s => VersionForm U s major) s ∧
      numberValue U major = 3 := by
    rintro s (⟨m, h1, h2, _⟩ | ⟨b, rfl, m, h1, h2, _⟩)
    · exact ⟨m, .inl h1, h2⟩
    · exact ⟨m, .inr ⟨b, rfl, h1⟩, h2⟩
  intro hr
  cases h with
  | form h =>
    obtain ⟨s, hs, h'⟩ := hr.asyncapi rfl rfl
    cases hs
    obtain ⟨m, h1, _⟩ := hv h'
    exact h m h1
  | major h1 _ h3 =>
    obtain ⟨s, hs, h'⟩ := hr.asyncapi rfl rfl
    cases hs
    obtain ⟨m, h4, h5⟩ := hv h'
    obtain ⟨_, e1⟩ := hm h1
    obtain ⟨_, e2⟩ := hm h4
    rw [e1] at e2
    cases e2
    exact h3 h5
  | location h =>
    obtain ⟨rest, e⟩ := hr.correlation rfl rfl
    exact h rest e
  | expiration h => have := hr.expiration rfl rfl _ rfl; omega
  | priority h => have := hr.priority rfl rfl _ rfl; omega
  | heartBeat h => have := hr.heartBeat rfl rfl _ rfl; omega
  | msgLength h => have := hr.msgLength rfl rfl _ rfl; omega
  | expiry h => have := hr.expiry rfl rfl _ rfl; omega
  | partitions h => have := hr.kafka rfl (.inl rfl) _ rfl; omega
  | replicas h => have := hr.kafka rfl (.inr rfl) _ rfl; omega

/-- C71: the value of a field that is refused by the validator of the field is refused with the message
that the specification has for it, next to whatever else is wrong. -/
theorem C71_field (E : Env) (c : Cls) (v : V) (hk : (classDef c).kind ≠ .patterned) (f : FieldDef Cls)
    (hf : f ∈ (classDef c).fields) (k : Str) (x y : V) (hg : GivenIn c v f k x) (ha : Accepts E x f.ty y)
    (hl : ∀ m s, f.maxLen = some m → y = .str s → s.length ≤ m) (text : Str) (hs : FieldSays E.U E.digits c f.name y text) :
    ⟨[.key k], .wrong (some text)⟩ ∈ faults E c v := by
  rw [C70_exact]
  exact .own (.refused hk hf hg ha hl (fieldSays_refused hs) hs)

/-- C71: there is a message for every value a field validator refuses, unless `int()` refuses
to read the major version. -/
theorem C71_field_always (U : Uni) (limit : Option Nat) (c : Cls) (name : Str) (v : V)
    (ht : c = .AsyncAPI3 → name = p!"asyncapi" → ∃ s, v = .str s)
    (h : ¬ FieldRule (VersionOk U limit) c name v) :
    (∃ text, FieldSays U limit c name v text) ∨
      (c = .AsyncAPI3 ∧ name = p!"asyncapi" ∧ ∃ s major, v = .str s ∧ OrNewline (fun s => VersionForm U s major) s ∧
        ¬ WithinLimit limit major) := by
  by_cases hs : ∃ text, FieldSays U limit c name v text
  · exact .inl hs
  right
  have hno : ∀ text, ¬ FieldSays U limit c name v text := fun t ht => hs ⟨t, ht⟩
  by_contra hc
  refine h ⟨?_, ?_, ?_, ?_, ?_, ?_, ?_, ?_⟩
  · rintro rfl rfl
    obtain ⟨s, rfl⟩ := ht rfl rfl
    refine ⟨s, rfl, ?_⟩
    by_cases hm : ∃ major, OrNewline (fun s => VersionForm U s major) s
    · obtain ⟨major, hm⟩ := hm
      by_cases hl : WithinLimit limit major
      · by_cases h3 : numberValue U major = 3
        · rcases hm with hm | ⟨b, rfl, hm⟩
          · exact .inl ⟨major, hm, h3, hl⟩
          · exact .inr ⟨b, rfl, major, hm, h3, hl⟩
        · exact absurd (.major hm hl h3) (hno _)
      · exact absurd ⟨rfl, rfl, s, major, rfl, hm, hl⟩ hc
    · exact absurd (.form fun major h => hm ⟨major, h⟩) (hno _)
  · rintro rfl rfl
    by_contra hl
    exact hno _ (.location fun rest e => hl ⟨rest, e⟩)
  · rintro rfl rfl n rfl
    by_contra hl
    exact hno _ (.expiration (by omega))
  · rintro rfl rfl n rfl
    by_contra hl
    exact hno _ (.priority (by omega))
  · rintro rfl rfl n rfl
    by_contra hl
    exact hno _ (.heartBeat (by omega))
  · rintro rfl rfl n rfl
    by_contra hl
    exact hno _ (.msgLength (by omega))
  · rintro rfl rfl n rfl
    by_contra hl
    exact hno _ (.expiry (by omega))
  · rintro rfl (rfl | rfl) n rfl
    · by_contra hl
      exact hno _ (.partitions (by omega))
    · by_contra hl
      exact hno _ (.replicas (by omega))

/-- C71: no message comes without cause. Where an entry with a message leads to, there is an object or an e-mail
address about which this is the message, or there is one just before it with a field about which it is. -/
theorem C71_cause (E : Env) (c : Cls) (v : V) (loc : List Step) (text : Str) (h : ⟨loc, .wrong (some text)⟩ ∈ faults E c v) :
    (∃ w t, LeadsTo v loc w ∧ (∀ y, ¬ Accepts E w t y) ∧ WholeSays (Accepts E) E.U w t text) ∨
    (∃ pre k w c' f x y, loc = pre ++ [.key k] ∧ LeadsTo v pre w ∧ f ∈ (classDef c').fields ∧ GivenIn c' w f k x ∧
      Accepts E x f.ty y ∧ FieldSays E.U E.digits c' f.name y text) := by
  rw [C70_exact] at h
  have hstep : ∀ {v t pre v' t'}, Portion v t pre v' t' → ∀ {loc w}, LeadsTo v' loc w → LeadsTo v (pre ++ loc) w := by
    intro v t pre v' t' hp loc w hl
    cases hp with
    | item h => exact .item h hl
    | entry h => exact .entry h hl
    | field h1 h2 h3 =>
      rcases h3.1 with ⟨d, rfl, h⟩ | ⟨fs, ex, set, rfl, h | ⟨_, h⟩⟩
      · exact .entry (lookup_some_mem h) hl
      · exact .field (.inr (lookup_some_mem h)) hl
      · exact .field (.inl (lookup_some_mem h)) hl
    | root => exact hl
    | rootOf _ _ h => exact .root (lookup_some_mem h) hl
    | only => exact hl
    | one => exact .member hl
  generalize Ty.model c = t at h
  generalize hw : Why.wrong (some text) = why at h
  induction h with
  | deeper _ hp _ ih =>
    rcases ih hw with ⟨w, t, h1, h2⟩ | ⟨pre, k, w, c', f, x, y, rfl, h1, h2⟩
    · exact .inl ⟨w, t, hstep hp h1, h2⟩
    · exact .inr ⟨_, k, w, c', f, x, y, by rw [← List.append_assoc], hstep hp h1, h2⟩
  | own h =>
    cases h with
    | missing => cases hw
    | unexpected => cases hw
    | tooLong => cases hw
    | refused h1 h2 h3 h4 h5 h6 h7 =>
      cases hw
      exact .inr ⟨[], _, _, _, _, _, _, rfl, .here, h2, h3, h4, h7⟩
  | whole h1 _ _ h4 =>
    cases hw
    exact .inl ⟨_, _, .here, h1, h4⟩

/-- C71: a key that is neither a field nor has the form of an extension is named, the first one of the input if there are
several. -/
theorem C71_key (E : Env) (c : Cls) (hk : (classDef c).kind = .extendable) (before rest : List (Str × V)) (key : Str) (x : V)
    (i : V) (ha : Fieldwise (Accepts E) c (before ++ (key, x) :: rest) i)
    (hr : EachRight E c (.dict (before ++ (key, x) :: rest)) i)
    (hn : ∀ f ∈ (classDef c).fields, ∀ y, ¬ GivenAs f (before ++ (key, x) :: rest) key y)
    (hx : ¬ OrNewline (ExtensionForm E.U) key)
    (hb : ∀ e ∈ before, OrNewline (ExtensionForm E.U) e.1 ∨
      ∃ f ∈ (classDef c).fields, ∃ y, GivenAs f (before ++ (key, x) :: rest) e.1 y) :
    faults E c (.dict (before ++ (key, x) :: rest)) = [⟨[], .wrong (some (p!"Field '" ++ key ++
      p!"' does not match specification extension pattern. Extensions must start with 'x-' and contain only word characters, digits, dots, hyphens, and underscores."))⟩] := by
  refine C71_object E c _ i (.dict (by rw [hk]; simp) ha) hr _ (.inl (.extension hk ?_))
  obtain ⟨fs, _, _, hi, _⟩ := ha
  rw [hi]
  simp only [V.extras, List.filter_append]
  rw [List.filter_cons_of_pos (by simpa using hn), List.map_append, List.map_cons]
  refine ⟨_, _, rfl, hx, ?_⟩
  intro k hkk
  obtain ⟨e, he, rfl⟩ := List.mem_map.1 hkk
  obtain ⟨h1, h2⟩ := List.mem_filter.1 he
  rcases hb e h1 with h | ⟨f, hf, y, hy⟩
  · exact h
  · simp only [decide_eq_true_eq] at h2
    exact absurd hy (h2 f hf y)

/-- C71: the messages of a class are different from each other, and from those about names of keys. -/
theorem messages_apart (c : Cls) : ((messages c).map (·.1)).Nodup ∧
    ∀ t ∈ (messages c).map (·.1), (p!"Field '").isPrefixOf t = false := by
  cases c <;> first
    | exact ⟨List.nodup_nil, fun _ h => by cases h⟩
    | (constructor <;> simp only [messages, List.map_cons, List.map_nil] <;> decide +kernel)

/-- C71: so what a message says is the case: it is not the message for anything else. -/
theorem C71_means (E : Env) (c : Cls) (v i : V) (ha : Assembled (Accepts E) c v i) (hr : EachRight E c v i) (text : Str)
    (h : faults E c v = [⟨[], .wrong (some text)⟩]) (sit : V → Prop) (hm : (text, sit) ∈ messages c) : sit i := by
  have hs : ObjectSays E.U c i text := by
    by_cases hs : ∃ text, ObjectSays E.U c i text
    · obtain ⟨text', hs⟩ := hs
      have := C71_object E c v i ha hr text' hs
      rw [h] at this
      cases this
      exact hs
    · rcases C71_silent E c v i ha hr (fun t ht => hs ⟨t, ht⟩) with h' | ⟨_, h'⟩ <;> rw [h] at h' <;> cases h'
  obtain ⟨hn, hp⟩ := messages_apart c
  rcases hs with hs | ⟨_, before, sit', rest, e, h1, _⟩
  · have := hp text (List.mem_map.2 ⟨_, hm, rfl⟩)
    have hpre : (p!"Field '").isPrefixOf text = true := by
      rw [List.isPrefixOf_iff_prefix]
      cases hs with
      | extension => simp only [List.append_assoc]; exact List.prefix_append ..
      | patterned => simp only [List.append_assoc]; exact List.prefix_append ..
    rw [hpre] at this; cases this
  · have h2 : (text, sit') ∈ messages c := by rw [e]; simp
    have := List.inj_on_of_nodup_map hn hm h2 rfl
    cases this
    exact h1

/-- C71: there is at most one message about an object. -/
theorem C71_one (U : Uni) (c : Cls) (i : V) (text text' : Str) (h : ObjectSays U c i text) (h' : ObjectSays U c i text') :
    text = text' := by
  rw [← Messages.ofObject_iff] at h h'
  rw [h] at h'
  exact Option.some.inj h'

/-- C71: an e-mail address that is refused is refused with its message. -/
theorem C71_email (E : Env) (s : Str) (hs : ¬ OrNewline EmailForm s) (loc : List Step) (why : Why) :
    Faulty (Accepts E) E.U E.digits (.str s) .email loc why ↔ loc = [] ∧ why = .wrong (some p!"Invalid email format") := by
  have h := right E (.str s) .email ⟨loc, why⟩
  rw [← h]
  rw [← C22_exact, Bool.not_eq_true] at hs
  simp [check, checkAs, Messages.email, parseEmail, hs, orSaying, saying, errs]

/-- C71: so it is for that of a contact. -/
theorem C71_contact (E : Env) (d : List (Str × V)) :
    ⟨[.key p!"email"], .wrong (some p!"Invalid email format")⟩ ∈ faults E .Contact (.dict d) ↔
      ∃ s, lookup p!"email" d = some (.str s) ∧ ¬ OrNewline EmailForm s := by
  have ho : others [Ty.email, Ty.none] = [(.email : Ty Cls)] := rfl
  constructor
  · rw [C70_exact, faulty_iff]
    rintro (⟨pre, v', t', loc', h0, _, hp, h⟩ | h | ⟨_, _, _, h, _⟩)
    · cases hp with
      | @field _ _ f k x h1 h2 h3 =>
        simp only [List.cons_append, List.nil_append, List.cons.injEq, Step.key.injEq] at h0
        obtain ⟨rfl, rfl⟩ := h0
        have hl : lookup p!"email" d = some v' := by
          rcases h3.1 with ⟨d', e, h⟩ | ⟨_, _, _, e, _⟩
          · cases e; exact h
          · cases e
        have hty : f.ty = .union [.email, .none] := by
          rcases List.mem_cons.1 h2 with rfl | h2
          · rcases h3.2 with e | ⟨e, _⟩ <;> cases e
          rcases List.mem_cons.1 h2 with rfl | h2
          · rcases h3.2 with e | ⟨e, _⟩ <;> cases e
          rcases List.mem_cons.1 h2 with rfl | h2
          · rfl
          · cases h2
        rw [hty, faulty_iff] at h
        rcases h with ⟨pre, v'', t'', loc', h0, _, hp, h⟩ | h | ⟨_, _, _, _, text, h, e⟩
        · obtain ⟨rfl, rfl⟩ := List.append_eq_nil_iff.1 h0.symm
          cases hp with
          | only h4 =>
            rw [ho] at h4
            cases h4
            rw [faulty_iff] at h
            rcases h with ⟨_, _, _, _, _, _, hp, _⟩ | h | ⟨hr, _, _, _, text, h, e⟩
            · cases hp
            · cases h
            · cases e
              generalize ht : (p!"Invalid email format" : Str) = text at h
              generalize htt : (Ty.email : Ty Cls) = t at h
              cases h with
              | @email s =>
                refine ⟨s, hl, ?_⟩
                rw [← C22_exact]
                intro hv
                exact hr (.str s) ⟨.exactly, by simp [parse, parseAs, parseEmail, hv]⟩
              | object => cases htt
        · cases h
        · cases e
          cases h
      | root h1 => cases h1
    · generalize hl : [Step.key p!"email"] = loc at h
      generalize hw : Why.wrong (some p!"Invalid email format") = w at h
      cases h with
      | missing => cases hw
      | unexpected => cases hw
      | tooLong => cases hw
      | refused _ _ _ _ _ _ h7 => cases hw; cases h7
    · cases h
  · rintro ⟨s, hl, hs⟩
    refine C70_fields E .Contact (.dict d) (by decide) ⟨p!"email", none, .union [.email, .none], .null, false, true, none⟩
      (by simp [classDef, defContact]) p!"email" (.str s) ⟨.inl ⟨_, rfl, hl⟩, .inr ⟨rfl, fun a y e => by cases e⟩⟩ [] _ ?_
    refine .deeper (pre := []) ?_ (.only ho) ((C71_email E s hs _ _).2 ⟨rfl, rfl⟩)
    rintro y ⟨sc, h⟩
    rcases union_cases h with ⟨e, _⟩ | ⟨t, ht, h⟩
    · cases e
    · simp only [List.mem_cons, List.not_mem_nil, or_false] at ht
      rw [← C22_exact, Bool.not_eq_true] at hs
      rcases ht with rfl | rfl
      · simp [parse, parseAs, parseEmail, hs] at h
      · simp [parse, parseAs, V.isNone] at h

/-! ### Non-vacuity -/

/-- A security scheme that breaks three rules. -/
def aScheme : List (Str × V) := [(p!"type", .str p!"httpApiKey"), (p!"bearerFormat", .str p!"JWT"), (p!"scopes", .list [])]

/-- Each of its fields is right, and there is a message for it. -/
example : ∃ i, Assembled (Accepts plainEnv) .SecurityScheme (.dict aScheme) i ∧
    EachRight plainEnv .SecurityScheme (.dict aScheme) i ∧
    ObjectSays plainEnv.U .SecurityScheme i p!"bearerFormat can only be used with http type and bearer scheme" := by
  have h := (allOk_given (E := plainEnv) (c := .SecurityScheme) (d := aScheme) _).1 ⟨by decide +kernel, rfl⟩
  refine ⟨_, .dict (by decide) h.1, fun f hf ⟨k, x, hg⟩ => fieldRule_iff.1 (h.2 f hf ⟨k, x, (givenIn_iff rfl).1 hg⟩), ?_⟩
  rw [← Messages.ofObject_iff]
  decide +kernel

/-- It is what the error says (`C71_object`, `C71_means`). -/
example : faults plainEnv .SecurityScheme (.dict aScheme) =
    [⟨[], .wrong (some p!"bearerFormat can only be used with http type and bearer scheme")⟩] := by
  have h : shown (faults plainEnv .SecurityScheme (.dict aScheme)) =
    [([], .wrong (some p!"bearerFormat can only be used with http type and bearer scheme"))] := by decide +kernel
  unfold shown at h
  rcases hf : faults plainEnv .SecurityScheme (.dict aScheme) with _ | ⟨⟨l, w⟩, _ | _⟩ <;> rw [hf] at h <;> simp at h
  rw [h.1, h.2]

/-- With that mended, the next. -/
example : shown (faults plainEnv .SecurityScheme (.dict [(p!"type", .str p!"httpApiKey"), (p!"scopes", .list [])])) =
    [([], .wrong (some p!"name is required for httpApiKey type"))] := by decide +kernel

/-- The first of the keys that are not allowed is named (`C71_key`). -/
example : shown (faults plainEnv .Tag (.dict [(p!"x-a", .none), (p!"name", .str p!"n"), (p!"colour", .none), (p!"y", .none)])) =
    [([], .wrong (some p!"Field 'colour' does not match specification extension pattern. Extensions must start with 'x-' and contain only word characters, digits, dots, hyphens, and underscores."))] := by
  decide +kernel

/-- A field that is refused and a bad name: the name is not spoken of yet (`C71_field`). -/
example : shown (faults plainEnv .CorrelationID (.dict [(p!"location", .str p!"message.id"), (p!"y", .none)])) =
    [([.inl p!"location"], .wrong (some p!"location must be a runtime expression starting with '$message.'"))] := by
  decide +kernel

/-- Inside a document, where the location says which object is meant (`C71_cause`, `C71_contact`). -/
example : shown (faults plainEnv .AsyncAPI3 (.dict [
    (p!"asyncapi", .str p!"three"),
    (p!"info", .dict [(p!"title", .str p!"t"), (p!"version", .str p!"1"), (p!"contact", .dict [(p!"email", .str p!"me")])]),
    (p!"channels", .dict [(p!"c", .dict [(p!"parameters", .dict []), (p!"address", .str p!"a/b")])]),
    (p!"servers", .dict [(p!"a b", .dict [(p!"host", .str p!"h"), (p!"protocol", .str p!"p")])])])) = [
    ([.inl p!"asyncapi"], .wrong (some p!"asyncapi must be in semantic versioning format: major.minor.patch[-suffix]")),
    ([.inl p!"info", .inl p!"contact", .inl p!"email"], .wrong (some p!"Invalid email format")),
    ([.inl p!"servers"], .wrong (some p!"Field 'a b' does not match patterned object key pattern. Keys must contain letters, digits, hyphens, and underscores.")),
    ([.inl p!"channels", .inl p!"c", .inr none],
      .wrong (some p!"parameters must not be provided when address does not contain Channel Address Expressions")),
    ([.inl p!"channels", .inl p!"c", .inr none, .inl p!"$ref"], .missing),
    ([.inl p!"channels", .inl p!"c", .inr none, .inl p!"parameters"], .unexpected),
    ([.inl p!"channels", .inl p!"c", .inr none, .inl p!"address"], .unexpected)] := by decide +kernel

/-- A version that `int()` does not read has no message of the package (`C71_field_always`). -/
example : shown (faults { plainEnv with digits := some 1 } .AsyncAPI3 (.dict [(p!"asyncapi", .str p!"03.0.0"),
    (p!"info", .dict [(p!"title", .str p!"t"), (p!"version", .str p!"1")])])) = [([.inl p!"asyncapi"], .wrong none)] := by
  decide +kernel

end Verif.Props
