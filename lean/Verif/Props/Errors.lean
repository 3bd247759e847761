import Verif.Lemmas.ErrorsOnce
import Verif.Props.Document
/-!
# C70: what the `ValidationError` of `model_validate` lists
-/
namespace Verif.Props
open Verif Verif.Spec Verif.Pyd Verif.Gen

theorem faults_eq (E : Env) (c : Cls) (v : V) : faults E c v = errs (check E v (.model c)) := by
  unfold faults errs; rfl

/-- C70: the entries of the error are exactly those the specification names: one for everything wrong, missing or
not allowed, each where it is. -/
theorem C70_exact (E : Env) (c : Cls) (v : V) (loc : List Step) (why : Why) :
    ⟨loc, why⟩ ∈ faults E c v ↔ Faulty (Accepts E) E.U E.digits v (.model c) loc why := by
  rw [faults_eq]
  exact right E v (.model c) ⟨loc, why⟩

/-- C70: there are entries if and only if the input is refused. -/
theorem C70_refused (E : Env) (c : Cls) (v : V) : validate E c v = none ↔ faults E c v ≠ [] := by
  unfold validate
  rw [faults_eq, ← (check_both E v (.model c)).1]
  have h := (check_both E v (.model c)).2
  cases hc : check E v (.model c) with
  | ok r => simp [Except.toOption, errs]
  | error l =>
    rw [hc] at h
    simp only [Except.toOption, Option.map_none, errs, true_iff]
    rintro rfl; exact h rfl

/-- C70: whatever else is wrong, every entry about the value of a field is listed, under the key
by which the field is given. -/
theorem C70_fields (E : Env) (c : Cls) (v : V) (hk : (classDef c).kind ≠ .patterned) (f : FieldDef Cls)
    (hf : f ∈ (classDef c).fields) (k : Str) (x : V) (hg : GivenIn c v f k x) (loc : List Step) (why : Why)
    (h : Faulty (Accepts E) E.U E.digits x f.ty loc why) : ⟨.key k :: loc, why⟩ ∈ faults E c v := by
  have hp := Portion.field hk hf hg
  rw [C70_exact]
  refine .deeper (pre := [.key k]) ?_ hp h
  intro y hy
  have h0 := (right E x f.ty ⟨loc, why⟩).2 h
  have hd : ∃ d, objectEntries c v = some d := by
    cases hd : objectEntries c v with
    | some d => exact ⟨d, rfl⟩
    | none => exact absurd (hasKey_object hg.1) (not_objectLike hd)
  obtain ⟨d, hd⟩ := hd
  obtain ⟨set?, floor, hc⟩ := check_object (E := E) hk hd
  have hm : (⟨.key k :: loc, why⟩ : Fault) ∈ errs (check E v (.model c)) := by
    rw [hc, mem_make]
    refine .inl ⟨f, hf, ?_⟩
    unfold About
    rw [findKey_iff.2 ((givenIn_iff hd).1 hg)]
    exact .inl ⟨_, h0, rfl⟩
  exact refuses_iff.2 ⟨_, hm⟩ y hy

/-- C70: the required fields that are missing are all listed, and they only. -/
theorem C70_missing (E : Env) (c : Cls) (v : V) (hk : (classDef c).kind ≠ .patterned) (k : Str) :
    ⟨[.key k], .missing⟩ ∈ faults E c v ↔
      ObjectLike c v ∧ ∃ f ∈ (classDef c).fields, f.dflt = .required ∧ k = f.alias.getD f.name ∧
        ∀ k x, ¬ GivenIn c v f k x := by
  rw [C70_exact, faulty_iff]
  constructor
  · rintro (⟨pre, v', t', loc', h0, _, hp, h⟩ | h | ⟨_, _, _, h, _⟩)
    · have hl := faulty_proper h (by simp)
      cases hp with
      | field h1 h2 h3 =>
        simp only [List.cons_append, List.nil_append, List.cons.injEq] at h0
        exact absurd h0.2.symm hl
      | root h1 => exact absurd h1 hk
      | rootOf h1 => exact absurd h1 hk
    · generalize hloc : [Step.key k] = loc at h
      cases h with
      | missing h1 h2 h3 h4 h5 =>
        simp only [List.cons.injEq, Step.key.injEq, and_true] at hloc
        exact ⟨h2, _, h3, h4, hloc, h5⟩
    · cases h
  · rintro ⟨h1, f, hf, h2, rfl, h3⟩
    exact .inr (.inl (.missing hk h1 hf h2 h3))

/-- C70: the keys a closed class does not have are all listed, and they only. -/
theorem C70_unexpected (E : Env) (c : Cls) (v : V) (hk : (classDef c).kind ≠ .patterned) (k : Str) :
    ⟨[.key k], .unexpected⟩ ∈ faults E c v ↔
      (classDef c).kind = .nonExtendable ∧ (∃ x, HasKey c v k x) ∧ ∀ f ∈ (classDef c).fields, ∀ y, ¬ GivenIn c v f k y := by
  rw [C70_exact, faulty_iff]
  constructor
  · rintro (⟨pre, v', t', loc', h0, _, hp, h⟩ | h | ⟨_, _, _, h, _⟩)
    · have hl := faulty_proper h (by simp)
      cases hp with
      | field h1 h2 h3 =>
        simp only [List.cons_append, List.nil_append, List.cons.injEq] at h0
        exact absurd h0.2.symm hl
      | root h1 => exact absurd h1 hk
      | rootOf h1 => exact absurd h1 hk
    · generalize hloc : [Step.key k] = loc at h
      cases h with
      | unexpected h1 h2 h3 =>
        simp only [List.cons.injEq, Step.key.injEq, and_true] at hloc
        subst hloc
        exact ⟨h1, ⟨_, h2⟩, h3⟩
    · cases h
  · rintro ⟨h1, ⟨x, h2⟩, h3⟩
    exact .inr (.inl (.unexpected h1 h2 h3))

theorem dict_alone {E : Env} {x : V} {t : Ty Cls} {w : Why} (h : ⟨[], w⟩ ∈ errs (check E x (.dict t))) :
    check E x (.dict t) = .error itself := by
  cases x with
  | dict d =>
    obtain ⟨k, x, p, _, _, e⟩ := (mem_checkDict E t d _).1 h
    cases e
  | _ => simp only [check, checkAs, checkDict]

theorem make_alone {E : Env} {c : Cls} {d : List (Str × V)} {set? : Option (List Str)} {floor : Nat} {w : Why}
    (h : ⟨[], w⟩ ∈ errs (make E c (checks E d) set? floor)) : ∃ o, make E c (checks E d) set? floor = .error (saying o) := by
  have hm := mem_fieldErrors E c d ⟨[], w⟩
  have hn : (⟨[], w⟩ : Fault) ∉ (checkFields E c (checks E d) (classDef c).fields).errors ++
        forbidden c (spare (checkFields E c (checks E d) (classDef c).fields).res.used (checks E d)) := by
    rw [hm]
    rintro (⟨f, _, h⟩ | ⟨_, k, x, _, _, e⟩)
    · unfold About at h
      split at h
      · rcases h with ⟨p, _, e⟩ | ⟨v, sc, _, _, e⟩ <;> cases e
      · cases h.2
    · cases e
  unfold make at h ⊢
  simp only at h ⊢
  split at h
  · revert h
    generalize (after E c _).map _ = r
    cases r with
    | none => intro _; exact ⟨_, rfl⟩
    | some r => intro h; cases h
  · exact absurd h hn

/-- C70: an entry about the input as a whole is the only one. -/
theorem C70_alone (E : Env) (c : Cls) (v : V) (why : Why) (h : ⟨[], why⟩ ∈ faults E c v) :
    faults E c v = [⟨[], why⟩] := by
  rw [faults_eq] at h ⊢
  suffices ∃ o, check E v (.model c) = .error (saying o) by
    obtain ⟨o, ho⟩ := this
    rw [ho] at h ⊢
    simp only [errs, saying, List.mem_singleton, Fault.mk.injEq, true_and] at h ⊢
    rw [h]
  have hroot : ∀ {r : Pyd.Out} {set? : Option (List Str)} {floor : Nat},
      (⟨[], why⟩ ∈ errs r → r = .error itself) → ⟨[], why⟩ ∈ errs (makeRoot E c r set? floor) →
      ∃ o, makeRoot E c r set? floor = .error (saying o) := by
    intro r set? floor h1 h2
    cases r with
    | error l => exact ⟨none, h1 h2⟩
    | ok r =>
      simp only [makeRoot] at h2 ⊢
      rcases orSaying_cases (Messages.ofObject E.U c (.inst c [(p!"root", r.1)] [] (set?.getD [p!"root"])))
        ((after E c (.inst c [(p!"root", r.1)] [] (set?.getD [p!"root"]))).map
        fun i => (i, r.2.and ⟨floor, none⟩)) with h3 | h3
      · rw [h3] at h2; cases h2
      · exact ⟨_, h3⟩
  cases ho : objectEntries c v with
  | none => exact ⟨none, check_no_object ho⟩
  | some d =>
    by_cases hk : (classDef c).kind = .patterned
    · obtain ⟨f, t, hf, hty, hn⟩ := root_is_dict c hk
      cases v with
      | dict d' =>
        have hd : check E (.dict d') (.model c) = makeRoot E c (check E (.dict d') (.dict t)) none E.built := by
          simp only [check, checkAs, checkModel, hk, hf, hty, checkRootTy]
        rw [hd] at h ⊢
        exact hroot dict_alone h
      | inst c' fs ex set =>
        simp only [objectEntries] at ho
        split at ho
        · rename_i hc
          subst hc
          cases hl : lookup f.name fs with
          | none => exact ⟨none, by simp only [check, checkAs, checkModel, hk, hf, if_true, lookup_checks, hl, Option.map_none]; rfl⟩
          | some x =>
            have hd : check E (.inst c' fs ex set) (.model c') = makeRoot E c' (check E x (.dict t)) (some set) 2 := by
              simp only [check, checkAs, checkModel, hk, hf, if_true, lookup_checks, hl, Option.map_some, hty]
            rw [hd] at h ⊢
            exact hroot dict_alone h
        · cases ho
      | _ => simp [objectEntries] at ho
    · obtain ⟨set?, floor, hc⟩ := check_object (E := E) hk ho
      rw [hc] at h ⊢
      exact make_alone h

theorem exists_tells (P : Str → Prop) : ∃ text, Tells P text := by
  by_cases h : ∃ t, P t
  · obtain ⟨t, h⟩ := h; exact ⟨some t, h⟩
  · exact ⟨none, fun t ht => h ⟨t, ht⟩⟩

/-- C70: and it comes only when all parts are right, and nothing is missing or not allowed: the validators that look
at several fields run last. (For an instance of a patterned class, which is revalidated, its `root` may be to blame.) -/
theorem C70_whole (E : Env) (c : Cls) (v : V)
    (hv : (classDef c).kind = .patterned → ∀ fs ex set, v ≠ .inst c fs ex set) : (∃ text, faults E c v = [⟨[], .wrong text⟩]) ↔
    validate E c v = none ∧ (∀ pre v' t', Portion v (.model c) pre v' t' → ∃ y, Accepts E v' t' y) ∧
      ∀ loc why, ¬ Own (Accepts E) E.U E.digits v (.model c) loc why := by
  have hr : validate E c v = none ↔ ∀ y, ¬ Accepts E v (.model c) y := by
    rw [C70_refused, refuses_iff, faults_eq]
    rcases nil_or_mem (errs (check E v (.model c))) with h | h
    · simp [h]
    · simp only [h, iff_true]
      intro e; rw [e] at h; obtain ⟨q, hq⟩ := h; cases hq
  constructor
  · rintro ⟨text, h⟩
    have hm : (⟨[], .wrong text⟩ : Fault) ∈ faults E c v := by rw [h]; simp
    rw [C70_exact, faulty_iff] at hm
    rcases hm with ⟨pre, v', t', loc', h0, _, hp, hf⟩ | ho | ⟨h1, h2, h3, _⟩
    · exfalso
      have h0 := (List.append_eq_nil_iff.1 h0.symm)
      obtain ⟨rfl, rfl⟩ := h0
      cases hp with
      | @root _ d f h1 h2 =>
        obtain ⟨f', t, hf', hty, _⟩ := root_is_dict c h1
        rw [hf'] at h2
        rw [List.mem_singleton.1 h2, hty] at hf
        obtain ⟨k, x, p, _, _, e⟩ := (mem_checkDict E t d _).1 ((right E _ _ ⟨[], .wrong text⟩).2 hf)
        cases e
      | rootOf h1 => exact hv h1 _ _ _ rfl
    · generalize hl : ([] : List Step) = loc at ho
      cases ho <;> cases hl
    · exact ⟨hr.2 h1, h2, h3⟩
  · rintro ⟨h1, h2, h3⟩
    obtain ⟨text, ht⟩ := exists_tells (WholeSays (Accepts E) E.U v (.model c))
    exact ⟨text, C70_alone E c v _ ((C70_exact E c v [] (.wrong text)).2 (.whole (hr.1 h1) h2 h3 ht))⟩

/-- C70: following the location of an entry in the input leads to what it is about. An entry about a missing field
leads to an object that does not have the key. -/
theorem C70_location (E : Env) (c : Cls) (v : V) (loc : List Step) (why : Why) (h : ⟨loc, why⟩ ∈ faults E c v) :
    (why ≠ .missing ∧ ∃ w, LeadsTo v loc w) ∨
    (why = .missing ∧ ∃ pre k w c', loc = pre ++ [.key k] ∧ LeadsTo v pre w ∧ ObjectLike c' w ∧ ∀ x, ¬ HasKey c' w k x) := by
  rw [C70_exact] at h
  have hstep : ∀ {v t pre v' t'}, Portion v t pre v' t' → ∀ {loc w}, LeadsTo v' loc w → LeadsTo v (pre ++ loc) w := by
    intro v t pre v' t' hp loc w hl
    cases hp with
    | item h => exact .item h hl
    | entry h => exact .entry h hl
    | field h1 h2 h3 =>
      rcases h3.1 with ⟨d, rfl, h⟩ | ⟨fs, ex, set, rfl, h | ⟨_, h⟩⟩
      · exact .entry (lookup_some_mem h) hl
      · exact .field (.inr (lookup_some_mem h)) hl
      · exact .field (.inl (lookup_some_mem h)) hl
    | root => exact hl
    | rootOf _ _ h => exact .root (lookup_some_mem h) hl
    | only => exact hl
    | one => exact .member hl
  have hkey : ∀ {c v k x}, HasKey c v k x → LeadsTo v [.key k] x := by
    rintro c v k x (⟨d, rfl, h⟩ | ⟨fs, ex, set, rfl, h | ⟨_, h⟩⟩)
    · exact .entry (lookup_some_mem h) .here
    · exact .field (.inr (lookup_some_mem h)) .here
    · exact .field (.inl (lookup_some_mem h)) .here
  generalize Ty.model c = t at h
  induction h with
  | deeper _ hp _ ih =>
    rcases ih with ⟨h1, w, h2⟩ | ⟨h1, pre, k, w, c', rfl, h2, h3⟩
    · exact .inl ⟨h1, w, hstep hp h2⟩
    · exact .inr ⟨h1, _, k, w, c', by rw [← List.append_assoc], hstep hp h2, h3⟩
  | own h =>
    cases h with
    | @missing c v f h1 h2 h3 h4 h5 =>
      refine .inr ⟨rfl, [], _, _, c, rfl, .here, h2, ?_⟩
      intro x hx
      cases ha : f.alias with
      | some a =>
        rw [ha] at hx
        exact h5 a x ⟨hx, .inl ha⟩
      | none =>
        rw [ha] at hx
        exact h5 f.name x ⟨hx, .inr ⟨rfl, fun a y e => by rw [ha] at e; cases e⟩⟩
    | unexpected h1 h2 h3 => exact .inl ⟨by simp, _, hkey h2⟩
    | tooLong h1 h2 h3 => exact .inl ⟨by simp, _, hkey h3.1⟩
    | refused h1 h2 h3 => exact .inl ⟨by simp, _, hkey h3.1⟩
  | whole => exact .inl ⟨by simp, _, .here⟩

theorem findKey_congr {f : FieldDef Cls} {d d' : List (Str × V)} (h : ∀ k ∈ keysOf f, lookup k d = lookup k d') :
    findKey f d = findKey f d' := by
  unfold findKey
  unfold keysOf at h
  have hn := h f.name (List.mem_cons_self ..)
  cases ha : f.alias with
  | none => rw [hn]
  | some a =>
    have h2 := h a (by rw [ha]; simp)
    simp only [hn, h2]

theorem about_key {E : Env} {c : Cls} {d : List (Str × V)} {f : FieldDef Cls} {k : Str} {loc : List Step} {why : Why}
    (h : About E c d f ⟨.key k :: loc, why⟩) : k ∈ keysOf f := by
  unfold About at h
  split at h
  · rename_i k' x hf
    have hk := findKey_keys hf
    rcases h with ⟨p, _, e⟩ | ⟨v, sc, _, _, e⟩
    · cases e; exact hk
    · cases e; exact hk
  · cases h.2
    unfold keysOf
    cases f.alias <;> simp

/-- C70: what is listed about other keys does not depend on what is given for a field. Mending one field
neither hides nor brings up anything about the others. -/
theorem C70_independent (E : Env) (c : Cls) (hk : (classDef c).kind ≠ .patterned) (g : FieldDef Cls)
    (hg : g ∈ (classDef c).fields) (d d' : List (Str × V))
    (hd : ∀ k, k ≠ g.name → g.alias ≠ some k → lookup k d = lookup k d') (k : Str) (hn : k ≠ g.name) (ha : g.alias ≠ some k)
    (loc : List Step) (why : Why) :
    ⟨.key k :: loc, why⟩ ∈ faults E c (.dict d) ↔ ⟨.key k :: loc, why⟩ ∈ faults E c (.dict d') := by
  have hkeys : ∀ k, k ∈ keysOf g ↔ k = g.name ∨ g.alias = some k := by
    intro k; unfold keysOf; cases g.alias <;> simp [eq_comm]
  have hkg : k ∉ keysOf g := by rw [hkeys]; rintro (h | h); exacts [hn h, ha h]
  have hother : ∀ f ∈ (classDef c).fields, f.name ≠ g.name → ∀ j ∈ keysOf f, lookup j d = lookup j d' := by
    intro f hf hne j hj
    have h := keys_apart c
    rw [List.all_eq_true] at h
    have h := h f hf
    rw [List.all_eq_true] at h
    have h := h g hg
    rw [Bool.or_eq_true, beq_iff_eq] at h
    rcases h with h | h
    · exact absurd h hne
    · rw [List.all_eq_true] at h
      have h := h j hj
      rw [Bool.not_eq_true', List.contains_eq_mem, decide_eq_false_iff_not, hkeys] at h
      exact hd j (fun e => h (.inl e)) (fun e => h (.inr e))
  have hsame : ∀ f ∈ (classDef c).fields, f.name = g.name → f = g := by
    intro f hf e
    exact List.inj_on_of_nodup_map (names_nodup c) hf hg e
  obtain ⟨s1, fl1, h1⟩ := check_object (E := E) (c := c) (v := .dict d) hk rfl
  obtain ⟨s2, fl2, h2⟩ := check_object (E := E) (c := c) (v := .dict d') hk rfl
  rw [faults_eq, faults_eq, h1, h2, mem_make, mem_make]
  refine or_congr ?_ (or_congr (and_congr Iff.rfl ?_) ?_)
  · refine exists_congr fun f => and_congr_right fun hf => ?_
    by_cases e : f.name = g.name
    · obtain rfl := hsame f hf e
      exact ⟨fun h => absurd (about_key h) hkg, fun h => absurd (about_key h) hkg⟩
    · unfold About
      rw [findKey_congr (hother f hf e)]
  · refine exists_congr fun k' => exists_congr fun x => ?_
    constructor
    · rintro ⟨h3, h4, h5⟩
      cases h5
      refine ⟨by rw [← hd k hn ha]; exact h3, fun f hf y hy => ?_, rfl⟩
      by_cases e : f.name = g.name
      · obtain rfl := hsame f hf e
        exact hkg (findKey_keys (findKey_iff.2 hy))
      · exact h4 f hf y (findKey_iff.1 (by rw [findKey_congr (hother f hf e)]; exact findKey_iff.2 hy))
    · rintro ⟨h3, h4, h5⟩
      cases h5
      refine ⟨by rw [hd k hn ha]; exact h3, fun f hf y hy => ?_, rfl⟩
      by_cases e : f.name = g.name
      · obtain rfl := hsame f hf e
        exact hkg (findKey_keys (findKey_iff.2 hy))
      · exact h4 f hf y (findKey_iff.1 (by rw [← findKey_congr (hother f hf e)]; exact findKey_iff.2 hy))
  · constructor <;> rintro ⟨_, _, _, _, e⟩ <;> cases e

/-- C70: in JSON, in which no object has a key twice, each entry is listed once. -/
theorem C70_once (E : Env) (c : Cls) (v : V) (h : WellFormed v) : (faults E c v).Nodup := by
  rw [faults_eq]
  exact errs_nodup E h (.model c) rfl

/-! ### Non-vacuity -/

/-- A step to look at. -/
def Step.show : Step → Sum Str (Option Nat)
  | .key k => .inl k
  | .index n => .inr (some n)
  | .member _ => .inr none

/-- Entries to look at. -/
def shown (l : List Fault) : List (List (Sum Str (Option Nat)) × Why) := l.map fun f => (f.loc.map Step.show, f.why)

/-- A document with several things wrong at once. -/
def aMess : V := .dict [
  (p!"asyncapi", .str p!"2.6.0"),
  (p!"info", .dict [(p!"title", .int 1), (p!"license", .dict [(p!"url", .str p!"https://x")]),
    (p!"tags", .list [.dict [(p!"name", .str p!"a")], .int 2])]),
  (p!"operations", .dict [(p!"o", .dict [(p!"action", .str p!"send"), (p!"channel", .dict [(p!"$ref", .int 0), (p!"y", .none)])])])]

/-- It is JSON without repeated keys (`C70_once`). -/
example : WellFormed aMess := by
  repeat' first
    | exact .none
    | exact .int
    | exact .str
    | (refine .dict (by decide) ?_; simp only [List.forall_mem_cons, List.not_mem_nil, false_implies, implies_true, and_true])
    | (refine .list ?_; simp only [List.forall_mem_cons, List.not_mem_nil, false_implies, implies_true, and_true])
    | constructor

example : shown (faults plainEnv .AsyncAPI3 aMess) = [
    ([.inl p!"asyncapi"], .wrong (some p!"asyncapi version 2.6.0 is not supported. This application only supports AsyncAPI 3.x.x versions")),
    ([.inl p!"info", .inl p!"title"], .wrong none),
    ([.inl p!"info", .inl p!"version"], .missing),
    ([.inl p!"info", .inl p!"license", .inl p!"name"], .missing),
    ([.inl p!"info", .inl p!"tags", .inr (some 1), .inr none], .wrong none),
    ([.inl p!"info", .inl p!"tags", .inr (some 1), .inr none], .wrong none),
    ([.inl p!"operations", .inl p!"o", .inr none, .inl p!"channel", .inl p!"$ref"], .wrong none),
    ([.inl p!"operations", .inl p!"o", .inr none, .inl p!"channel", .inl p!"y"], .unexpected),
    ([.inl p!"operations", .inl p!"o", .inr none, .inl p!"$ref"], .missing),
    ([.inl p!"operations", .inl p!"o", .inr none, .inl p!"action"], .unexpected),
    ([.inl p!"operations", .inl p!"o", .inr none, .inl p!"channel"], .unexpected)] := by decide +kernel

/-- The entries about `info` are there, among others (`C70_exact`, `C70_fields`). -/
example : (⟨[.key p!"info", .key p!"title"], .wrong none⟩ : Fault) ∈ faults plainEnv .AsyncAPI3 aMess := by
  have h1 : Faulty (Accepts plainEnv) plainEnv.U plainEnv.digits (.int 1) .str [] (.wrong none) :=
    .whole (by rintro y ⟨sc, h⟩; cases h) (fun _ _ _ h => by cases h) (fun _ _ h => by cases h)
      (fun _ h => by cases h)
  have h2 : Faulty (Accepts plainEnv) plainEnv.U plainEnv.digits
      (.dict [(p!"title", .int 1), (p!"license", .dict [(p!"url", .str p!"https://x")]),
        (p!"tags", .list [.dict [(p!"name", .str p!"a")], .int 2])]) (.model .Info) [.key p!"title"] (.wrong none) :=
    (C70_exact ..).1 (C70_fields plainEnv .Info _ (by decide) ((classDef .Info).fields[0]'(by decide)) (List.getElem_mem _)
      p!"title" (.int 1) ⟨.inl ⟨_, rfl, rfl⟩, .inr ⟨by decide, fun a y e => by cases e⟩⟩ [] (.wrong none) h1)
  exact C70_fields plainEnv .AsyncAPI3 aMess (by decide) ((classDef .AsyncAPI3).fields[2]'(by decide)) (List.getElem_mem _)
    p!"info" _ ⟨.inl ⟨_, rfl, rfl⟩, .inr ⟨by decide, fun a y e => by cases e⟩⟩ _ (.wrong none) h2

/-- A rule between fields that is broken is reported alone (`C70_alone`, `C70_whole`). -/
example : shown (faults plainEnv .MessageExample (.dict [(p!"name", .str p!"n")])) =
    [([], .wrong (some p!"MessageExample MUST contain either headers and/or payload fields"))] := by decide +kernel

/-- So is a name that is not one of an extension. -/
example : shown (faults plainEnv .Tag (.dict [(p!"name", .str p!"n"), (p!"y", .int 1)])) =
    [([], .wrong (some p!"Field 'y' does not match specification extension pattern. Extensions must start with 'x-' and contain only word characters, digits, dots, hyphens, and underscores."))] := by decide +kernel

/-- With the required field missing too, only that is reported. -/
example : shown (faults plainEnv .Tag (.dict [(p!"y", .int 1)])) = [([.inl p!"name"], .missing)] := by decide +kernel

/-- A missing field goes by its alias, one that is given by the key it is given under (`C70_missing`). -/
example : shown (faults plainEnv .Reference (.dict [])) = [([.inl p!"$ref"], .missing)] ∧
    shown (faults plainEnv .Reference (.dict [(p!"ref", .int 1)])) = [([.inl p!"ref"], .wrong none)] ∧
    shown (faults plainEnv .Reference (.dict [(p!"ref", .int 1), (p!"$ref", .int 1)])) =
      [([.inl p!"$ref"], .wrong none), ([.inl p!"ref"], .unexpected)] := by
  refine ⟨?_, ?_, ?_⟩ <;> decide +kernel

/-- Mending the version leaves the rest as it was (`C70_independent`). -/
example : (shown (faults plainEnv .AsyncAPI3 (match aMess with
      | .dict d => .dict ((p!"asyncapi", .str p!"3.0.0") :: d.drop 1)
      | v => v))) = (shown (faults plainEnv .AsyncAPI3 aMess)).drop 1 := by decide +kernel

/-- Entries about an instance that is validated again go by the names of the fields. -/
example : shown (faults plainEnv .Tag (.inst .Tag [(p!"name", .int 0), (p!"description", .int 1), (p!"external_docs", .none)] [] [])) =
    [([.inl p!"name"], .wrong none), ([.inl p!"description"], .wrong none)] := by decide +kernel

end Verif.Props
