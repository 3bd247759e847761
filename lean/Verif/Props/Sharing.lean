import Verif.Lemmas.Sharing
/-!
# C72: what is put into a model is copied

Objects with an identity (`Verif/Py/Object.lean`): which of the lists, dicts and instances of what validation or an assignment leaves
are those that were given (`Verif/Spec/Sharing.lean`).
-/
namespace Verif.Props
open Verif Verif.Gen Verif.Spec Verif.Pyd

/-- **C72.** Identities make no difference to what is accepted and to the values that are returned: validation of objects
is validation of their values (`Verif/Model/Pyd.lean`). -/
theorem C72_values (E : Env) (hc : OnlyChecks E.call) (c : Cls) (x : Ob) :
    (Sharing.validate E c x).map Ob.val = Pyd.validate E c x.val := by
  unfold Sharing.validate Pyd.validate
  rw [Sharing.read_bare hc]
  cases Sharing.read E x (.model c) <;> rfl

/-- **C72.** All that a validated object has in common with the input is inside of what stands in it at places without a type. -/
theorem C72_new (E : Env) (c : Cls) (x y : Ob) (h : Sharing.validate E c x = some y) : SharesOnlyFree x (.model c) y := by
  simp only [Sharing.validate, Option.map_eq_some_iff] at h
  obtain ⟨⟨y', sc⟩, h, rfl⟩ := h
  exact Sharing.read_good x _ _ _ h

/-- Object number 7 is the dict, 8 the list under the extension, 9 an instance of `Contact`. -/
def anInfo : Ob := .dict (some 7) [(p!"title", .str p!"T"), (p!"version", .str p!"1"),
  (p!"contact", .inst (some 9) .Contact [(p!"name", .str p!"N"), (p!"url", .none), (p!"email", .none)] [] [p!"name"]),
  (p!"x-list", .list (some 8) [.int 1])]

/-- The hypotheses are satisfiable: the instance of `Contact` is another one, the list under the extension is the same. -/
example : ∃ fs ex set fs' ex' set', Sharing.validate plainEnv .Info anInfo = some (.inst none .Info fs ex set) ∧
    lookup p!"contact" fs = some (.inst none .Contact fs' ex' set') ∧ ex = [(p!"x-list", .list (some 8) [.int 1])] :=
  ⟨_, _, _, _, _, _, rfl, rfl, rfl⟩

/-- **C72.** What is changed in place afterwards is not seen in the validated object, unless it is inside of something that
stands at a place without a type. -/
theorem C72_later (E : Env) (c : Cls) (x y : Ob) (h : Sharing.validate E c x = some y) (n : Nat)
    (hn : ∀ z, Free y (.model c) z → ¬ Contains z n) (f : Ob → Ob) : changed n f y = y := by
  apply Sharing.changed_same
  intro w hw hid
  obtain ⟨z, h1, h2, -⟩ := C72_new E c x y h w n hw hid
  exact hn z h1 ⟨w, h2, hid⟩

/-- What validation makes of `anInfo`. -/
def anInfoRead : Ob := .inst none .Info [(p!"title", .str p!"T"), (p!"version", .str p!"1"), (p!"description", .none),
    (p!"terms_of_service", .none),
    (p!"contact", .inst none .Contact [(p!"name", .str p!"N"), (p!"url", .none), (p!"email", .none)] [] [p!"name"]),
    (p!"license", .none), (p!"tags", .none), (p!"external_docs", .none)]
  [(p!"x-list", .list (some 8) [.int 1])] [p!"title", p!"version", p!"contact", p!"x-list"]

/-- A later change of the dict and of the `Contact` is not seen; one of the list under the extension is. -/
example : Sharing.validate plainEnv .Info anInfo = some anInfoRead ∧
    (∀ f, changed 7 f anInfoRead = anInfoRead) ∧ (∀ f, changed 9 f anInfoRead = anInfoRead) ∧
    lookup p!"x-list" (changed 8 (fun _ => .list (some 8) [.int 1, .int 2]) anInfoRead).extras =
      some (.list (some 8) [.int 1, .int 2]) :=
  ⟨rfl, fun _ => rfl, fun _ => rfl, rfl⟩

/-- **C72.** The validated object is a new instance, and so is the object in each declared field, but for
`MultiFormatSchema.schema` and `MessageExample.payload`. -/
theorem C72_own (E : Env) (c : Cls) (x y : Ob) (h : Sharing.validate E c x = some y) : ∃ fs ex set, y = .inst none c fs ex set ∧
    ∀ name w, (name, w) ∈ fs → ¬ (c = .MultiFormatSchema ∧ name = p!"schema") → ¬ (c = .MessageExample ∧ name = p!"payload") →
      w.id = none := by
  simp only [Sharing.validate, Option.map_eq_some_iff] at h
  obtain ⟨⟨y', sc⟩, h, rfl⟩ := h
  have entries : ∀ d : List (Str × Ob × Sharing.Reader), (∀ e ∈ d, ∃ o, e.2.2 = Sharing.read E o) → ∀ set? floor y sc,
      Sharing.build E c d set? floor = some (y, sc) → ∃ fs ex set, y = .inst none c fs ex set ∧
      ∀ name w, (name, w) ∈ fs → ¬ (c = .MultiFormatSchema ∧ name = p!"schema") → ¬ (c = .MessageExample ∧ name = p!"payload") →
        w.id = none := by
    intro d hd set? floor y sc h
    obtain ⟨fs, ex, set, e, -, -, hm⟩ := Sharing.build_parts h
    refine ⟨fs, ex, set, e, fun name w hw h1 h2 => ?_⟩
    obtain ⟨f, hf, rfl, hcase⟩ := hm name w hw
    rcases hcase with ⟨e, he, s', hp⟩ | ⟨v, rfl⟩
    · obtain ⟨o, ho⟩ := hd e he
      rw [ho] at hp
      refine Sharing.read_id hp ?_
      cases ht : Sharing.topAny f.ty with
      | false => rfl
      | true => exact absurd (Sharing.topAny_fields c f hf ht) (by simp only [h1, h2, or_self, not_false_eq_true])
    · exact Sharing.new_id v
  have roots : ∀ (r : Sharing.Got) set? floor y sc, (∀ v sc, r = some (v, sc) → v.id = none) →
      Sharing.buildRoot E c r set? floor = some (y, sc) → ∃ fs ex set, y = .inst none c fs ex set ∧
      ∀ name w, (name, w) ∈ fs → ¬ (c = .MultiFormatSchema ∧ name = p!"schema") → ¬ (c = .MessageExample ∧ name = p!"payload") →
        w.id = none := by
    intro r set? floor y sc hr h
    obtain ⟨v, s', set, hv, e⟩ := Sharing.buildRoot_inst h
    refine ⟨_, _, _, e, fun name w hw _ _ => ?_⟩
    simp only [List.mem_singleton, Prod.mk.injEq] at hw
    rw [hw.2]
    exact hr v s' hv
  have readings : ∀ d : List (Str × Ob), ∀ e ∈ Sharing.readings E d, ∃ o, e.2.2 = Sharing.read E o := by
    intro d e he
    rw [Sharing.readings_eq] at he
    obtain ⟨e', -, rfl⟩ := List.mem_map.1 he
    exact ⟨e'.2, rfl⟩
  cases x with
  | dict id d =>
    simp only [Sharing.read, Sharing.readAs, Sharing.readModel] at h
    split at h
    · rename_i f hk hf
      refine roots _ _ _ _ _ (fun v s' hv => ?_) h
      cases ht : f.ty with
      | dict t => rw [ht] at hv; exact Sharing.readDict_id (s := .dict (Sharing.readings E d)) hv
      | _ => rw [ht] at hv; cases hv
    · cases h
    · exact entries _ (readings d) _ _ _ _ h
  | inst id c' fs ex set =>
    simp only [Sharing.read, Sharing.readAs, Sharing.readModel] at h
    split at h
    · split at h
      · rename_i f hk hf
        split at h
        · rename_i q p hl
          refine roots _ _ _ _ _ (fun v s' hv => ?_) h
          obtain ⟨o, ho⟩ := readings fs _ (lookup_some_mem hl)
          simp only at ho
          rw [ho] at hv
          refine Sharing.read_id hv ?_
          cases ht : Sharing.topAny f.ty with
          | false => rfl
          | true =>
            rcases Sharing.topAny_fields c f (by rw [hf]; exact List.mem_singleton.2 rfl) ht with ⟨rfl, -⟩ | ⟨rfl, -⟩ <;> cases hk
        · cases h
      · cases h
      · exact entries _ (fun e he => (update_mem he).elim (readings fs e) (readings ex e)) _ _ _ _ h
    · cases h
  | _ => cases h

/-- **C72.** A value under an extra key (an extension, or a free key of a schema or topic configuration) is kept as it is: the same
object. -/
theorem C72_extra (E : Env) (c : Cls) (hp : (classDef c).kind ≠ .patterned) (id : Option Nat) (d : List (Str × Ob)) (y : Ob)
    (h : Sharing.validate E c (.dict id d) = some y) (k : Str)
    (hk : ∀ f ∈ (classDef c).fields, k ≠ f.name ∧ f.alias ≠ some k) : lookup k y.extras = lookup k d := by
  simp only [Sharing.validate, Option.map_eq_some_iff] at h
  obtain ⟨⟨y', sc⟩, h, rfl⟩ := h
  simp only [Sharing.read, Sharing.readAs, Sharing.readModel] at h
  split at h
  · rename_i hk _; exact absurd hk hp
  · cases h
  · obtain ⟨fs, ex, set, rfl, -, hex, -⟩ := Sharing.build_parts h
    simp only [Ob.extras]
    rw [hex k hk, Sharing.find_readings]
    cases lookup k d <;> rfl

/-- **C72.** The same for an instance that is validated again. -/
theorem C72_extra_instance (E : Env) (c : Cls) (hp : (classDef c).kind ≠ .patterned) (id : Option Nat)
    (fs ex : List (Str × Ob)) (set : List Str) (hfs : ∀ e ∈ fs, ∃ f ∈ (classDef c).fields, f.name = e.1) (y : Ob)
    (h : Sharing.validate E c (.inst id c fs ex set) = some y) (k : Str)
    (hk : ∀ f ∈ (classDef c).fields, k ≠ f.name ∧ f.alias ≠ some k) : lookup k y.extras = lookup k ex := by
  simp only [Sharing.validate, Option.map_eq_some_iff] at h
  obtain ⟨⟨y', sc⟩, h, rfl⟩ := h
  simp only [Sharing.read, Sharing.readAs, Sharing.readModel, if_true] at h
  split at h
  · rename_i hk _; exact absurd hk hp
  · cases h
  · obtain ⟨fs', ex', set', rfl, -, hex, -⟩ := Sharing.build_parts h
    simp only [Ob.extras]
    rw [hex k hk, Sharing.find_update, Sharing.find_readings, Sharing.find_readings]
    cases hx : lookup k ex with
    | some w => rfl
    | none =>
      cases hf : lookup k fs with
      | none => rfl
      | some w =>
        obtain ⟨f, hm, e⟩ := hfs _ (lookup_some_mem hf)
        exact absurd e.symm (hk f hm).1

/-- A declared field of an instance made of a dict holds what validation makes of what is given under its JSON name. -/
theorem held_field (E : Env) (c : Cls) (hp : (classDef c).kind ≠ .patterned) (id : Option Nat) (d : List (Str × Ob)) (y : Ob)
    (h : Sharing.validate E c (.dict id d) = some y) (f : FieldDef Cls) (hf : f ∈ (classDef c).fields) (w : Ob)
    (hw : lookup (f.alias.getD f.name) d = some w) : ∃ v sc, Sharing.read E w f.ty = some (v, sc) ∧ y.attr f.name = some v := by
  simp only [Sharing.validate, Option.map_eq_some_iff] at h
  obtain ⟨⟨y', sc⟩, h, rfl⟩ := h
  simp only [Sharing.read, Sharing.readAs, Sharing.readModel] at h
  split at h
  · rename_i hk _; exact absurd hk hp
  · cases h
  · obtain ⟨fs, ex, set, rfl, hm, -, -⟩ := Sharing.build_parts h
    have hk : findKey f (Sharing.readings E d) = some (f.alias.getD f.name, w, Sharing.read E w) := by
      unfold findKey
      cases ha : f.alias with
      | none =>
        rw [ha] at hw
        simp only [Option.getD_none] at hw ⊢
        rw [Sharing.find_readings, hw]; rfl
      | some a =>
        rw [ha] at hw
        simp only [Option.getD_some] at hw ⊢
        rw [Sharing.find_readings, hw]; rfl
    exact hm f hf _ _ _ hk

/-- **C72.** What is given as the payload of a message example or as the schema of a MultiFormatSchema is kept as it is: the same object. -/
theorem C72_payload (E : Env) (id : Option Nat) (d : List (Str × Ob)) (y w : Ob) :
    (Sharing.validate E .MessageExample (.dict id d) = some y → lookup p!"payload" d = some w → y.attr p!"payload" = some w) ∧
    (Sharing.validate E .MultiFormatSchema (.dict id d) = some y → lookup p!"schema" d = some w → y.attr p!"schema" = some w) := by
  constructor
  · intro h hw
    obtain ⟨v, sc, hr, hy⟩ := held_field E .MessageExample (by decide) id d y h
      ⟨p!"payload", none, .union [.any, .none], .null, false, true, none⟩ (by simp [classDef, defMessageExample]) w hw
    rw [hy]
    obtain ⟨s, e⟩ := Sharing.read_as E w
    rw [e] at hr
    cases w <;> simp_all [Sharing.readAs, Sharing.readEach, Sharing.choose, hasNone, Ob.isNone]
  · intro h hw
    obtain ⟨v, sc, hr, hy⟩ := held_field E .MultiFormatSchema (by decide) id d y h
      ⟨p!"schema", none, .any, .required, false, false, none⟩ (by simp [classDef, defMultiFormatSchema]) w hw
    rw [hy]
    obtain ⟨s, e⟩ := Sharing.read_as E w
    rw [e] at hr
    simp only [Sharing.readAs, Option.some.injEq, Prod.mk.injEq] at hr
    rw [hr.1]

/-- **C72.** A field of type `dict[str, Any]` holds a new dict, with the very objects that were given as values. -/
theorem C72_entries (E : Env) (c : Cls) (hp : (classDef c).kind ≠ .patterned) (id id' : Option Nat) (d e : List (Str × Ob)) (y : Ob)
    (h : Sharing.validate E c (.dict id d) = some y) (f : FieldDef Cls) (hf : f ∈ (classDef c).fields)
    (ht : f.ty = .union [.dict .any, .none]) (hw : lookup (f.alias.getD f.name) d = some (.dict id' e)) :
    y.attr f.name = some (.dict none e) := by
  obtain ⟨v, sc, hr, hy⟩ := held_field E c hp id d y h f hf _ hw
  rw [hy]
  rw [ht] at hr
  have any : ∀ e, ∃ s, Sharing.readEntries .any (Sharing.readings E e) = some (e, s) := by
    intro e
    induction e with
    | nil => exact ⟨_, rfl⟩
    | cons q e ih =>
      obtain ⟨k, x⟩ := q
      obtain ⟨s, hs⟩ := ih
      obtain ⟨s', e'⟩ := Sharing.read_as E x
      refine ⟨Score.and ⟨1, none⟩ s, ?_⟩
      simp only [Sharing.readings, Sharing.readEntries, hs, e', Sharing.readAs]
  obtain ⟨s, hs⟩ := any e
  simp [Sharing.read, Sharing.readAs, Sharing.readEach, Sharing.readDict, hs, Sharing.choose, hasNone, Ob.isNone] at hr
  rw [← hr.1]

/-- **C72.** The declared fields with places of type `Any` are eleven. -/
theorem C72_places (c : Cls) : ∀ f ∈ (classDef c).fields, mentionsAny f.ty = true ↔ (c, f.name) ∈ untypedFields := by
  cases c <;> decide

/-- **C72.** A later change of a value under an extra key is seen in the validated object. -/
theorem C72_seen (E : Env) (c : Cls) (hp : (classDef c).kind ≠ .patterned) (id : Option Nat) (d : List (Str × Ob)) (y : Ob)
    (h : Sharing.validate E c (.dict id d) = some y) (k : Str)
    (hk : ∀ f ∈ (classDef c).fields, k ≠ f.name ∧ f.alias ≠ some k) (n : Nat) (f : Ob → Ob) :
    lookup k (changed n f y).extras = (lookup k d).map (changed n f) := by
  rw [← C72_extra E c hp id d y h k hk]
  obtain ⟨fs, ex, set, rfl, -⟩ := C72_own E c _ y h
  simp only [changed, reduceCtorEq, if_false, Ob.extras]
  clear h
  induction ex with
  | nil => rfl
  | cons e ex ih =>
    obtain ⟨k', w⟩ := e
    simp only [changedEntries, lookup, ih]
    split <;> rfl

/-! ### Assignment -/

/-- **C72.** Assignment to objects with an identity is assignment to their values (`Verif/Model/Mutate.lean`). -/
theorem C72_assign_values (E : Env) (hc : OnlyChecks E.call) (rollback : Bool) (i : Ob) (name : Str) (x : Ob) :
    (∀ j, Sharing.assign E i name x = some j → Mutate.assign E rollback i.val name x.val = .done j.val) ∧
    (Sharing.assign E i name x = none → ∃ v, Mutate.assign E rollback i.val name x.val = .raised v) :=
  Sharing.assign_val hc rollback

theorem attr_refill {id : Option Nat} {c : Cls} {d : List (Str × Ob)} {set : List Str} {f : FieldDef Cls}
    (hf : f ∈ (classDef c).fields) : (Sharing.refill id c d set).attr f.name = some ((lookup f.name d).getD .none) := by
  simp only [Sharing.refill, Ob.attr]
  generalize (classDef c).fields = L at hf
  induction L with
  | nil => cases hf
  | cons g L ih =>
    simp only [List.map_cons, lookup]
    by_cases hn : g.name = f.name
    · rw [if_pos hn, hn]
    · rw [if_neg hn]
      rcases List.mem_cons.1 hf with e | hf
      · exact absurd (by rw [e]) hn
      · exact ih hf

theorem undeclared_iff {c : Cls} {name : Str} : fieldOf c name = none ↔ ∀ f ∈ (classDef c).fields, f.name ≠ name := by
  unfold fieldOf
  simp [List.find?_eq_none]

/-- **C72.** An assignment to an attribute of an instance: the instance stays the same object, all its other fields hold the
objects they held before, and the assigned field holds a copy of what was assigned, new but for what stands at places
without a type. What is assigned to an attribute that is not declared (an extension) is not copied. -/
theorem C72_assign (E : Env) (id : Option Nat) (c : Cls) (fs ex : List (Str × Ob)) (set : List Str)
    (hfs : fs.map (·.1) = (classDef c).fields.map (·.name)) (hex : ∀ f ∈ (classDef c).fields, lookup f.name ex = none)
    (name : Str) (x j : Ob) (h : Sharing.assign E (.inst id c fs ex set) name x = some j) :
    j.id = id ∧
    (∀ f ∈ (classDef c).fields, f.name ≠ name → j.attr f.name = lookup f.name fs) ∧
    (∀ f ∈ (classDef c).fields, f.name = name → ∃ v, j.attr name = some v ∧ SharesOnlyFree x f.ty v ∧
      (¬ (c = .MultiFormatSchema ∧ name = p!"schema") → ¬ (c = .MessageExample ∧ name = p!"payload") → v.id = none)) ∧
    ((∀ f ∈ (classDef c).fields, f.name ≠ name) → lookup name j.extras = some x) ∧
    (∀ k, k ≠ name → (∀ f ∈ (classDef c).fields, f.name ≠ k) → lookup k j.extras = lookup k ex) := by
  have hdecl : ∀ f ∈ (classDef c).fields, ∃ w, lookup f.name fs = some w := by
    intro f hf
    cases hl : lookup f.name fs with
    | some w => exact ⟨w, rfl⟩
    | none =>
      have hm : f.name ∈ fs.map (·.1) := by rw [hfs]; exact List.mem_map_of_mem hf
      obtain ⟨e, he, hn⟩ := List.mem_map.1 hm
      exact absurd (show (f.name, e.2) ∈ fs from hn ▸ he) (Verif.lookup_none.1 hl e.2)
  have hund : ∀ k, (∀ f ∈ (classDef c).fields, f.name ≠ k) → lookup k fs = none := by
    intro k hk
    refine Verif.lookup_none.2 fun v hv => ?_
    have hm : k ∈ fs.map (·.1) := List.mem_map_of_mem (f := (·.1)) hv
    rw [hfs] at hm
    obtain ⟨f, hf, e'⟩ := List.mem_map.1 hm
    exact hk f hf e'
  have key : ∀ v : Ob, Sharing.refill id c (Sharing.put (update fs ex) name v) (Mutate.addSet set name) = j →
      j.id = id ∧ (∀ f ∈ (classDef c).fields, f.name ≠ name → j.attr f.name = lookup f.name fs) ∧
      (∀ f ∈ (classDef c).fields, f.name = name → j.attr name = some v) ∧
      ((∀ f ∈ (classDef c).fields, f.name ≠ name) → lookup name j.extras = some v) ∧
      (∀ k, k ≠ name → (∀ f ∈ (classDef c).fields, f.name ≠ k) → lookup k j.extras = lookup k ex) := by
    rintro v rfl
    have hext : ∀ k, (∀ f ∈ (classDef c).fields, f.name ≠ k) →
        lookup k (Sharing.refill id c (Sharing.put (update fs ex) name v) (Mutate.addSet set name)).extras =
          lookup k (Sharing.put (update fs ex) name v) := by
      intro k hk
      simp only [Sharing.refill, Ob.extras]
      rw [Sharing.find_filter fun j => (fieldOf c j).isNone, undeclared_iff.2 hk]
      rfl
    refine ⟨rfl, fun f hf hn => ?_, fun f hf hn => ?_, fun hk => ?_, fun k hn hk => ?_⟩
    · rw [attr_refill hf, Sharing.find_put, if_neg hn, Sharing.find_update, hex f hf]
      obtain ⟨w, hw⟩ := hdecl f hf
      rw [hw]; rfl
    · subst hn; rw [attr_refill hf, Sharing.find_put, if_pos rfl]; rfl
    · rw [hext name hk, Sharing.find_put, if_pos rfl]
    · rw [hext k hk, Sharing.find_put, if_neg hn, Sharing.find_update, hund k hk]
      cases lookup k ex <;> rfl
  simp only [Sharing.assign] at h
  cases hf : fieldOf c name with
  | none =>
    have hno := undeclared_iff.1 hf
    simp only [hf] at h
    have : Sharing.refill id c (Sharing.put (update fs ex) name x) (Mutate.addSet set name) = j := by
      split at h
      · simp only [Option.map_eq_some_iff] at h; obtain ⟨_, -, h⟩ := h; exact h
      · simp only [Option.map_eq_some_iff] at h; obtain ⟨_, -, h⟩ := h; exact h
      · cases h
    obtain ⟨h1, h2, -, h4, h5⟩ := key x this
    exact ⟨h1, h2, fun f hm e => absurd e (hno f hm), h4, h5⟩
  | some g =>
    have hg : g ∈ (classDef c).fields ∧ g.name = name := by
      unfold fieldOf at hf
      exact ⟨List.mem_of_find?_eq_some hf, by simpa using List.find?_some hf⟩
    simp only [hf] at h
    cases hr : Sharing.read E x g.ty with
    | none => simp only [hr] at h; cases h
    | some q =>
      obtain ⟨v, sc⟩ := q
      simp only [hr] at h
      split at h
      · simp only [Option.map_eq_some_iff] at h
        obtain ⟨_, -, h⟩ := h
        obtain ⟨h1, h2, h3, h4, h5⟩ := key v h
        refine ⟨h1, h2, fun f hm e => ?_, fun hno => absurd hg.2 (hno g hg.1), h5⟩
        have hfg : f = g := by
          have hn := Pyd.names_nodup c
          exact (List.inj_on_of_nodup_map hn hm hg.1 (e.trans hg.2.symm))
        subst hfg
        refine ⟨v, h3 f hm e, Sharing.read_good x _ _ _ hr, fun n1 n2 => Sharing.read_id hr ?_⟩
        cases ht : Sharing.topAny f.ty with
        | false => rfl
        | true =>
          rcases Sharing.topAny_fields c f hm ht with ⟨a, b⟩ | ⟨a, b⟩
          · exact absurd ⟨a, e ▸ b⟩ n1
          · exact absurd ⟨a, e ▸ b⟩ n2
      · cases h

/-- `doc.info.contact = c` copies `c` (object 9): a later `c.name = …` is not seen. The list under the extension of object 1 stays. -/
example : ∃ j, Sharing.assign plainEnv (.inst (some 1) .Info [(p!"title", .str p!"T"), (p!"version", .str p!"1"),
      (p!"description", .none), (p!"terms_of_service", .none), (p!"contact", .none), (p!"license", .none), (p!"tags", .none),
      (p!"external_docs", .none)] [(p!"x-list", .list (some 8) [.int 1])] [p!"title", p!"version", p!"x-list"]) p!"contact"
      (.inst (some 9) .Contact [(p!"name", .str p!"N"), (p!"url", .none), (p!"email", .none)] [] [p!"name"]) = some j ∧
    j.id = some 1 ∧ (∃ v, j.attr p!"contact" = some v ∧ v.id = none) ∧
    lookup p!"x-list" j.extras = some (.list (some 8) [.int 1]) :=
  ⟨_, rfl, rfl, ⟨_, rfl, rfl⟩, rfl⟩

/-- **C72.** `i[k] = x` of a patterned object (`channels["c"] = channel`) does not copy: the object itself is put into the dict, which
stays the same dict, of the same instance, and the values of other keys stay the same objects. -/
theorem C72_setItem (id id' : Option Nat) (c : Cls) (r : Str) (d : List (Str × Ob)) (ex : List (Str × Ob)) (set : List Str)
    (k : Str) (x : Ob) : ∃ d', Sharing.setItem (.inst id c [(r, .dict id' d)] ex set) k x = .inst id c [(r, .dict id' d')] ex set ∧
      lookup k d' = some x ∧ (∀ k', k' ≠ k → lookup k' d' = lookup k' d) ∧
      (Sharing.setItem (.inst id c [(r, .dict id' d)] ex set) k x).val =
        (Mutate.stepInst (Ob.val (.inst id c [(r, .dict id' d)] ex set)) (.set k x.val)).1 := by
  refine ⟨_, rfl, by rw [Sharing.find_put, if_pos rfl], fun k' hk => by rw [Sharing.find_put, if_neg hk], ?_⟩
  simp only [Sharing.setItem, Ob.val, obEntries, Mutate.stepInst, Mutate.step, Sharing.entries_put]

end Verif.Props
