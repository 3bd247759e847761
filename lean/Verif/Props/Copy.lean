import Verif.Lemmas.Copy
import Verif.Props.Stable
import Verif.Props.Sharing
import Verif.Props.Equal
/-!
# C74: copies of instances, and instances made without validation

`model_copy`, `copy.copy`, `copy.deepcopy` and `model_construct` (`Verif/Model/Copy.lean`); the specification is
`Verif/Spec/Copy.lean`, with `changed`, `PartOf`, `Contains` of `Verif/Spec/Sharing.lean`.
-/
namespace Verif.Props
open Verif Verif.Gen Verif.Spec Verif.Pyd

/-! ### Without `update` -/

/-- **C74.** A copy, shallow or deep, has the same content: class, fields, extra fields and record of what was given.
So it is equal, valid if the original is, and written as the same JSON. -/
theorem C74_same (n : Nat) (m m' : Nat → Nat) (x : Ob) :
    (Copy.shallow n x).val = x.val ∧ (Copy.deep m x).val = x.val ∧ (Copy.deepModel n m m' x).val = x.val := by
  refine ⟨by cases x <;> rfl, Copy.deep_val m x, ?_⟩
  cases x with
  | inst id c fs ex set =>
    simp only [Copy.deepModel, Ob.val]
    rw [Copy.deepEntries_val m fs fun e _ => Copy.deep_val m e.2, Copy.deepEntries_val m' ex fun e _ => Copy.deep_val m' e.2]
  | _ => rfl

/-- **C74.** In terms of `==`, of what is written, and of validity. -/
theorem C74_equal (n : Nat) (m m' : Nat → Nat) (x y : Ob)
    (hy : y = Copy.shallow n x ∨ y = Copy.deep m x ∨ y = Copy.deepModel n m m' x) :
    (Keyed x.val → pyEq x.val y.val = true) ∧ dump y.val = dump x.val ∧
    ∀ U limit t, Valid U limit y.val t ↔ Valid U limit x.val t := by
  have e : y.val = x.val := by
    obtain ⟨h1, h2, h3⟩ := C74_same n m m' x
    rcases hy with rfl | rfl | rfl
    · exact h1
    · exact h2
    · exact h3
  rw [e]
  exact ⟨fun hk => (C59_equivalence _ _ _ hk hk hk).1, rfl, fun _ _ _ => Iff.rfl⟩

/-- **C74.** A shallow copy is a new instance with the very objects of the original. -/
theorem C74_shallow (n : Nat) (id : Option Nat) (c : Cls) (fs ex : List (Str × Ob)) (set : List Str) (name : Str) :
    (Copy.shallow n (.inst id c fs ex set)).id = some n ∧
    (Copy.shallow n (.inst id c fs ex set)).attr name = lookup name fs ∧
    (Copy.shallow n (.inst id c fs ex set)).extras = ex := ⟨rfl, rfl, rfl⟩

/-- **C74.** Assigning to attributes of a shallow copy does not change the original, and the other way round. -/
theorem C74_shallow_own (n : Nat) (j : Nat) (c : Cls) (fs ex : List (Str × Ob)) (set : List Str)
    (hn : ¬ Contains (.inst (some j) c fs ex set) n) (hj : ∀ e ∈ fs ++ ex, ¬ Contains e.2 j) (f : Ob → Ob) :
    changed n f (.inst (some j) c fs ex set) = .inst (some j) c fs ex set ∧
    changed j f (Copy.shallow n (.inst (some j) c fs ex set)) = Copy.shallow n (.inst (some j) c fs ex set) := by
  refine ⟨Sharing.changed_same _ _ _ fun w hw hid => hn ⟨w, hw, hid⟩, Sharing.changed_same _ _ _ fun w hw hid => ?_⟩
  simp only [Copy.shallow] at hw
  cases hw with
  | self =>
    simp only [Ob.id, Option.some.injEq] at hid
    subst hid
    exact hn ⟨_, .self _, rfl⟩
  | field h hp => exact hj _ (List.mem_append_left _ h) ⟨w, hp, hid⟩
  | extra h hp => exact hj _ (List.mem_append_right _ h) ⟨w, hp, hid⟩

/-- **C74.** Every other change of the original is seen in a shallow copy, and the other way round: after the change the copy is
still a shallow copy. -/
theorem C74_shallow_seen (n j : Nat) (hn : n ≠ j) (id : Option Nat) (hid : id ≠ some j) (c : Cls) (fs ex : List (Str × Ob))
    (set : List Str) (f : Ob → Ob) :
    changed j f (Copy.shallow n (.inst id c fs ex set)) = Copy.shallow n (changed j f (.inst id c fs ex set)) := by
  simp only [Copy.shallow, changed]
  rw [if_neg (fun h => hn (Option.some.inj h)), if_neg hid]

/-- **C74.** In particular `copy[k] = v` for the shallow copy of a map object (channels, messages, …) is an assignment to the
original as well: they have one dict. -/
theorem C74_shallow_map (n j : Nat) (hn : n ≠ j) (id : Option Nat) (hid : id ≠ some j) (c : Cls) (d : List (Str × Ob)) (set : List Str)
    (k : Str) (v : Ob) : let x := Ob.inst id c [(p!"root", .dict (some j) d)] [] set
    let store := fun _ : Ob => Ob.dict (some j) (Sharing.put d k v)
    changed j store (Copy.shallow n x) = Sharing.setItem (Copy.shallow n x) k v ∧
    changed j store x = Sharing.setItem x k v ∧
    ∃ d', (Sharing.setItem x k v).attr p!"root" = some (.dict (some j) d') ∧ lookup k d' = some v := by
  refine ⟨?_, ?_, Sharing.put d k v, rfl, by rw [Sharing.find_put, if_pos rfl]⟩
  · simp only [Copy.shallow, changed, changedEntries, Sharing.setItem]
    rw [if_neg (fun h => hn (Option.some.inj h)), if_pos trivial]
  · simp only [changed, changedEntries, Sharing.setItem]
    rw [if_neg hid, if_pos trivial]

/-- **C74.** A deep copy is built like the original, of other objects: the same object stands at two places of the copy if, and
only if, the same object stands there in the original. -/
theorem C74_deep_mirror (m : Nat → Nat) (x : Ob) : Mirror m x (Copy.deep m x) := Copy.mirror_deep m x

/-- **C74.** A deep copy has nothing in common with the original, if the objects it is made of are new. -/
theorem C74_deep_new (n : Nat) (m m' : Nat → Nat) (x : Ob) (hn : ¬ Contains x n) (hm : ∀ j, Contains x j → ¬ Contains x (m j))
    (hm' : ∀ j, Contains x j → ¬ Contains x (m' j)) :
    NothingShared x (Copy.deep m x) ∧ (∀ id c fs ex set, x = .inst id c fs ex set → NothingShared x (Copy.deepModel n m m' x)) := by
  constructor
  · intro k hk hk'
    obtain ⟨j, hj, rfl⟩ := Copy.contains_deep.1 hk'
    exact hm j hj hk
  · rintro id c fs ex set rfl k hk ⟨w, hw, hid⟩
    simp only [Copy.deepModel] at hw
    cases hw with
    | self => cases hid; exact hn hk
    | field h hp =>
      obtain ⟨w', h', rfl⟩ := Copy.entry_deep.1 h
      obtain ⟨j, ⟨u, hu, hj⟩, rfl⟩ := Copy.contains_deep.1 ⟨w, hp, hid⟩
      exact hm j ⟨u, .field h' hu, hj⟩ hk
    | extra h hp =>
      obtain ⟨w', h', rfl⟩ := Copy.entry_deep.1 h
      obtain ⟨j, ⟨u, hu, hj⟩, rfl⟩ := Copy.contains_deep.1 ⟨w, hp, hid⟩
      exact hm' j ⟨u, .extra h' hu, hj⟩ hk

/-- **C74.** So whatever is done to objects of one of them, in any number of steps, does not change the other. -/
theorem C74_deep_apart (x y : Ob) (h : NothingShared x y) (l : List (Nat × (Ob → Ob))) :
    ((∀ e ∈ l, Contains x e.1) → history l y = y) ∧ ((∀ e ∈ l, Contains y e.1) → history l x = x) :=
  ⟨fun hl => Copy.history_same l y fun e he hy => h _ (hl e he) hy,
    fun hl => Copy.history_same l x fun e he hx => h _ hx (hl e he)⟩

/-- **C74.** And what is done to the deep copy has the effect it would have had on the original. -/
theorem C74_deep_alike (m : Nat → Nat) (hm : Function.Injective m) (n : Nat) (f g : Ob → Ob)
    (hfg : ∀ o, g (Copy.deep m o) = Copy.deep m (f o)) (x : Ob) :
    changed (m n) g (Copy.deep m x) = Copy.deep m (changed n f x) ∧
    (changed (m n) g (Copy.deep m x)).val = (changed n f x).val := by
  have h := Copy.deep_changed hm n f g hfg x
  exact ⟨h, by rw [h, Copy.deep_val]⟩

/-- Object 1 is a channels object, 2 its dict, 3 a list that stands twice in it (which no valid channels object has). -/
def someChannels : Ob := .inst (some 1) .Channels [(p!"root", .dict (some 2) [(p!"a", .list (some 3) []), (p!"b", .list (some 3) [])])] []
  [p!"root"]

/-- A shallow copy: storing in it changes the original. A deep copy, made of the objects 11, 12, 13: it does not. -/
example : changed 2 (fun _ => .dict (some 2) []) someChannels = .inst (some 1) .Channels [(p!"root", .dict (some 2) [])] [] [p!"root"] ∧
    changed 2 (fun _ => .dict (some 2) []) (Copy.shallow 11 someChannels) =
      .inst (some 11) .Channels [(p!"root", .dict (some 2) [])] [] [p!"root"] ∧
    Copy.deep (· + 10) someChannels = .inst (some 11) .Channels
      [(p!"root", .dict (some 12) [(p!"a", .list (some 13) []), (p!"b", .list (some 13) [])])] [] [p!"root"] ∧
    changed 2 (fun _ => .dict (some 2) []) (Copy.deep (· + 10) someChannels) = Copy.deep (· + 10) someChannels :=
  ⟨rfl, rfl, rfl, rfl⟩

theorem someChannels_ids : ∀ j, Contains someChannels j → j ≤ 3 := by
  rintro j ⟨w, hw, hid⟩
  cases hw with
  | self => cases hid; decide
  | field h hp =>
    simp only [List.mem_singleton, Prod.mk.injEq] at h
    obtain ⟨-, rfl⟩ := h
    cases hp with
    | self => cases hid; decide
    | entry h hp =>
      simp only [List.mem_cons, Prod.mk.injEq, List.not_mem_nil, or_false] at h
      rcases h with ⟨-, rfl⟩ | ⟨-, rfl⟩ <;> cases hp with
        | self => cases hid; decide
        | item h => cases h
  | extra h => cases h

/-- The hypotheses of `C74_deep_new` can be met. -/
example : NothingShared someChannels (Copy.deep (· + 10) someChannels) :=
  (C74_deep_new 11 (· + 10) (· + 10) someChannels (fun h => absurd (someChannels_ids _ h) (by decide))
    (fun j _ h => absurd (someChannels_ids _ h) (by omega)) (fun j _ h => absurd (someChannels_ids _ h) (by omega))).1

/-! ### With `update` -/

theorem isSome_fieldOf {c : Cls} {k : Str} : (fieldOf c k).isSome = true ↔ ∃ f ∈ (classDef c).fields, f.name = k := by
  constructor
  · intro h
    cases hf : fieldOf c k with
    | none => rw [hf] at h; cases h
    | some f => exact ⟨f, fieldOf_some hf⟩
  · rintro ⟨f, hf, hn⟩
    cases h : fieldOf c k with
    | some f => rfl
    | none => exact absurd hn.symm (fieldOf_none h f hf)

/-- **C74.** `model_copy(update=u)`: a declared field has, without any check, the very object of `u` if it has its Python name
there, and otherwise the object of the original. Other keys (also JSON names that are not Python names) become extra
fields if the class keeps such, and otherwise are no extra fields. -/
theorem C74_update (n : Nat) (id : Option Nat) (c : Cls) (fs ex : List (Str × Ob)) (set : List Str) (u : List (Str × Ob))
    (hu : (u.map (·.1)).Nodup) : ∃ fs' ex' set', Copy.modelCopy n (.inst id c fs ex set) u = .inst (some n) c fs' ex' set' ∧
      (∀ f ∈ (classDef c).fields, lookup f.name fs' = (lookup f.name u).or (lookup f.name fs)) ∧
      ((classDef c).kind = .extendable ∨ (classDef c).kind = .openExtra →
        ∀ k, (∀ f ∈ (classDef c).fields, f.name ≠ k) → lookup k ex' = (lookup k u).or (lookup k ex)) ∧
      ((classDef c).kind = .nonExtendable ∨ (classDef c).kind = .patterned → ex' = ex) ∧
      (∀ k, k ∈ set' ↔ k ∈ set ∨ k ∈ u.map (·.1)) := by
  obtain ⟨fs', ex', set', h1, h2, h3, h4, h5, h6⟩ := Copy.updateAll_parts c u (some n) fs ex set hu
  refine ⟨fs', ex', set', h1, fun f hf => h2 f.name (.inl (isSome_fieldOf.2 ⟨f, hf, rfl⟩)), fun ho k hk => (h3 k ?_ ho).1, h5, h6⟩
  cases hf : fieldOf c k with
  | none => rfl
  | some f => exact absurd (fieldOf_some hf).2 (hk f (fieldOf_some hf).1)

/-- **C74.** The copy of a valid instance is valid if, and only if, the new values have the types of their fields, no key is
given that the class does not know, and the copy as a whole satisfies the constraints of the class. Nothing of this is checked. -/
theorem C74_update_valid (U : Uni) (limit : Option Nat) (n : Nat) (id : Option Nat) (c : Cls) (fs ex : List (Str × Ob)) (set : List Str)
    (hx : Valid U limit (Ob.inst id c fs ex set).val (.model c)) (u : List (Str × Ob)) (hu : (u.map (·.1)).Nodup) :
    Valid U limit (Copy.modelCopy n (.inst id c fs ex set) u).val (.model c) ↔
      (∀ f ∈ (classDef c).fields, ∀ w, (f.name, w) ∈ u → Valid U limit w.val f.ty) ∧
      ((classDef c).kind = .nonExtendable ∨ (classDef c).kind = .patterned → ∀ e ∈ u, ∃ f ∈ (classDef c).fields, f.name = e.1) ∧
      Consistent U limit c (Copy.modelCopy n (.inst id c fs ex set) u).val := by
  obtain ⟨fs', ex', set', h1, h2, -, -, -, -⟩ := Copy.updateAll_parts c u (some n) fs ex set hu
  have h1' : Copy.modelCopy n (.inst id c fs ex set) u = .inst (some n) c fs' ex' set' := h1
  rw [h1']
  simp only [Ob.val] at hx ⊢
  have attr : ∀ f ∈ (classDef c).fields, (V.inst c (obEntries fs') (obEntries ex') set').attr f.name =
      match lookup f.name u with
      | some w => w.val
      | none => (V.inst c (obEntries fs) (obEntries ex) set).attr f.name := by
    intro f hf
    simp only [V.attr, Copy.lookup_obEntries]
    rw [h2 f.name (.inl (isSome_fieldOf.2 ⟨f, hf, rfl⟩))]
    cases lookup f.name u <;> rfl
  cases hx with
  | model hfs hty hcon =>
    constructor
    · intro hv
      cases hv with
      | model hfs' hty' hcon' =>
        refine ⟨fun f hf w hw => ?_, fun hk e he => ?_, hcon'⟩
        · have := hty' f hf
          rw [attr f hf, (Copy.lookup_mem_iff hu).2 hw] at this
          exact this
        · have : lookup e.1 fs' = some e.2 := by
            rw [h2 e.1 (.inr hk), (Copy.lookup_mem_iff hu).2 he]; rfl
          have hm := List.mem_map_of_mem (f := (·.1)) (lookup_some_mem this)
          rw [← Copy.keys_obEntries, hfs', List.mem_map] at hm
          exact hm
    · rintro ⟨hnew, hcl, hcon'⟩
      refine .model ?_ (fun f hf => ?_) hcon'
      · obtain ⟨fs'', ex'', set'', h3, h4⟩ := Copy.updateAll_keys c u (some n) fs ex set (by
          intro e he hcase
          rw [← Copy.keys_obEntries, hfs, List.mem_map]
          rcases hcase with h | h
          · exact isSome_fieldOf.1 h
          · exact hcl h e he)
        rw [h3] at h1
        cases h1
        rw [Copy.keys_obEntries, h4, ← Copy.keys_obEntries, hfs]
      · rw [attr f hf]
        cases hl : lookup f.name u with
        | none => exact hty f hf
        | some w => exact hnew f hf w (lookup_some_mem hl)

/-- A license whose fields are replaced: the name by a number, which no valid license has. Object 5 is the license. -/
def aLicense : Ob := .inst (some 5) .License [(p!"name", .str p!"MIT"), (p!"url", .none)] [] [p!"name"]

/-- **C74.** Nothing is checked: a valid instance has an invalid copy, which is refused where it is validated. -/
theorem C74_update_unchecked : Valid plainEnv.U plainEnv.digits aLicense.val (.model .License) ∧
    (Copy.modelCopy 6 aLicense [(p!"name", .int 1)]).attr p!"name" = some (.int 1) ∧
    ¬ Valid plainEnv.U plainEnv.digits (Copy.modelCopy 6 aLicense [(p!"name", .int 1)]).val (.model .License) ∧
    Sharing.validate plainEnv .License (Copy.modelCopy 6 aLicense [(p!"name", .int 1)]) = none := by
  refine ⟨C42_valid plainEnv .License (by decide) (.dict [(p!"name", .str p!"MIT")]) _ rfl, rfl, fun h => ?_, rfl⟩
  cases h with
  | model _ hty _ => cases hty _ (List.mem_cons_self ..)

/-- The hypotheses of `C74_update_valid` are satisfiable, with a valid copy. -/
example : Valid plainEnv.U plainEnv.digits (Copy.modelCopy 6 aLicense [(p!"name", .str p!"BSD")]).val (.model .License) :=
  (C74_update_valid plainEnv.U plainEnv.digits 6 _ _ _ _ _ C74_update_unchecked.1 [(p!"name", .str p!"BSD")] (by decide)).2
    ⟨by
      intro f hf w hw
      simp only [List.mem_singleton, Prod.mk.injEq] at hw
      obtain ⟨hn, rfl⟩ := hw
      rcases List.mem_cons.1 hf with rfl | hf
      · exact .str
      · rcases List.mem_cons.1 hf with rfl | hf
        · exact absurd hn (by decide)
        · exact absurd hf List.not_mem_nil, by intro h; exact absurd h (by decide), by
      have := C42_valid plainEnv .License (by decide) (.dict [(p!"name", .str p!"BSD")]) _ rfl
      cases this with
      | model _ _ h => exact h⟩

/-- **C74.** A key that is the JSON name of a field, but not its Python name, does not set the field. -/
theorem C74_update_alias : ∃ fs ex set u fs' set', u = [(p!"externalDocs", Ob.none)] ∧
    Copy.modelCopy 6 (.inst (some 5) .Tag fs ex set) u = .inst (some 6) .Tag fs' [(p!"externalDocs", .none)] set' ∧ fs' = fs :=
  ⟨[(p!"name", .str p!"t"), (p!"description", .none), (p!"external_docs", .none)], [], [p!"name"], _, _, _, rfl, rfl, rfl⟩

/-! ### `model_construct` -/

/-- **C74.** `model_construct(**d)` of a class that is no map: each field has the very value that is given for it (under the JSON
name, or else the Python name), the default if none is given, and is missing if there is none; other keys become extra
fields if the class keeps such, and are dropped otherwise. Nothing is checked. -/
theorem C74_construct (c : Cls) (d : List (Str × V)) : ∃ fs ex set, Copy.constructUnchecked c d = .inst c fs ex set ∧
    (∀ f ∈ (classDef c).fields, ∀ v, lookup f.name fs = some v ↔
      (∃ k, GivenAs f d k v) ∨ (∀ k x, ¬ GivenAs f d k x) ∧ HasDefault f.dflt v) ∧
    (∀ k, (∀ f ∈ (classDef c).fields, f.name ≠ k) → lookup k fs = none) ∧
    ((classDef c).kind = .extendable ∨ (classDef c).kind = .openExtra →
      ∀ e, e ∈ ex ↔ e ∈ d ∧ ∀ f ∈ (classDef c).fields, ∀ x, ¬ GivenAs f d e.1 x) ∧
    ((classDef c).kind = .nonExtendable ∨ (classDef c).kind = .patterned → ex = []) := by
  refine ⟨_, _, _, rfl, fun f hf v => ?_, fun k hk => Copy.constructFields_names d _ k hk, fun hk e => ?_, fun hk => ?_⟩
  · rw [Copy.constructFields_find d _ (names_nodup c) f hf]
    cases h : findKey f d with
    | some kv =>
      obtain ⟨k, x⟩ := kv
      have hg := findKey_iff.1 h
      simp only [Option.some.injEq]
      constructor
      · rintro rfl; exact .inl ⟨k, hg⟩
      · rintro (⟨k', hg'⟩ | ⟨hno, _⟩)
        · exact (given_unique hg hg').2
        · exact absurd hg (hno k x)
    | none =>
      have hno : ∀ k x, ¬ GivenAs f d k x := fun k x hg => by rw [findKey_iff.2 hg] at h; cases h
      simp only
      rw [← hasDefault_iff]
      constructor
      · intro hd; exact .inr ⟨hno, hd⟩
      · rintro (⟨k', hg'⟩ | ⟨_, hd⟩)
        · exact absurd hg' (hno _ _)
        · exact hd
  · have : ∀ k, k ∈ (Copy.constructFields d (classDef c).fields).2.2 ↔ ∃ f ∈ (classDef c).fields, ∃ x, GivenAs f d k x := by
      intro k
      rw [Copy.constructFields_used, List.mem_filterMap]
      constructor
      · rintro ⟨f, hf, h⟩
        rw [Option.map_eq_some_iff] at h
        obtain ⟨⟨k', x⟩, h, rfl⟩ := h
        exact ⟨f, hf, x, findKey_iff.1 h⟩
      · rintro ⟨f, hf, x, h⟩
        exact ⟨f, hf, by rw [findKey_iff.2 h]; rfl⟩
    have hfil : e ∈ d.filter (fun e => !((Copy.constructFields d (classDef c).fields).2.2.contains e.1)) ↔
        e ∈ d ∧ ∀ f ∈ (classDef c).fields, ∀ x, ¬ GivenAs f d e.1 x := by
      rw [List.mem_filter]
      refine and_congr Iff.rfl ?_
      rw [Bool.not_eq_true', ← Bool.not_eq_true, List.contains_iff_mem, this]
      constructor
      · intro h f hf x hg; exact h ⟨f, hf, x, hg⟩
      · rintro h ⟨f, hf, x, hg⟩; exact h f hf x hg
    rcases hk with hk | hk <;> simp only [hk] <;> exact hfil
  · rcases hk with hk | hk <;> simp only [hk]

/-- **C74.** Where validation accepts the arguments, and they are valid values as they are, `model_construct` makes the instance
that validation makes: the same fields and extra fields, so an equal instance, written as the same JSON (it only does
not record which extra fields were given). `Unshadowed` and `StaysDict` as in C43. -/
theorem C74_construct_agrees (E : Env) (hd : E.digits ≠ some 0) (hcall : OnlyChecks E.call) (c : Cls)
    (hk : (classDef c).kind ≠ .patterned) (d : List (Str × V)) (v : V) (h : validate E c (.dict d) = some v)
    (hv : ∀ f ∈ (classDef c).fields, ∀ k x, GivenAs f d k x → Valid E.U E.digits x f.ty ∧ Unshadowed x ∧ Keys (StaysDict E) x ∧
      (c = .KafkaMessageBindings → f.name = p!"key" → StaysDict E x)) :
    (∃ fs ex set set', v = .inst c fs ex set ∧ Copy.constructUnchecked c d = .inst c fs ex set') ∧
    (Keyed v → pyEq v (Copy.constructUnchecked c d) = true) ∧ dump (Copy.constructUnchecked c d) = dump v := by
  have main : ∃ fs ex set set', v = .inst c fs ex set ∧ Copy.constructUnchecked c d = .inst c fs ex set' := by
    have hex : ∃ i, (allOk E c d = true ∧ i = .inst c (fieldsOf E c d) (extrasOf c d) (setOf c d)) ∧ v = i := by
      unfold validate at h
      rw [parse_model_dict E hk, construct_eq] at h
      split at h
      · rename_i hok
        refine ⟨_, ⟨hok, rfl⟩, ?_⟩
        rw [Option.map_map, Option.map_eq_some_iff] at h
        obtain ⟨j, hj, rfl⟩ := h
        simp only [Option.getD_none] at hj
        exact after_same hcall hj
      · cases h
    obtain ⟨i, hi, rfl⟩ := hex
    obtain ⟨⟨_, -, hfields, -, hclosed⟩, -⟩ := (allOk_given _).1 hi
    obtain ⟨hok, rfl⟩ := hi
    refine ⟨_, _, _, (Copy.constructFields d (classDef c).fields).2.1, rfl, ?_⟩
    have hfs : (Copy.constructFields d (classDef c).fields).1 = fieldsOf E c d := by
      refine Copy.constructFields_full d _ (valueOf E c d) fun f hf => ?_
      have hok' := (fieldOk_iff.1 (hfields f hf)).1
      rw [attr_fieldsOf hf] at hok'
      cases hkey : findKey f d with
      | some kv =>
        obtain ⟨k, x⟩ := kv
        rw [hkey] at hok'
        simp only at hok'
        obtain ⟨h1, h2, h3, h4⟩ := hv f hf k x (findKey_iff.1 hkey)
        have := (C43_field E hd c f hf x h1 h2 h3 h4 _).1 hok'
        simp only [this]
      | none =>
        rw [hkey] at hok'
        exact hok'
    have e : (d.filter fun e => !((Copy.constructFields d (classDef c).fields).2.2.contains e.1)) = extrasOf c d := by
      rw [Copy.constructFields_used]; rfl
    simp only [Copy.constructUnchecked]
    rw [hfs, e]
    cases hK : (classDef c).kind with
    | extendable => rfl
    | openExtra => rfl
    | patterned => exact absurd hK hk
    | nonExtendable =>
      rw [← extrasOf_eq] at hclosed
      simp only [hclosed hK]
  refine ⟨main, ?_⟩
  obtain ⟨fs, ex, set, set', rfl, h2⟩ := main
  rw [h2]
  refine ⟨fun hkey => ?_, by simp only [dump]⟩
  have := (C59_equivalence _ _ _ hkey hkey hkey).1
  simp only [pyEq] at this ⊢
  exact this

/-- The hypotheses of `C74_construct_agrees` are satisfiable. -/
example : dump (Copy.constructUnchecked .License [(p!"name", .str p!"MIT"), (p!"x-a", .int 1)]) =
    .dict [(p!"name", .str p!"MIT"), (p!"x-a", .int 1)] := by
  refine (C74_construct_agrees plainEnv (by decide) (by intro n doc doc' h; cases h; rfl) .License (by decide)
    [(p!"name", .str p!"MIT"), (p!"x-a", .int 1)] _ rfl fun f hf k x hg => ?_).2.2
  rcases List.mem_cons.1 hf with rfl | hf
  · rw [(given_unique hg (show GivenAs _ _ p!"name" (.str p!"MIT") from ⟨rfl, .inr ⟨rfl, fun a h => by cases h⟩⟩)).2]
    exact ⟨.str, .str, .str, fun h => by cases h⟩
  · rcases List.mem_cons.1 hf with rfl | hf
    · rcases hg with ⟨h, h' | ⟨rfl, -⟩⟩
      · cases h'
      · cases h
    · exact absurd hf List.not_mem_nil

/-- **C74.** `model_construct` accepts what validation refuses. -/
theorem C74_construct_unchecked : validate plainEnv .License (.dict [(p!"name", .int 1), (p!"no-extension", .none)]) = none ∧
    Copy.constructUnchecked .License [(p!"name", .int 1), (p!"no-extension", .none)] =
      .inst .License [(p!"name", .int 1), (p!"url", .none)] [(p!"no-extension", .none)] [p!"name"] ∧
    Copy.constructUnchecked .License [] = .inst .License [(p!"url", .none)] [] [] := ⟨rfl, rfl, rfl⟩

/-- **C74.** An instance without an attribute that is required, as `model_construct` makes it, is not passed over by the tag and
externalDocs validators: `spec.info` raises an AttributeError. -/
theorem C74_construct_missing {n : Nat} (D : Doc Cls n) (h : D.getattr (.ptr D.spec) p!"info" = none) :
    (RefV.validateTags D).res = .error (.attributeError p!"info") ∧
    (RefV.validateDocs D).res = .error (.attributeError p!"info") := by
  have h1 : RefV.tagsInfo D = .fail (.attributeError p!"info") := by
    simp only [RefV.tagsInfo, RefV.inRoot, RefV.attr, h]
  have h2 : RefV.docsInfo D = .fail (.attributeError p!"info") := by
    simp only [RefV.docsInfo, RefV.inRoot, RefV.attr, h]
  constructor
  · simp only [RefV.validateTags, RefV.seqAll, h1, RefV.Out.andThen, RefV.Out.fail]
  · simp only [RefV.validateDocs, RefV.seqAll, h2, RefV.Out.andThen, RefV.Out.fail]

/-- Such a document: `AsyncAPI3.model_construct()`. -/
example : (graphOf (Copy.constructUnchecked .AsyncAPI3 [])).getattr (.ptr (graphOf (Copy.constructUnchecked .AsyncAPI3 [])).spec) p!"info" = none ∧
    Document.tags (Copy.constructUnchecked .AsyncAPI3 []) = none := by decide +kernel

end Verif.Props
