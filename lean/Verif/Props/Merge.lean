import Verif.Spec.Merge
import Verif.Lemmas.Complaint
import Verif.Lemmas.ValueEq
import Verif.Props.Grows
/-!
# C64: putting two documents together
-/
namespace Verif.Props
open Verif Verif.Gen Verif.Spec Verif.Pyd Verif.Mutate Verif.Document

variable {U : Uni} {limit : Option Nat}

theorem key_of {d : List (Str × V)} {k : Str} (h : k ∈ d.map (·.1)) : ∃ x, (k, x) ∈ d := by
  obtain ⟨⟨k, x⟩, hm, rfl⟩ := List.mem_map.1 h
  exact ⟨x, hm⟩

theorem key_mem {d : List (Str × V)} {k : Str} {x : V} (h : (k, x) ∈ d) : k ∈ d.map (·.1) := List.mem_map.2 ⟨_, h, rfl⟩

/-- The field `root` holds a dict. -/
theorem root_is_dict {c fs ex set} {w : V} (hs : Sound U limit (.inst c fs ex set)) (h : (p!"root", w) ∈ fs) : ∃ d, w = .dict d := by
  have hv := sound_inst hs
  have hmem : p!"root" ∈ (classDef c).fields.map (·.name) := valid_names hv ▸ List.mem_map.2 ⟨_, h, rfl⟩
  obtain ⟨g, hg, he⟩ := List.mem_map.1 hmem
  have hall : Cls.all.all (fun c => (classDef c).fields.all fun f =>
      decide (f.name ≠ p!"root") || decide ((classDef c).kind = .patterned)) = true := by decide +kernel
  have hp := List.all_eq_true.1 (List.all_eq_true.1 hall c (Cls.mem_all c)) g hg
  simp only [Bool.or_eq_true, decide_eq_true_eq] at hp
  obtain ⟨t, ht⟩ := patterned_root c (hp.resolve_left fun h => h he)
  have hf : (⟨p!"root", none, .dict t, .required, false, false, none⟩ : FieldDef Cls) ∈ (classDef c).fields := by rw [ht]; simp
  cases valid_field hv hf h with
  | dict => exact ⟨_, rfl⟩

/-- **C64.** Putting together does not depend on the order of the two. -/
theorem C64_symm (a b m : V) (h : Merged a b m) : Merged b a m := by
  induction h with
  | none => exact .none
  | plain h1 h2 h3 => exact .plain h2 h1 h3
  | list h => exact .list fun v => (h v).trans or_comm
  | dict h1 h2 h3 _ ih => exact .dict (fun k => (h1 k).trans or_comm) h3 h2 fun k x y z hx hy hz => ih k x z y hx hz hy
  | inst h1 h2 h3 h4 _ h6 h7 ih =>
    exact .inst h2 h1 (fun k x z hx hy hz => h4 k x z hx hz hy) (fun k x y hx hy hz => h3 k x y hx hz hy)
      (fun k x y z hx hy hz hy0 hz0 => ih k x z y hx hz hy hz0 hy0) (fun hc s => (h6 hc s).symm) fun x => (h7 x).symm

/-- **C64.** What is put together has all that each of the two has. -/
theorem C64_grows (U : Uni) (limit : Option Nat) (a b m : V) (h : Merged a b m) (ha : Sound U limit a) : Grows a m := by
  induction h with
  | none => exact .none
  | plain h1 _ h3 => exact .plain h1 h3
  | list h => exact .ofItems fun v hv => ⟨v, (h v).2 (.inl hv), grows_refl v⟩
  | @dict d d' m h1 h2 h3 _ ih =>
    refine .ofDict fun k v hv => ?_
    cases ha with
    | dict hn hd =>
      obtain ⟨x, hx⟩ := key_of ((h1 k).2 (.inl (key_mem hv)))
      refine ⟨x, hx, ?_⟩
      by_cases hk : k ∈ d'.map (·.1)
      · obtain ⟨z, hz⟩ := key_of hk
        exact ih k x v z hx hv hz (hd _ hv)
      · cases dict_unique hn hv (h2 k x hx hk)
        exact grows_refl v
  | @inst c fs fs' fm ex ex' em set set' sm h1 h2 h3 h4 _ h6 h7 ih =>
    have key : ∀ k x y z, (k, x) ∈ fm → (k, y) ∈ fs → (k, z) ∈ fs' → (y = .none ∧ k ≠ p!"root") ∨ Grows y x := by
      intro k x y z hx hy hz
      by_cases hy0 : y = .none
      · subst hy0
        refine .inl ⟨rfl, ?_⟩
        rintro rfl
        obtain ⟨d, hd⟩ := root_is_dict ha hy
        cases hd
      · by_cases hz0 : z = .none
        · subst hz0
          cases h4 k x y hx hy hz
          exact .inr (grows_refl _)
        · cases ha with
          | inst _ hf _ _ => exact .inr (ih k x y z hx hy hz hy0 hz0 (hf _ hy))
    refine .ofInst (fun hc s => (h6 hc s).1.symm) (fun k y hy => ?_) (fun k x hx => ?_) (fun v hv => ⟨v, ((h7 v).1).2 hv, grows_refl v⟩)
      (fun v hv => ⟨v, ((h7 v).1).1 hv, grows_refl v⟩)
    · have hk := (h1 k).2 (key_mem hy)
      obtain ⟨x, hx⟩ := key_of hk
      obtain ⟨z, hz⟩ := key_of ((h2 k).1 hk)
      exact ⟨x, hx, key k x y z hx hy hz⟩
    · obtain ⟨y, hy⟩ := key_of ((h1 k).1 (key_mem hx))
      obtain ⟨z, hz⟩ := key_of ((h2 k).1 (key_mem hx))
      exact ⟨y, hy, key k x y z hx hy hz⟩

/-- **C64.** It has no References but those of the two, at the same places (but for positions in lists). -/
theorem C64_references (a b m : V) (h : Merged a b m) (steps : List LocStep) (w : V) (s : Str) (hat : TAt m steps w) (hr : TRef w s) :
    ∃ steps' w', SamePlace steps' steps ∧ (TAt a steps' w' ∨ TAt b steps' w') ∧ TRef w' s := by
  induction h generalizing steps with
  | none => cases hat with
    | nil => obtain ⟨_, _, _, e, _⟩ := hr; cases e
    | cons h _ => cases h
  | plain _ _ h3 => cases hat with
    | nil => obtain ⟨_, _, _, rfl, _⟩ := hr; cases h3
    | cons h _ => cases h <;> cases h3
  | @list l l' m h => cases hat with
    | nil => obtain ⟨_, _, _, e, _⟩ := hr; cases e
    | cons h1 h2 => cases h1 with
      | item hi =>
        rcases (h _).1 (List.mem_of_getElem? hi) with hm | hm
        all_goals obtain ⟨j, hj⟩ := List.getElem?_of_mem hm
        · exact ⟨.index j :: _, w, .cons .index (place_refl _), .inl (.cons (.item hj) h2), hr⟩
        · exact ⟨.index j :: _, w, .cons .index (place_refl _), .inr (.cons (.item hj) h2), hr⟩
  | @dict d d' m h1 h2 h3 h4 ih => cases hat with
    | nil => obtain ⟨_, _, _, e, _⟩ := hr; cases e
    | cons hch hat => cases hch with
      | @entry _ k x hx =>
        by_cases hk : k ∈ d.map (·.1)
        · by_cases hk' : k ∈ d'.map (·.1)
          · obtain ⟨y, hy⟩ := key_of hk
            obtain ⟨z, hz⟩ := key_of hk'
            obtain ⟨ss, w', hp, h | h, hr'⟩ := ih k _ y z hx hy hz _ hat
            · exact ⟨_, w', .cons .refl hp, .inl (.cons (.entry hy) h), hr'⟩
            · exact ⟨_, w', .cons .refl hp, .inr (.cons (.entry hz) h), hr'⟩
          · exact ⟨_, w, place_refl _, .inl (.cons (.entry (h2 k _ hx hk')) hat), hr⟩
        · exact ⟨_, w, place_refl _, .inr (.cons (.entry (h3 k _ hx hk)) hat), hr⟩
  | @inst c fs fs' fm ex ex' em set set' sm h1 h2 h3 h4 h5 h6 h7 ih => cases hat with
    | nil =>
      obtain ⟨_, _, _, e, hm⟩ := hr
      cases e
      exact ⟨[], _, .nil, .inl .nil, _, _, _, rfl, ((h6 rfl s).1).1 hm⟩
    | cons hch hat => cases hch with
      | @field _ _ _ _ f x hf he hx hne =>
        obtain ⟨y, hy⟩ := key_of ((h1 _).1 (key_mem hx))
        obtain ⟨z, hz⟩ := key_of ((h2 _).1 (key_mem hx))
        by_cases hy0 : y = .none
        · subst hy0
          cases h3 _ _ _ hx hy hz
          exact ⟨_, w, place_refl _, .inr (.cons (.field hf he hz hne) hat), hr⟩
        · by_cases hz0 : z = .none
          · subst hz0
            cases h4 _ _ _ hx hy hz
            exact ⟨_, w, place_refl _, .inl (.cons (.field hf he hy hne) hat), hr⟩
          · obtain ⟨ss, w', hp, h | h, hr'⟩ := ih _ _ y z hx hy hz hy0 hz0 _ hat
            · exact ⟨_, w', .cons .refl hp, .inl (.cons (.field hf he hy hy0) h), hr'⟩
            · exact ⟨_, w', .cons .refl hp, .inr (.cons (.field hf he hz hz0) h), hr'⟩

/-- **C64.** A valid document that is put together from two documents which a validator of the package accepts is accepted
by it. -/
theorem C64_accepted (U : Uni) (limit : Option Nat) (a b m : V) (h : Merged a b m)
    (hva : Valid U limit a (.model .AsyncAPI3)) (hsa : Sound U limit a) (hca : Clean a (.model .AsyncAPI3))
    (hvb : Valid U limit b (.model .AsyncAPI3)) (hsb : Sound U limit b) (hcb : Clean b (.model .AsyncAPI3))
    (hvm : Valid U limit m (.model .AsyncAPI3)) (hsm : Sound U limit m) (hcm : Clean m (.model .AsyncAPI3))
    (p : Validator) (hpa : p.run U a = some a) (hpb : p.run U b = some b) : p.run U m = some m := by
  have ga := C64_grows U limit a b m h hsa
  have gb := C64_grows U limit b a m (C64_symm a b m h) hsb
  have da := demands_iff.1 ((run_iff hva hsa hca p a).1 hpa).2
  have db := demands_iff.1 ((run_iff hvb hsb hcb p b).1 hpb).2
  rw [run_iff hvm hsm hcm, demands_iff]
  refine ⟨rfl, fun steps w s hat hr => ?_⟩
  obtain ⟨steps', w', hp, h1 | h1, h2⟩ := C64_references a b m h steps w s hat hr
  · exact demandsOf_place hp (C53_stays_right U a m ga p steps' s (da steps' w' s h1 h2))
  · exact demandsOf_place hp (C53_stays_right U b m gb p steps' s (db steps' w' s h1 h2))

/-! ### Two documents put together -/

/-- A check of `Merged`. -/
def mergedB : Nat → V → V → V → Bool
  | _, .none, .none, .none => true
  | _, .list l, .list l', .list m =>
    (m.all fun v => l.any (sameJson v) || l'.any (sameJson v)) && (l.all fun v => m.any (sameJson v)) && l'.all fun v => m.any (sameJson v)
  | k + 1, .dict d, .dict d', .dict m =>
    (m.map (·.1)).all (fun j => (d.map (·.1)).contains j || (d'.map (·.1)).contains j) &&
    (d.map (·.1)).all (fun j => (m.map (·.1)).contains j) && (d'.map (·.1)).all (fun j => (m.map (·.1)).contains j) &&
    m.all (fun e => (d'.map (·.1)).contains e.1 || d.any fun e' => e'.1 == e.1 && sameJson e'.2 e.2) &&
    m.all (fun e => (d.map (·.1)).contains e.1 || d'.any fun e' => e'.1 == e.1 && sameJson e'.2 e.2) &&
    m.all fun e => d.all fun y => d'.all fun z => !(y.1 == e.1) || !(z.1 == e.1) || mergedB k y.2 z.2 e.2
  | k + 1, .inst c fs ex _, .inst c' fs' ex' _, .inst c'' fm em _ =>
    c == c' && c == c'' && fm.map (·.1) == fs.map (·.1) && fm.map (·.1) == fs'.map (·.1) &&
    ex.all (fun e => e.1 != p!"root") && ex'.all (fun e => e.1 != p!"root") && em.all (fun e => e.1 != p!"root") &&
    (fm.all fun e => fs.all fun y => fs'.all fun z => !(y.1 == e.1) || !(z.1 == e.1) ||
      (match y.2, z.2 with
        | .none, z => sameJson e.2 z
        | y, .none => sameJson e.2 y
        | y, z => mergedB k y z e.2)) &&
    (c != .Reference || fm.all fun e => fs.all fun y => fs'.all fun z => e.1 != p!"ref" || !(y.1 == e.1) || !(z.1 == e.1) ||
      (sameJson e.2 y.2 && sameJson e.2 z.2))
  | _, a, b, m => isPlain a && isPlain b && isPlain m
where
  isPlain : V → Bool
    | .bool _ | .int _ | .float _ | .str _ | .url _ _ | .proc _ => true
    | _ => false

theorem isPlain_sound {v : V} (h : mergedB.isPlain v = true) : IsPlain v := by
  cases v <;> first | constructor | cases h

theorem any_same {l : List V} {v : V} : l.any (sameJson v) = true → v ∈ l := by
  rw [List.any_eq_true]
  rintro ⟨w, hw, h⟩
  rwa [sameJson_eq _ _ h]

theorem any_entry {d : List (Str × V)} {k : Str} {x : V} : (d.any fun e' => e'.1 == k && sameJson e'.2 x) = true → (k, x) ∈ d := by
  rw [List.any_eq_true]
  rintro ⟨⟨k', w⟩, hw, h⟩
  simp only [Bool.and_eq_true, beq_iff_eq] at h
  rw [← h.1, ← sameJson_eq _ _ h.2]
  exact hw

theorem mergedB_sound {k : Nat} {a b m : V} (h : mergedB k a b m = true) : Merged a b m := by
  induction k generalizing a b m with
  | zero =>
    unfold mergedB at h
    split at h
    · exact .none
    · simp only [Bool.and_eq_true, List.all_eq_true, Bool.or_eq_true] at h
      obtain ⟨⟨h1, h2⟩, h3⟩ := h
      exact .list fun v => ⟨fun hv => (h1 v hv).imp any_same any_same, fun hv => hv.elim (fun h => any_same (h2 v h)) fun h => any_same (h3 v h)⟩
    all_goals first
      | (simp only [Bool.and_eq_true] at h; exact .plain (isPlain_sound h.1.1) (isPlain_sound h.1.2) (isPlain_sound h.2))
      | (rename_i hk _ _ _; exact absurd hk (by simp))
      | contradiction
  | succ k ih =>
    unfold mergedB at h
    split at h
    · exact .none
    · simp only [Bool.and_eq_true, List.all_eq_true, Bool.or_eq_true] at h
      obtain ⟨⟨h1, h2⟩, h3⟩ := h
      exact .list fun v => ⟨fun hv => (h1 v hv).imp any_same any_same, fun hv => hv.elim (fun h => any_same (h2 v h)) fun h => any_same (h3 v h)⟩
    · rename_i k' d d' m hk
      cases hk
      simp only [Bool.and_eq_true, List.all_eq_true, Bool.or_eq_true, List.contains_iff_mem, Bool.not_eq_true', beq_eq_false_iff_ne] at h
      obtain ⟨⟨⟨⟨⟨h1, h2⟩, h3⟩, h4⟩, h5⟩, h6⟩ := h
      refine .dict (fun j => ⟨h1 j, fun hj => hj.elim (h2 j) (h3 j)⟩) (fun j x hx hj => any_entry ((h4 _ hx).resolve_left hj))
        (fun j x hx hj => any_entry ((h5 _ hx).resolve_left hj)) fun j x y z hx hy hz => ih ?_
      have := h6 _ hx _ hy _ hz
      simpa using this
    · rename_i k' c fs ex _ c' fs' ex' _ c'' fm em _ hk
      cases hk
      simp only [Bool.and_eq_true, beq_iff_eq, Bool.or_eq_true, bne_iff_ne] at h
      obtain ⟨⟨⟨⟨⟨⟨⟨⟨h1, h2⟩, h3⟩, h4⟩, h5⟩, h6⟩, h7⟩, h8⟩, h9⟩ := h
      subst h1 h2
      simp only [List.all_eq_true, bne_iff_ne] at h5 h6 h7
      have hm : ∀ j x y z, (j, x) ∈ fm → (j, y) ∈ fs → (j, z) ∈ fs' → (match y, z with
        | .none, z => sameJson x z
        | y, .none => sameJson x y
        | y, z => mergedB k y z x) = true := by
        intro j x y z hx hy hz
        have := List.all_eq_true.1 (List.all_eq_true.1 (List.all_eq_true.1 h8 _ hx) _ hy) _ hz
        simpa using this
      have hr : c = .Reference → ∀ x y z, (p!"ref", x) ∈ fm → (p!"ref", y) ∈ fs → (p!"ref", z) ∈ fs' → x = y ∧ x = z := by
        intro hc x y z hx hy hz
        have := List.all_eq_true.1 (List.all_eq_true.1 (List.all_eq_true.1 (h9.resolve_left fun h => h hc) _ hx) _ hy) _ hz
        simp only [bne_self_eq_false, beq_self_eq_true, Bool.not_true, Bool.false_or, Bool.and_eq_true] at this
        exact ⟨sameJson_eq _ _ this.1, sameJson_eq _ _ this.2⟩
      refine .inst (fun j => by rw [h3]) (fun j => by rw [h4]) (fun j x z hx hy hz => ?_) (fun j x y hx hy hz => ?_)
        (fun j x y z hx hy hz hy0 hz0 => ih ?_) (fun hc s => ⟨?_, ?_⟩)
        (fun x => ⟨⟨fun h => absurd rfl (h7 _ h), fun h => absurd rfl (h5 _ h)⟩, ⟨fun h => absurd rfl (h7 _ h), fun h => absurd rfl (h6 _ h)⟩⟩)
      · exact sameJson_eq _ _ (by simpa using hm j x _ z hx hy hz)
      · have := hm j x y _ hx hy hz
        split at this
        · exact sameJson_eq _ _ this
        · exact sameJson_eq _ _ this
        · rename_i h0; exact absurd rfl h0
      · have := hm j x y z hx hy hz
        split at this
        · exact absurd rfl hy0
        · exact absurd rfl hz0
        · exact this
      all_goals
        constructor
        · intro hx
          obtain ⟨y, hy⟩ := key_of (h3 ▸ key_mem hx)
          obtain ⟨z, hz⟩ := key_of (h4 ▸ key_mem hx)
          obtain ⟨e1, e2⟩ := hr hc _ _ _ hx hy hz
          first | exact e1 ▸ hy | exact e2 ▸ hz
        · intro h0
          first
            | (obtain ⟨x, hx⟩ := key_of (h3.symm ▸ key_mem h0)
               obtain ⟨z, hz⟩ := key_of (h4 ▸ key_mem hx)
               exact (hr hc _ _ _ hx h0 hz).1 ▸ hx)
            | (obtain ⟨x, hx⟩ := key_of (h4.symm ▸ key_mem h0)
               obtain ⟨y, hy⟩ := key_of (h3 ▸ key_mem hx)
               exact (hr hc _ _ _ hx hy h0).2 ▸ hx)
    · simp only [Bool.and_eq_true] at h
      exact .plain (isPlain_sound h.1.1) (isPlain_sound h.1.2) (isPlain_sound h.2)

/-- A document with another channel and further components. It has the key `a` of `components.tags` in common with `small`. -/
def otherInput : List (Str × V) := [
  (p!"asyncapi", .str p!"3.0.0"),
  (p!"info", .dict [(p!"title", .str p!"other"), (p!"version", .str p!"2"), (p!"description", .str p!"d")]),
  (p!"channels", .dict [(p!"e", .dict [(p!"address", .str p!"y"),
    (p!"messages", .dict [(p!"m", .dict [(p!"$ref", .str p!"#/components/messages/q")])])])]),
  (p!"components", .dict [(p!"messages", .dict [(p!"q", .dict [(p!"name", .str p!"q"), (p!"tags", .list [.dict [(p!"$ref", .str p!"#/components/tags/a")]])])]),
    (p!"tags", .dict [(p!"a", .dict [(p!"name", .str p!"b"), (p!"description", .str p!"d")])])]),
  (p!"extra_validators", .list [.proc 3])]

/-- The two put together. -/
def bothInput : List (Str × V) := [
  (p!"asyncapi", .str p!"3.0.0"),
  (p!"info", .dict [(p!"title", .str p!"both"), (p!"version", .str p!"1"), (p!"description", .str p!"d"),
    (p!"tags", .list [.dict [(p!"$ref", .str p!"#/components/tags/a")]])]),
  (p!"channels", .dict [(p!"c", .dict [(p!"address", .str p!"x"),
    (p!"messages", .dict [(p!"m", .dict [(p!"$ref", .str p!"#/components/messages/n")])])]),
    (p!"e", .dict [(p!"address", .str p!"y"),
    (p!"messages", .dict [(p!"m", .dict [(p!"$ref", .str p!"#/components/messages/q")])])])]),
  (p!"components", .dict [(p!"messages", .dict [(p!"n", .dict [(p!"$ref", .str p!"#/components/messages/o")]),
    (p!"o", .dict [(p!"name", .str p!"hi")]),
    (p!"q", .dict [(p!"name", .str p!"q"), (p!"tags", .list [.dict [(p!"$ref", .str p!"#/components/tags/a")]])])]),
    (p!"tags", .dict [(p!"a", .dict [(p!"name", .str p!"a"), (p!"description", .str p!"d")])])]),
  (p!"extra_validators", .list [.proc 3])]

def other : V := (validate packageEnv .AsyncAPI3 (.dict otherInput)).getD .none
def both : V := (validate packageEnv .AsyncAPI3 (.dict bothInput)).getD .none

set_option maxRecDepth 20000

theorem other_made : validate packageEnv .AsyncAPI3 (.dict otherInput) = some other := sameResult_eq (by decide +kernel)
theorem both_made : validate packageEnv .AsyncAPI3 (.dict bothInput) = some both := sameResult_eq (by decide +kernel)

theorem both_merged : Merged small other both := mergedB_sound (k := 12) (by decide +kernel)

/-- All the assumptions of `C64_accepted` hold of these documents, for each of the validators of the package. -/
example (p : Validator) (hp : p = .unified ∨ p = .tags ∨ p = .externalDocs) : p.run .ascii both = some both := by
  obtain ⟨hv, hs, hc, -⟩ := C47_accepted packageEnv packageEnv_checks _ (plain_input rfl).2 small small_made
  obtain ⟨hv', hs', hc', -⟩ := C47_accepted packageEnv packageEnv_checks _ (plain_input rfl).2 other other_made
  obtain ⟨hv2, hs2, hc2, -⟩ := C47_accepted packageEnv packageEnv_checks _ (plain_input rfl).2 both both_made
  have h1 : (p.run .ascii small).isSome = true := by rcases hp with rfl | rfl | rfl <;> decide +kernel
  have h2 : (p.run .ascii other).isSome = true := by rcases hp with rfl | rfl | rfl <;> decide +kernel
  obtain ⟨x, hx⟩ := Option.isSome_iff_exists.1 h1
  obtain ⟨y, hy⟩ := Option.isSome_iff_exists.1 h2
  exact C64_accepted .ascii _ small other both both_merged hv hs (hc (plain_input (U := .ascii) (limit := none) rfl).1)
    hv' hs' (hc' (plain_input (U := .ascii) (limit := none) rfl).1) hv2 hs2 (hc2 (plain_input (U := .ascii) (limit := none) rfl).1) p
    (by rw [hx, run_only_checks hx]) (by rw [hy, run_only_checks hy])

end Verif.Props
