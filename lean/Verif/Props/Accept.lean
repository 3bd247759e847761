import Verif.Props.Processors
import Verif.Lemmas.Valid
/-!
# C20, C21, C22, C23 for constructions

What the rules on strings (`Verif/Props/Patterns.lean`) mean for the instances that can be made.
-/
namespace Verif.Props
open Verif Verif.Gen Verif.Spec Verif.Pyd

/-! ### C20: patterned objects -/

theorem parseEntries_iff {E : Env} {t : Ty Cls} {d d' : List (Str × V)} :
    (∃ sc, parseEntries t (entries E d) = some (d', sc)) ↔
      List.Forall₂ (fun e e' => e'.1 = e.1 ∧ Accepts E e.2 t e'.2) d d' := by
  induction d generalizing d' with
  | nil =>
    simp only [entries, parseEntries, Option.some.injEq, Prod.mk.injEq, List.forall₂_nil_left_iff]
    constructor
    · rintro ⟨_, h, _⟩; exact h.symm
    · rintro rfl; exact ⟨_, rfl, rfl⟩
  | cons e d ih =>
    obtain ⟨k, v⟩ := e
    simp only [entries, parseEntries]
    constructor
    · rintro ⟨sc, h⟩
      cases hp : parse E v t with
      | none => rw [hp] at h; cases h
      | some w =>
        rw [hp] at h
        cases hr : parseEntries t (entries E d) with
        | none => rw [hr] at h; cases h
        | some r =>
          rw [hr] at h
          cases h
          exact .cons ⟨rfl, _, hp⟩ (ih.1 ⟨_, hr⟩)
    · intro h
      cases h with
      | cons h1 h2 =>
        obtain ⟨h1, sc, hp⟩ := h1
        obtain ⟨sc', hr⟩ := ih.2 h2
        rw [hp, hr]
        subst h1
        exact ⟨_, rfl⟩

/-- **C20.** Making a patterned object from a mapping, for every class of patterned objects: it works
exactly when each value is accepted by the type declared for the entries and each key has the documented
form, perhaps with a newline at the end; the result has the same keys in the same order. -/
theorem C20_construct (E : Env) (c : Cls) (t : Ty Cls) (hk : (classDef c).kind = .patterned)
    (hf : (classDef c).fields = [⟨p!"root", none, .dict t, .required, false, false, none⟩])
    (d : List (Str × V)) (i : V) :
    validate E c (.dict d) = some i ↔
      (∀ e ∈ d, OrNewline KeyForm e.1) ∧
      ∃ d', List.Forall₂ (fun e e' => e'.1 = e.1 ∧ Accepts E e.2 t e'.2) d d' ∧
        i = .inst c [(p!"root", .dict d')] [] [p!"root"] := by
  have hne : c ≠ .AsyncAPI3 := by rintro rfl; cases hk
  have hp : parse E (.dict d) (.model c) =
      constructRoot E c ((parseEntries t (entries E d)).map fun r => (.dict r.1, r.2)) none E.built := by
    show parseModel E c (.dict (entries E d)) _ = _
    simp only [parseModel, hk, hf]
    rfl
  have hafter : ∀ d', after E c (.inst c [(p!"root", .dict d')] [] [p!"root"]) =
      if Patterns.patternedKeys (d'.map (·.1)) then some (.inst c [(p!"root", .dict d')] [] [p!"root"]) else none := by
    intro d'
    have hb : baseCheck E c (.inst c [(p!"root", .dict d')] [] [p!"root"]) = Patterns.patternedKeys (d'.map (·.1)) := by
      unfold baseCheck; rw [hk]; rfl
    have hm : modelCheck c (.inst c [(p!"root", .dict d')] [] [p!"root"]) = true := by
      revert hk
      cases c <;> first | (intro _; rfl) | (intro h; cases h)
    have : ∀ j, after E c j = if baseCheck E c j && modelCheck c j then some j else none := by
      intro j; cases c <;> first | rfl | exact absurd rfl hne
    rw [this, hb, hm, Bool.and_true]
  have hkeys : ∀ d', List.Forall₂ (fun e e' : Str × V => e'.1 = e.1 ∧ Accepts E e.2 t e'.2) d d' →
      d'.map (·.1) = d.map (·.1) := by
    intro d' h
    clear hp hf hafter
    induction h with
    | nil => rfl
    | cons h1 _ ih =>
      simp only [List.map_cons, List.cons.injEq]
      exact ⟨h1.1, ih⟩
  unfold validate
  rw [hp]
  constructor
  · intro h
    cases hr : parseEntries t (entries E d) with
    | none => rw [hr] at h; cases h
    | some r =>
      obtain ⟨d', sc⟩ := r
      rw [hr] at h
      simp only [Option.map_some, constructRoot, Option.getD_none, hafter] at h
      have hd' := parseEntries_iff.1 ⟨sc, hr⟩
      by_cases hpk : Patterns.patternedKeys (d'.map (·.1)) = true
      · rw [if_pos hpk] at h
        simp only [Option.map_some, Option.some.injEq] at h
        rw [C20_keys_exact, hkeys d' hd'] at hpk
        exact ⟨fun e he => hpk e.1 (List.mem_map.2 ⟨e, he, rfl⟩), d', hd', h.symm⟩
      · rw [if_neg hpk] at h; cases h
  · rintro ⟨h1, d', h2, rfl⟩
    obtain ⟨sc, hr⟩ := parseEntries_iff.2 h2
    rw [hr]
    simp only [Option.map_some, constructRoot, Option.getD_none, hafter]
    rw [if_pos]
    · rfl
    · rw [C20_keys_exact, hkeys d' h2]
      intro k hk'
      obtain ⟨e, he, rfl⟩ := List.mem_map.1 hk'
      exact h1 e he

/-- Each class of patterned objects has one type for its entries. -/
theorem C20_entry_type (c : Cls) (hk : (classDef c).kind = .patterned) :
    ∃ t, (classDef c).fields = [⟨p!"root", none, .dict t, .required, false, false, none⟩] :=
  patterned_root c hk

/-- **C20**, as stated, for mappings whose values are accepted and whose keys have no newline. Missing:
keys that end in a newline (`C20_construct_refuted`). -/
theorem C20_construct_partial (E : Env) (c : Cls) (t : Ty Cls) (hk : (classDef c).kind = .patterned)
    (hf : (classDef c).fields = [⟨p!"root", none, .dict t, .required, false, false, none⟩])
    (d : List (Str × V)) (hv : ∀ e ∈ d, ∃ w, Accepts E e.2 t w) (hn : ∀ e ∈ d, '\n' ∉ e.1) :
    (validate E c (.dict d)).isSome = true ↔ ∀ e ∈ d, KeyForm e.1 := by
  rw [Option.isSome_iff_exists]
  constructor
  · rintro ⟨i, h⟩ e he
    rcases ((C20_construct E c t hk hf d i).1 h).1 e he with h | ⟨s, hs, _⟩
    · exact h
    · exact absurd (by rw [hs]; simp) (hn e he)
  · intro h
    have : ∃ d' : List (Str × V), List.Forall₂ (fun e e' => e'.1 = e.1 ∧ Accepts E e.2 t e'.2) d d' := by
      clear h hn
      induction d with
      | nil => exact ⟨[], .nil⟩
      | cons e d ih =>
        obtain ⟨d', hd'⟩ := ih fun e he => hv e (List.mem_cons_of_mem _ he)
        obtain ⟨w, hw⟩ := hv e List.mem_cons_self
        exact ⟨(e.1, w) :: d', .cons ⟨rfl, hw⟩ hd'⟩
    obtain ⟨d', hd'⟩ := this
    exact ⟨_, (C20_construct E c t hk hf d _).2 ⟨fun e he => .inl (h e he), d', hd', rfl⟩⟩

set_option maxRecDepth 10000 in
/-- **C20, refuted** for constructions: a `Channels` object with a key that ends in a newline. -/
theorem C20_construct_refuted :
    (validate plainEnv .Channels (.dict [(p!"orders\n", .dict [])])).isSome = true ∧ ¬ KeyForm p!"orders\n" :=
  ⟨by decide +kernel, C20_refuted.2⟩

/-! ### C21: unknown fields -/

/-- `k` is neither the name nor the alias of a declared field of `c`. -/
def Unknown (c : Cls) (k : Str) : Prop := ∀ f ∈ (classDef c).fields, f.name ≠ k ∧ f.alias ≠ some k

theorem lookup_other {d : List (Str × V)} {n k : Str} {x : V} (hn : n ≠ k) : lookup n (d ++ [(k, x)]) = lookup n d := by
  induction d with
  | nil => simp [lookup, Ne.symm hn]
  | cons e d ih =>
    obtain ⟨k', v⟩ := e
    simp only [List.cons_append, lookup, ih]

theorem findKey_add {f : FieldDef Cls} {d : List (Str × V)} {k : Str} {x : V} (h : f.name ≠ k ∧ f.alias ≠ some k) :
    findKey f (d ++ [(k, x)]) = findKey f d := by
  have hl : ∀ n, n ≠ k → lookup n (d ++ [(k, x)]) = lookup n d := fun n hn => lookup_other hn
  unfold findKey
  cases ha : f.alias with
  | none => simp only [hl _ h.1]
  | some a => simp only [hl a (fun e => h.2 (by rw [ha, e])), hl _ h.1]

theorem one_add {E : Env} {c : Cls} {f : FieldDef Cls} {d : List (Str × V)} {k : Str} {x : V}
    (h : f.name ≠ k ∧ f.alias ≠ some k) : one E c (d ++ [(k, x)]) f = one E c d f := by
  unfold one; rw [findKey_add h]

theorem fieldsOf_add {E : Env} {c : Cls} {d : List (Str × V)} {k : Str} {x : V} (h : Unknown c k) :
    fieldsOf E c (d ++ [(k, x)]) = fieldsOf E c d := by
  unfold fieldsOf valueOf
  refine List.map_congr_left fun f hf => ?_
  rw [one_add (h f hf)]

theorem usedKeys_add {c : Cls} {d : List (Str × V)} {k : Str} {x : V} (h : Unknown c k) :
    usedKeys c (d ++ [(k, x)]) = usedKeys c d := by
  unfold usedKeys
  refine List.filterMap_congr fun f hf => ?_
  rw [findKey_add (h f hf)]

theorem unknown_unused {c : Cls} {d : List (Str × V)} {k : Str} (h : Unknown c k) :
    (usedKeys c d).contains k = false := by
  rw [← Bool.not_eq_true, mem_usedKeys]
  rintro ⟨f, hf, x, _, ha | ⟨hk, _⟩⟩
  · exact (h f hf).2 ha
  · exact (h f hf).1 hk.symm

theorem extrasOf_add {c : Cls} {d : List (Str × V)} {k : Str} {x : V} (h : Unknown c k) :
    extrasOf c (d ++ [(k, x)]) = extrasOf c d ++ [(k, x)] := by
  unfold extrasOf
  rw [usedKeys_add h, List.filter_append]
  simp only [List.filter_cons, unknown_unused h, List.filter_nil, Bool.not_false, if_true]

theorem modelCheck_fields (c c' : Cls) (fs ex ex' : List (Str × V)) (set set' : List Str) :
    modelCheck c (.inst c' fs ex set) = modelCheck c (.inst c' fs ex' set') := by
  cases c <;> rfl

/-- **C21.** Giving one more, unknown, field to a constructor that works: an extendable class accepts it
exactly when its name is an extension name (perhaps with a newline at the end); a non-extendable class
never does; the three open classes always do. When it is accepted it becomes an extra field with the
value given, and the declared fields are as before. -/
theorem C21_construct (E : Env) (c : Cls) (hk : (classDef c).kind ≠ .patterned) (hc : c ≠ .AsyncAPI3)
    (d : List (Str × V)) (i : V) (h : validate E c (.dict d) = some i)
    (k : Str) (hu : Unknown c k) (x : V) :
    ((validate E c (.dict (d ++ [(k, x)]))).isSome = true ↔
      ((classDef c).kind = .extendable ∧ OrNewline (ExtensionForm E.U) k) ∨
      c = .Schema ∨ c = .MultiFormatSchema ∨ c = .KafkaTopicConfiguration) ∧
    (∀ i', validate E c (.dict (d ++ [(k, x)])) = some i' →
      i'.extras = i.extras ++ [(k, x)] ∧ ∀ n, i'.attr n = i.attr n) := by
  have hafter : ∀ j, after E c j = if baseCheck E c j && modelCheck c j then some j else none := by
    intro j; cases c <;> first | rfl | exact absurd rfl hc
  have hval : ∀ d, validate E c (.dict d) = if allOk E c d then
      (after E c (.inst c (fieldsOf E c d) (extrasOf c d) (setOf c d))) else none := by
    intro d
    unfold validate
    rw [parse_model_dict E hk, construct_eq]
    split
    · rw [Option.map_map]
      show Option.map id _ = _
      rw [Option.map_id]; rfl
    · rfl
  rw [hval] at h ⊢
  rw [hafter] at h ⊢
  split at h
  · rename_i hok
    split at h
    · rename_i hb
      rw [Bool.and_eq_true] at hb
      cases h
      have hext := (baseCheck_iff E c hk _).1 hb.1
      have hm : modelCheck c (.inst c (fieldsOf E c (d ++ [(k, x)])) (extrasOf c (d ++ [(k, x)])) (setOf c (d ++ [(k, x)]))) = true := by
        rw [fieldsOf_add hu, ← modelCheck_fields c c _ _ _ _ _]; exact hb.2
      have hbase : baseCheck E c (.inst c (fieldsOf E c (d ++ [(k, x)])) (extrasOf c (d ++ [(k, x)])) (setOf c (d ++ [(k, x)]))) = true ↔
          ((classDef c).kind = .extendable → OrNewline (ExtensionForm E.U) k) := by
        rw [baseCheck_iff E c hk, extrasOf_add hu]
        constructor
        · intro h he; exact h he (k, x) (by simp [V.extras])
        · intro h he e hm
          simp only [V.extras, List.mem_append, List.mem_singleton] at hm
          rcases hm with hm | rfl
          · exact hext he e hm
          · exact h he
      have hall : allOk E c (d ++ [(k, x)]) = true ↔ (classDef c).kind ≠ .nonExtendable := by
        unfold allOk at hok ⊢
        rw [Bool.and_eq_true] at hok
        rw [Bool.and_eq_true, extrasOf_add hu]
        constructor
        · rintro ⟨_, h⟩ he
          simp [he] at h
        · intro he
          refine ⟨?_, by simp [he]⟩
          refine List.all_eq_true.2 fun f hf => ?_
          rw [one_add (hu f hf)]
          exact List.all_eq_true.1 hok.1 f hf
      refine ⟨?_, ?_⟩
      · have hcls := C21_classes c
        have hopen : (c = .Schema ∨ c = .MultiFormatSchema ∨ c = .KafkaTopicConfiguration) ↔
            (classDef c).kind ≠ .extendable ∧ (classDef c).kind ≠ .nonExtendable := by
          constructor
          · rintro (rfl | rfl | rfl) <;> exact ⟨by decide, by decide⟩
          · rintro ⟨h1, h2⟩
            rcases hcls with h | h | h | h
            · exact absurd h h1
            · exact absurd h h2
            · exact absurd h hk
            · exact h
        rw [hopen]
        by_cases hn : (classDef c).kind = .nonExtendable
        · rw [if_neg (fun h => hall.1 h hn)]
          simp [hn]
        · rw [if_pos (hall.2 hn), hm, Bool.and_true]
          by_cases he : (classDef c).kind = .extendable
          · by_cases hx : OrNewline (ExtensionForm E.U) k
            · rw [if_pos (hbase.2 fun _ => hx)]; simp [he, hx]
            · rw [if_neg (fun h => hx (hbase.1 h he))]; simp [he, hx]
          · rw [if_pos (hbase.2 fun h => absurd h he)]; simp [he, hn]
      · intro i' h'
        split at h'
        · split at h'
          · cases h'
            rw [fieldsOf_add hu, extrasOf_add hu]
            exact ⟨rfl, fun _ => rfl⟩
          · cases h'
        · cases h'
    · cases h
  · cases h

/-- **C21**, as stated, for names without newlines. Missing: names that end in a newline
(`C21_construct_refuted`). -/
theorem C21_construct_partial (E : Env) (c : Cls) (hk : (classDef c).kind = .extendable) (hc : c ≠ .AsyncAPI3)
    (d : List (Str × V)) (i : V) (h : validate E c (.dict d) = some i)
    (k : Str) (hu : Unknown c k) (hn : '\n' ∉ k) (x : V) :
    (validate E c (.dict (d ++ [(k, x)]))).isSome = true ↔ ExtensionForm E.U k := by
  rw [(C21_construct E c (by rw [hk]; decide) hc d i h k hu x).1]
  constructor
  · rintro (⟨_, h | ⟨s, rfl, _⟩⟩ | rfl | rfl | rfl)
    · exact h
    · exact absurd (by simp) hn
    all_goals exact absurd hk (by decide)
  · intro h; exact .inl ⟨hk, .inl h⟩

set_option maxRecDepth 10000 in
/-- **C21, refuted** for constructions: a `Contact` with an extension whose name ends in a newline. -/
theorem C21_construct_refuted :
    (validate plainEnv .Contact (.dict [(p!"x-a\n", .int 1)])).isSome = true ∧
      ¬ ExtensionForm plainEnv.U p!"x-a\n" :=
  ⟨by decide +kernel, (C21_refuted _).2.2⟩

/-! ### C22: the email address of a contact -/

/-- `f` is the only field of `c` that takes the key `k`, its name. -/
structure Takes (c : Cls) (f : FieldDef Cls) (k : Str) : Prop where
  mem : f ∈ (classDef c).fields
  name : f.name = k
  noAlias : f.alias = none
  only : ∀ g ∈ (classDef c).fields, g ≠ f → g.name ≠ k ∧ g.alias ≠ some k

theorem lookup_add {d : List (Str × V)} {k : Str} {x : V} (hd : lookup k d = none) :
    lookup k (d ++ [(k, x)]) = some x := by
  induction d with
  | nil => simp [lookup]
  | cons e d ih =>
    obtain ⟨k', v⟩ := e
    simp only [List.cons_append, lookup] at hd ⊢
    split
    · rename_i h; rw [if_pos h] at hd; cases hd
    · rename_i h; rw [if_neg h] at hd; exact ih hd

theorem ne_of_lookup {d : List (Str × V)} {k : Str} (hd : lookup k d = none) : ∀ e ∈ d, e.1 ≠ k := by
  induction d with
  | nil => intro e he; cases he
  | cons e d ih =>
    obtain ⟨k', v⟩ := e
    simp only [lookup] at hd
    split at hd
    · cases hd
    · rename_i h
      intro e he
      rcases List.mem_cons.1 he with rfl | he
      · exact h
      · exact ih hd e he

theorem findKey_given {c : Cls} {f : FieldDef Cls} {d : List (Str × V)} {k : Str} {x : V} (hf : Takes c f k)
    (hd : lookup k d = none) : findKey f (d ++ [(k, x)]) = some (k, x) := by
  unfold findKey
  simp only [hf.noAlias, hf.name, lookup_add hd, Option.map_some]

theorem extrasOf_given {c : Cls} {f : FieldDef Cls} {d : List (Str × V)} {k : Str} {x : V} (hf : Takes c f k)
    (hd : lookup k d = none) : extrasOf c (d ++ [(k, x)]) = extrasOf c d := by
  unfold extrasOf
  have hmem : ∀ n, (usedKeys c (d ++ [(k, x)])).contains n = true ↔ n = k ∨ (usedKeys c d).contains n = true := by
    intro n
    rw [List.contains_iff_mem, List.contains_iff_mem]
    unfold usedKeys
    rw [List.mem_filterMap, List.mem_filterMap]
    constructor
    · rintro ⟨g, hg, h⟩
      by_cases hgf : g = f
      · subst hgf
        rw [findKey_given hf hd] at h
        exact .inl (Option.some.inj h).symm
      · rw [findKey_add (hf.only g hg hgf)] at h
        exact .inr ⟨g, hg, h⟩
    · rintro (rfl | ⟨g, hg, h⟩)
      · exact ⟨f, hf.mem, by rw [findKey_given hf hd]; rfl⟩
      · by_cases hgf : g = f
        · subst hgf
          have : findKey g d = none := by unfold findKey; simp only [hf.noAlias, hf.name, hd, Option.map_none]
          rw [this] at h; cases h
        · exact ⟨g, hg, by rw [findKey_add (hf.only g hg hgf)]; exact h⟩
  rw [List.filter_append]
  have h1 : [(k, x)].filter (fun e => !((usedKeys c (d ++ [(k, x)])).contains e.1)) = [] := by
    simp only [List.filter_cons, List.filter_nil, (hmem k).2 (.inl rfl), Bool.not_true, Bool.false_eq_true, if_false]
  rw [h1, List.append_nil]
  refine List.filter_congr fun e he => ?_
  rw [Bool.not_inj_iff, Bool.eq_iff_iff, hmem e.1]
  simp only [ne_of_lookup hd e he, false_or]

/-- The outcome of giving one more, declared, field. -/
theorem given_field {E : Env} {c : Cls} {f : FieldDef Cls} {d : List (Str × V)} {k : Str} {x : V} (hf : Takes c f k)
    (hd : lookup k d = none) (hok : allOk E c d = true) :
    (allOk E c (d ++ [(k, x)]) = true ↔ ∃ v, Accepts E x f.ty v ∧ lengthOk f.maxLen v = true ∧ fieldCheck E c k v = true) ∧
    (∀ v sc, parse E x f.ty = some (v, sc) → lengthOk f.maxLen v = true → fieldCheck E c k v = true →
      valueOf E c (d ++ [(k, x)]) f = v) := by
  have hone : one E c (d ++ [(k, x)]) f = match parse E x f.ty with
    | some (v, sc) => if lengthOk f.maxLen v && fieldCheck E c k v then some (v, sc.and ⟨2, some 1⟩) else none
    | none => none := by
    unfold one; rw [findKey_given hf hd, hf.name]; rfl
  constructor
  · unfold allOk at hok ⊢
    rw [Bool.and_eq_true] at hok
    rw [Bool.and_eq_true, extrasOf_given hf hd]
    constructor
    · rintro ⟨h, _⟩
      have := List.all_eq_true.1 h f hf.mem
      rw [hone] at this
      split at this
      · rename_i v sc hp
        split at this
        · rename_i hb
          rw [Bool.and_eq_true] at hb
          exact ⟨v, ⟨sc, hp⟩, hb.1, hb.2⟩
        · cases this
      · cases this
    · rintro ⟨v, ⟨sc, hp⟩, h1, h2⟩
      refine ⟨List.all_eq_true.2 fun g hg => ?_, hok.2⟩
      by_cases hgf : g = f
      · subst hgf
        rw [hone, hp]
        simp only [h1, h2, Bool.and_self, if_true]; rfl
      · rw [one_add (hf.only g hg hgf)]
        exact List.all_eq_true.1 hok.1 g hg
  · intro v sc hp h1 h2
    unfold valueOf
    rw [hone, hp]
    simp only [h1, h2, Bool.and_self, if_true]

theorem takes_email : Takes .Contact (defContact.fields[2]) p!"email" where
  mem := List.getElem_mem _
  name := rfl
  noAlias := rfl
  only := by
    intro g hg
    simp only [classDef, defContact, List.mem_cons, List.not_mem_nil, or_false] at hg
    rcases hg with rfl | rfl | rfl
    · intro _; exact ⟨by decide, by decide⟩
    · intro _; exact ⟨by decide, by decide⟩
    · intro h; exact absurd rfl h

theorem accepts_email {E : Env} {x v : V} : Accepts E x (.union [.email, .none]) v ↔
    v = x ∧ (x = .none ∨ ∃ s, x = .str s ∧ OrNewline EmailForm s) := by
  unfold Accepts
  cases x with
  | none =>
    constructor
    · rintro ⟨sc, h⟩
      have : parse E .none (.union [.email, .none]) = some (.none, .exactly) := rfl
      rw [this] at h; cases h; exact ⟨rfl, .inl rfl⟩
    · rintro ⟨rfl, _⟩; exact ⟨_, rfl⟩
  | str s =>
    have hp : parse E (.str s) (.union [.email, .none]) =
        if Patterns.validateEmail s then some (.str s, .exactly) else none := by
      show pick E none [parseEmail (.str s), none] = _
      simp only [parseEmail]
      split <;> rfl
    rw [hp]
    by_cases hs : Patterns.validateEmail s = true
    · rw [if_pos hs]
      constructor
      · rintro ⟨sc, h⟩; cases h; exact ⟨rfl, .inr ⟨s, rfl, (C22_exact s).1 hs⟩⟩
      · rintro ⟨rfl, _⟩; exact ⟨_, rfl⟩
    · rw [if_neg hs]
      constructor
      · rintro ⟨sc, h⟩; cases h
      · rintro ⟨rfl, h | ⟨s', h, hs'⟩⟩
        · cases h
        · cases h; exact absurd ((C22_exact s).2 hs') hs
  | _ =>
    constructor
    · rintro ⟨sc, h⟩; cases h
    · rintro ⟨rfl, h | ⟨s', h, hs'⟩⟩ <;> cases h

/-- **C22.** Giving an email address to a constructor of `Contact` that works without: accepted exactly when
it is null or a string with the documented form, perhaps with a newline at the end; it is kept as given. -/
theorem C22_construct (E : Env) (d : List (Str × V)) (i : V) (h : validate E .Contact (.dict d) = some i)
    (hd : lookup p!"email" d = none) (x : V) :
    ((validate E .Contact (.dict (d ++ [(p!"email", x)]))).isSome = true ↔
      x = .none ∨ ∃ s, x = .str s ∧ OrNewline EmailForm s) ∧
    ∀ i', validate E .Contact (.dict (d ++ [(p!"email", x)])) = some i' →
      i'.attr p!"email" = x ∧ i'.extras = i.extras := by
  have hk : (classDef Cls.Contact).kind ≠ .patterned := by decide
  have hafter : ∀ j, after E .Contact j = if baseCheck E .Contact j && modelCheck .Contact j then some j else none := fun _ => rfl
  have hval : ∀ d, validate E .Contact (.dict d) = if allOk E .Contact d then
      (after E .Contact (.inst .Contact (fieldsOf E .Contact d) (extrasOf .Contact d) (setOf .Contact d))) else none := by
    intro d
    unfold validate
    rw [parse_model_dict E hk, construct_eq]
    split
    · rw [Option.map_map]
      show Option.map id _ = _
      rw [Option.map_id]; rfl
    · rfl
  rw [hval, hafter] at h
  split at h
  case isFalse => cases h
  rename_i hok
  split at h
  case isFalse => cases h
  rename_i hb
  cases h
  have hb' : (baseCheck E .Contact (.inst .Contact (fieldsOf E .Contact (d ++ [(p!"email", x)]))
      (extrasOf .Contact (d ++ [(p!"email", x)])) (setOf .Contact (d ++ [(p!"email", x)]))) &&
      modelCheck .Contact (.inst .Contact (fieldsOf E .Contact (d ++ [(p!"email", x)]))
      (extrasOf .Contact (d ++ [(p!"email", x)])) (setOf .Contact (d ++ [(p!"email", x)])))) = true := by
    rw [extrasOf_given takes_email hd]; exact hb
  have hiff := (given_field (E := E) (x := x) takes_email hd hok)
  have hacc : allOk E .Contact (d ++ [(p!"email", x)]) = true ↔ x = .none ∨ ∃ s, x = .str s ∧ OrNewline EmailForm s := by
    rw [hiff.1]
    constructor
    · rintro ⟨v, hv, _⟩; exact (accepts_email.1 hv).2
    · intro h; exact ⟨x, accepts_email.2 ⟨rfl, h⟩, rfl, rfl⟩
  rw [hval, hafter, if_pos hb']
  constructor
  · rw [← hacc]
    split
    · rename_i ha; exact ⟨fun _ => ha, fun _ => rfl⟩
    · rename_i ha; exact ⟨fun h => (by cases h), fun h => absurd h ha⟩
  · intro i' h'
    split at h'
    · rename_i ha
      cases h'
      refine ⟨?_, by rw [extrasOf_given takes_email hd]; rfl⟩
      obtain ⟨v, ⟨sc, hv⟩, _⟩ := hiff.1.1 ha
      have hvx := (accepts_email.1 ⟨sc, hv⟩).1
      subst hvx
      exact hiff.2 _ _ hv rfl rfl
    · cases h'

/-- **C22**, as stated, for strings without newlines. Missing: addresses that end in a newline
(`C22_construct_refuted`). -/
theorem C22_construct_partial (E : Env) (d : List (Str × V)) (i : V) (h : validate E .Contact (.dict d) = some i)
    (hd : lookup p!"email" d = none) (s : Str) (hn : '\n' ∉ s) :
    (validate E .Contact (.dict (d ++ [(p!"email", .str s)]))).isSome = true ↔ EmailForm s := by
  rw [(C22_construct E d i h hd _).1]
  constructor
  · rintro (h | ⟨_, h, h' | ⟨t, ht, _⟩⟩)
    · cases h
    · cases h; exact h'
    · cases h; exact absurd (by rw [ht]; simp) hn
  · intro h; exact .inr ⟨s, rfl, .inl h⟩

set_option maxRecDepth 10000 in
/-- **C22, refuted** for constructions. -/
theorem C22_construct_refuted :
    (validate plainEnv .Contact (.dict [(p!"email", .str p!"a@b.co\n")])).isSome = true ∧ ¬ EmailForm p!"a@b.co\n" :=
  ⟨by decide +kernel, C22_refuted.2⟩

/-! ### C23: the version of a document -/

theorem takes_version : Takes .AsyncAPI3 (defAsyncAPI3.fields[0]) p!"asyncapi" where
  mem := List.getElem_mem _
  name := rfl
  noAlias := rfl
  only := by
    intro g hg
    simp only [classDef, defAsyncAPI3, List.mem_cons, List.not_mem_nil, or_false] at hg
    rcases hg with rfl | rfl | rfl | rfl | rfl | rfl | rfl | rfl | rfl | rfl
    · intro h; exact absurd rfl h
    all_goals (intro _; exact ⟨by decide, by decide⟩)

theorem takes_converters : Takes .AsyncAPI3 (defAsyncAPI3.fields[8]) p!"extra_converters" where
  mem := List.getElem_mem _
  name := rfl
  noAlias := rfl
  only := by
    intro g hg
    simp only [classDef, defAsyncAPI3, List.mem_cons, List.not_mem_nil, or_false] at hg
    rcases hg with rfl | rfl | rfl | rfl | rfl | rfl | rfl | rfl | rfl | rfl
    all_goals first | (intro _; exact ⟨by decide, by decide⟩) | (intro h; exact absurd rfl h)

theorem takes_validators : Takes .AsyncAPI3 (defAsyncAPI3.fields[9]) p!"extra_validators" where
  mem := List.getElem_mem _
  name := rfl
  noAlias := rfl
  only := by
    intro g hg
    simp only [classDef, defAsyncAPI3, List.mem_cons, List.not_mem_nil, or_false] at hg
    rcases hg with rfl | rfl | rfl | rfl | rfl | rfl | rfl | rfl | rfl | rfl
    all_goals first | (intro _; exact ⟨by decide, by decide⟩) | (intro h; exact absurd rfl h)

theorem valueOf_absent {E : Env} {c : Cls} {f : FieldDef Cls} {k : Str} {d : List (Str × V)} (hf : Takes c f k)
    (hd : lookup k d = none) (hn : f.dflt = .null) : valueOf E c d f = .none := by
  unfold valueOf one findKey
  simp only [hf.noAlias, hf.name, hd, Option.map_none, hn]
  rfl

/-- A document without processors is not changed after its fields are checked. -/
theorem no_processors {E : Env} {d : List (Str × V)} (h1 : lookup p!"extra_converters" d = none)
    (h2 : lookup p!"extra_validators" d = none) :
    validate E .AsyncAPI3 (.dict d) = if allOk E .AsyncAPI3 d &&
      baseCheck E .AsyncAPI3 (.inst .AsyncAPI3 (fieldsOf E .AsyncAPI3 d) (extrasOf .AsyncAPI3 d) (setOf .AsyncAPI3 d))
      then some (.inst .AsyncAPI3 (fieldsOf E .AsyncAPI3 d) (extrasOf .AsyncAPI3 d) (setOf .AsyncAPI3 d)) else none := by
  have hk : (classDef Cls.AsyncAPI3).kind ≠ .patterned := by decide
  unfold validate
  rw [parse_model_dict E hk, construct_eq]
  have hafter : ∀ i, after E .AsyncAPI3 i = if baseCheck E .AsyncAPI3 i then (runProcessors E i).2 else none := by
    intro i; unfold after; simp [modelCheck]
  have hrun : runProcessors E (.inst .AsyncAPI3 (fieldsOf E .AsyncAPI3 d) (extrasOf .AsyncAPI3 d) (setOf .AsyncAPI3 d)) =
      ([], some (.inst .AsyncAPI3 (fieldsOf E .AsyncAPI3 d) (extrasOf .AsyncAPI3 d) (setOf .AsyncAPI3 d))) := by
    have e1 : (V.inst Cls.AsyncAPI3 (fieldsOf E .AsyncAPI3 d) (extrasOf .AsyncAPI3 d) (setOf .AsyncAPI3 d)).attr
        p!"extra_converters" = .none :=
      (attr_fieldsOf takes_converters.mem).trans (valueOf_absent takes_converters h1 rfl)
    have e2 : (V.inst Cls.AsyncAPI3 (fieldsOf E .AsyncAPI3 d) (extrasOf .AsyncAPI3 d) (setOf .AsyncAPI3 d)).attr
        p!"extra_validators" = .none :=
      (attr_fieldsOf takes_validators.mem).trans (valueOf_absent takes_validators h2 rfl)
    unfold runProcessors
    rw [e1]
    simp only [processorsOf, callAll, e2]
    rfl
  simp only [Option.getD_none, hafter, hrun]
  by_cases ha : allOk E .AsyncAPI3 d = true
  · by_cases hb : baseCheck E .AsyncAPI3 (.inst .AsyncAPI3 (fieldsOf E .AsyncAPI3 d) (extrasOf .AsyncAPI3 d) (setOf .AsyncAPI3 d)) = true
    · simp only [ha, hb, if_true, Bool.and_self, Option.map_some]
    · simp only [ha, hb, if_true, Bool.and_false, Bool.false_eq_true, if_false, Option.map_none]
  · simp only [ha, Bool.false_and, Bool.false_eq_true, if_false, Option.map_none]

/-- **C23.** Giving a version to the constructor of a document that works without and names no processors:
accepted exactly when it is a string with the documented form (perhaps with a newline at the end) and major
number 3; it is kept as given. -/
theorem C23_construct (E : Env) (d : List (Str × V)) (i : V) (h : validate E .AsyncAPI3 (.dict d) = some i)
    (hd : lookup p!"asyncapi" d = none) (h1 : lookup p!"extra_converters" d = none)
    (h2 : lookup p!"extra_validators" d = none) (x : V) :
    ((validate E .AsyncAPI3 (.dict (d ++ [(p!"asyncapi", x)]))).isSome = true ↔
      ∃ s, x = .str s ∧ VersionOk E.U E.digits s) ∧
    ∀ i', validate E .AsyncAPI3 (.dict (d ++ [(p!"asyncapi", x)])) = some i' →
      i'.attr p!"asyncapi" = x ∧ i'.extras = i.extras := by
  have hl : ∀ k, k ≠ p!"asyncapi" → lookup k d = none → lookup k (d ++ [(p!"asyncapi", x)]) = none := by
    intro k hk hn
    rw [lookup_other hk, hn]
  rw [no_processors h1 h2] at h
  rw [no_processors (hl _ (by decide) h1) (hl _ (by decide) h2)]
  split at h
  case isFalse => cases h
  rename_i hb
  rw [Bool.and_eq_true] at hb
  cases h
  have hb' : baseCheck E .AsyncAPI3 (.inst .AsyncAPI3 (fieldsOf E .AsyncAPI3 (d ++ [(p!"asyncapi", x)]))
      (extrasOf .AsyncAPI3 (d ++ [(p!"asyncapi", x)])) (setOf .AsyncAPI3 (d ++ [(p!"asyncapi", x)]))) = true := by
    rw [extrasOf_given takes_version hd]; exact hb.2
  have hiff := given_field (E := E) (x := x) takes_version hd hb.1
  have hstr : ∀ v sc, parse E x .str = some (v, sc) → v = x ∧ ∃ s, x = .str s := by
    intro v sc h
    rw [parse_eq_shape] at h
    cases x <;> cases h
    exact ⟨rfl, _, rfl⟩
  have hacc : allOk E .AsyncAPI3 (d ++ [(p!"asyncapi", x)]) = true ↔ ∃ s, x = .str s ∧ VersionOk E.U E.digits s := by
    rw [hiff.1]
    constructor
    · rintro ⟨v, ⟨sc, hv⟩, _, hc⟩
      obtain ⟨rfl, s, rfl⟩ := hstr v sc hv
      exact ⟨s, rfl, (C23_exact _ _ s).1 hc⟩
    · rintro ⟨s, rfl, hs⟩
      exact ⟨.str s, ⟨.exactly, rfl⟩, rfl, (C23_exact _ _ s).2 hs⟩
  rw [hb', Bool.and_true]
  constructor
  · rw [← hacc]
    split
    · rename_i ha; exact ⟨fun _ => ha, fun _ => rfl⟩
    · rename_i ha; exact ⟨fun h => (by cases h), fun h => absurd h ha⟩
  · intro i' h'
    split at h'
    · rename_i ha
      cases h'
      refine ⟨?_, by rw [extrasOf_given takes_version hd]; rfl⟩
      obtain ⟨v, ⟨sc, hv⟩, hl, hc⟩ := hiff.1.1 ha
      exact (attr_fieldsOf takes_version.mem).trans ((hiff.2 _ _ hv hl hc).trans (hstr v sc hv).1)
    · cases h'

/-! ### Concrete cases -/

set_option maxRecDepth 10000

/-- C20: two channels, the second with an address; and a key with a space. -/
example : (validate plainEnv .Channels (.dict [(p!"a-1", .dict []), (p!"b_2", .dict [(p!"address", .str p!"b")])])).isSome
    = true := by decide +kernel
example : (validate plainEnv .Channels (.dict [(p!"a 1", .dict [])])).isSome = false := by decide +kernel
/-- C21: the hypotheses hold for `Contact`, an extension name and a name that is none. -/
example : (validate plainEnv .Contact (.dict [(p!"name", .str p!"me")])).isSome = true ∧
    (∀ f ∈ (classDef .Contact).fields, f.name ≠ p!"x-id" ∧ f.alias ≠ some p!"x-id") ∧
    (validate plainEnv .Contact (.dict ([(p!"name", .str p!"me")] ++ [(p!"x-id", .int 1)]))).isSome = true ∧
    (validate plainEnv .Contact (.dict ([(p!"name", .str p!"me")] ++ [(p!"id", .int 1)]))).isSome = false := by
  refine ⟨by decide +kernel, ?_, by decide +kernel, by decide +kernel⟩
  intro f hf
  simp only [classDef, defContact, List.mem_cons, List.not_mem_nil, or_false] at hf
  rcases hf with rfl | rfl | rfl <;> exact ⟨by decide, by decide⟩
/-- C22 -/
example : (validate plainEnv .Contact (.dict [(p!"name", .str p!"me")])).isSome = true ∧
    (validate plainEnv .Contact (.dict ([(p!"name", .str p!"me")] ++ [(p!"email", .str p!"me@x.org")]))).isSome = true ∧
    (validate plainEnv .Contact (.dict ([(p!"name", .str p!"me")] ++ [(p!"email", .str p!"me@x..org")]))).isSome = false := by
  decide +kernel
/-- C23 -/
example : (validate plainEnv .AsyncAPI3 (.dict [(p!"info", .dict [(p!"title", .str p!"t"), (p!"version", .str p!"1")])])).isSome
      = true ∧
    (validate plainEnv .AsyncAPI3 (.dict ([(p!"info", .dict [(p!"title", .str p!"t"), (p!"version", .str p!"1")])] ++
      [(p!"asyncapi", .str p!"3.1.0")]))).isSome = true ∧
    (validate plainEnv .AsyncAPI3 (.dict ([(p!"info", .dict [(p!"title", .str p!"t"), (p!"version", .str p!"1")])] ++
      [(p!"asyncapi", .str p!"2.6.0")]))).isSome = false := by decide +kernel

end Verif.Props
