import Verif.Model.Copy
import Verif.Spec.Copy
import Verif.Lemmas.Sharing
import Verif.Lemmas.Fieldwise
/-!
# Lemmas about copies
-/
namespace Verif.Copy
open Verif Verif.Gen Verif.Spec Verif.Pyd Verif.Sharing

theorem deepItems_eq (m : Nat → Nat) (l : List Ob) : deepItems m l = l.map (deep m) := by
  induction l with
  | nil => rfl
  | cons x l ih => simp only [deepItems, ih, List.map_cons]

theorem deepEntries_eq (m : Nat → Nat) (d : List (Str × Ob)) : deepEntries m d = d.map fun e => (e.1, deep m e.2) := by
  induction d with
  | nil => rfl
  | cons e d ih => obtain ⟨k, x⟩ := e; simp only [deepEntries, ih, List.map_cons]

theorem deepEntries_val (m : Nat → Nat) (d : List (Str × Ob)) (h : ∀ e ∈ d, (deep m e.2).val = e.2.val) :
    obEntries (deepEntries m d) = obEntries d := by
  rw [obEntries_eq, obEntries_eq, deepEntries_eq, List.map_map]
  apply List.map_congr_left
  intro e he
  simp only [Function.comp, h e he]

theorem deep_val (m : Nat → Nat) (x : Ob) : (deep m x).val = x.val := by
  induction x using Ob.ind with
  | list id l ih =>
    simp only [deep, Ob.val, obVals_eq, deepItems_eq, List.map_map]
    congr 1
    apply List.map_congr_left
    intro w hw; exact ih w hw
  | dict id d ih => simp only [deep, Ob.val]; rw [deepEntries_val m d ih]
  | inst id c fs ex set ih ih' => simp only [deep, Ob.val]; rw [deepEntries_val m fs ih, deepEntries_val m ex ih']
  | _ => rfl

theorem entry_deep {m : Nat → Nat} {d : List (Str × Ob)} {k : Str} {w : Ob} :
    (k, w) ∈ deepEntries m d ↔ ∃ w', (k, w') ∈ d ∧ w = deep m w' := by
  rw [deepEntries_eq, List.mem_map]
  constructor
  · rintro ⟨⟨k', w'⟩, he, h⟩
    cases h; exact ⟨w', he, rfl⟩
  · rintro ⟨w', he, rfl⟩; exact ⟨(k, w'), he, rfl⟩

theorem partOf_deep {m : Nat → Nat} (x : Ob) : ∀ w, PartOf (deep m x) w ↔ ∃ w', PartOf x w' ∧ w = deep m w' := by
  induction x using Ob.ind with
  | list id l ih =>
    intro w
    constructor
    · intro h
      simp only [deep] at h
      cases h with
      | self => exact ⟨_, .self _, rfl⟩
      | item hw hp =>
        rw [deepItems_eq, List.mem_map] at hw
        obtain ⟨y, hy, rfl⟩ := hw
        obtain ⟨w', h1, h2⟩ := (ih y hy w).1 hp
        exact ⟨w', .item hy h1, h2⟩
    · rintro ⟨w', h, rfl⟩
      cases h with
      | self => exact .self _
      | item hw hp =>
        simp only [deep]
        exact .item (by rw [deepItems_eq]; exact List.mem_map_of_mem hw) ((ih _ hw _).2 ⟨_, hp, rfl⟩)
  | dict id d ih =>
    intro w
    constructor
    · intro h
      simp only [deep] at h
      cases h with
      | self => exact ⟨_, .self _, rfl⟩
      | entry hw hp =>
        obtain ⟨y, hy, rfl⟩ := entry_deep.1 hw
        obtain ⟨w', h1, h2⟩ := (ih _ hy w).1 hp
        exact ⟨w', .entry hy h1, h2⟩
    · rintro ⟨w', h, rfl⟩
      cases h with
      | self => exact .self _
      | entry hw hp =>
        simp only [deep]
        exact .entry (entry_deep.2 ⟨_, hw, rfl⟩) ((ih _ hw _).2 ⟨_, hp, rfl⟩)
  | inst id c fs ex set ih ih' =>
    intro w
    constructor
    · intro h
      simp only [deep] at h
      cases h with
      | self => exact ⟨_, .self _, rfl⟩
      | field hw hp =>
        obtain ⟨y, hy, rfl⟩ := entry_deep.1 hw
        obtain ⟨w', h1, h2⟩ := (ih _ hy w).1 hp
        exact ⟨w', .field hy h1, h2⟩
      | extra hw hp =>
        obtain ⟨y, hy, rfl⟩ := entry_deep.1 hw
        obtain ⟨w', h1, h2⟩ := (ih' _ hy w).1 hp
        exact ⟨w', .extra hy h1, h2⟩
    · rintro ⟨w', h, rfl⟩
      cases h with
      | self => exact .self _
      | field hw hp =>
        simp only [deep]
        exact .field (entry_deep.2 ⟨_, hw, rfl⟩) ((ih _ hw _).2 ⟨_, hp, rfl⟩)
      | extra hw hp =>
        simp only [deep]
        exact .extra (entry_deep.2 ⟨_, hw, rfl⟩) ((ih' _ hw _).2 ⟨_, hp, rfl⟩)
  | _ =>
    intro w
    constructor
    · intro h; cases h; exact ⟨_, .self _, rfl⟩
    · rintro ⟨w', h, rfl⟩; cases h; exact .self _

theorem id_deep (m : Nat → Nat) (x : Ob) : (deep m x).id = x.id.map m := by cases x <;> rfl

theorem contains_deep {m : Nat → Nat} {x : Ob} {n : Nat} : Contains (deep m x) n ↔ ∃ j, Contains x j ∧ n = m j := by
  unfold Contains
  constructor
  · rintro ⟨w, hw, hid⟩
    obtain ⟨w', h1, rfl⟩ := (partOf_deep x w).1 hw
    rw [id_deep, Option.map_eq_some_iff] at hid
    obtain ⟨j, hj, rfl⟩ := hid
    exact ⟨j, ⟨w', h1, hj⟩, rfl⟩
  · rintro ⟨j, ⟨w', h1, hj⟩, rfl⟩
    exact ⟨deep m w', (partOf_deep x _).2 ⟨w', h1, rfl⟩, by rw [id_deep, hj]; rfl⟩

/-- A change of a copy is the copy of the change. -/
theorem deep_changed {m : Nat → Nat} (hm : Function.Injective m) (n : Nat) (f g : Ob → Ob)
    (hfg : ∀ o, g (deep m o) = deep m (f o)) (x : Ob) : changed (m n) g (deep m x) = deep m (changed n f x) := by
  have hid : ∀ id : Option Nat, id.map m = some (m n) ↔ id = some n := by
    intro id
    cases id with
    | none => simp
    | some k => simp only [Option.map_some, Option.some.injEq]; exact ⟨fun h => hm h, fun h => by rw [h]⟩
  have entries : ∀ d : List (Str × Ob), (∀ e ∈ d, changed (m n) g (deep m e.2) = deep m (changed n f e.2)) →
      changedEntries (m n) g (deepEntries m d) = deepEntries m (changedEntries n f d) := by
    intro d hd
    induction d with
    | nil => rfl
    | cons e d ih =>
      obtain ⟨k, x⟩ := e
      simp only [deepEntries, changedEntries]
      rw [hd (k, x) (List.mem_cons_self ..), ih fun e he => hd e (List.mem_cons_of_mem _ he)]
  induction x using Ob.ind with
  | list id l ih =>
    by_cases h : id = some n
    · have := hfg (.list id l)
      simp only [deep, changed] at this ⊢
      rw [if_pos ((hid id).2 h), if_pos h]; exact this
    · simp only [deep, changed]
      rw [if_neg (fun h' => h ((hid id).1 h')), if_neg h]
      simp only [deep]
      congr 1
      clear hfg h
      induction l with
      | nil => rfl
      | cons y l ih2 =>
        simp only [deepItems, changedItems]
        rw [ih y (List.mem_cons_self ..), ih2 fun w hw => ih w (List.mem_cons_of_mem _ hw)]
  | dict id d ih =>
    by_cases h : id = some n
    · have := hfg (.dict id d)
      simp only [deep, changed] at this ⊢
      rw [if_pos ((hid id).2 h), if_pos h]; exact this
    · simp only [deep, changed]
      rw [if_neg (fun h' => h ((hid id).1 h')), if_neg h]
      simp only [deep]
      rw [entries d ih]
  | inst id c fs ex set ih ih' =>
    by_cases h : id = some n
    · have := hfg (.inst id c fs ex set)
      simp only [deep, changed] at this ⊢
      rw [if_pos ((hid id).2 h), if_pos h]; exact this
    · simp only [deep, changed]
      rw [if_neg (fun h' => h ((hid id).1 h')), if_neg h]
      simp only [deep]
      rw [entries fs ih, entries ex ih']
  | _ => rfl

theorem mirror_entries {m : Nat → Nat} {d : List (Str × Ob)} (h : ∀ e ∈ d, Mirror m e.2 (deep m e.2)) :
    d.map (·.1) = (deepEntries m d).map (·.1) ∧
    ∀ (i : Nat) v w, d[i]? = some v → (deepEntries m d)[i]? = some w → Mirror m v.2 w.2 := by
  rw [deepEntries_eq]
  refine ⟨by simp [List.map_map, Function.comp_def], fun i v w hv hw => ?_⟩
  rw [List.getElem?_map, hv] at hw
  simp only [Option.map_some, Option.some.injEq] at hw
  subst hw
  exact h v (List.mem_of_getElem? hv)

theorem mirror_deep (m : Nat → Nat) (x : Ob) : Mirror m x (deep m x) := by
  induction x using Ob.ind with
  | list id l ih =>
    simp only [deep]
    refine .list (by rw [deepItems_eq, List.length_map]) fun i v w hv hw => ?_
    rw [deepItems_eq, List.getElem?_map, hv] at hw
    simp only [Option.map_some, Option.some.injEq] at hw
    subst hw
    exact ih v (List.mem_of_getElem? hv)
  | dict id d ih =>
    simp only [deep]
    exact .dict (mirror_entries ih).1 (mirror_entries ih).2
  | inst id c fs ex set ih ih' =>
    simp only [deep]
    exact .inst (mirror_entries ih).1 (mirror_entries ih).2 (mirror_entries ih').1 (mirror_entries ih').2
  | none => exact .none
  | bool => exact .bool
  | int => exact .int
  | float => exact .float
  | str => exact .str
  | url => exact .url
  | proc => exact .proc

theorem history_same (l : List (Nat × (Ob → Ob))) (y : Ob) (h : ∀ e ∈ l, ¬ Contains y e.1) : history l y = y := by
  induction l with
  | nil => rfl
  | cons e l ih =>
    simp only [history, List.foldl_cons]
    rw [changed_same e.1 e.2 y fun w hw hid => h e (List.mem_cons_self ..) ⟨w, hw, hid⟩]
    exact ih fun e he => h e (List.mem_cons_of_mem _ he)

/-! ### Updates -/

theorem lookup_mem_iff {β : Type} {d : List (Str × β)} (hd : (d.map (·.1)).Nodup) {k : Str} {v : β} :
    lookup k d = some v ↔ (k, v) ∈ d := by
  refine ⟨lookup_some_mem, fun h => ?_⟩
  induction d with
  | nil => cases h
  | cons e d ih =>
    obtain ⟨k', v'⟩ := e
    simp only [List.map_cons, List.nodup_cons] at hd
    simp only [lookup]
    rcases List.mem_cons.1 h with h | h
    · cases h; rw [if_pos rfl]
    · rw [if_neg (fun e : k' = k => hd.1 (by rw [e]; exact List.mem_map_of_mem (f := (·.1)) h)), ih hd.2 h]

/-- What an entry of `update` does to the fields and extra fields. -/
theorem updateAll_parts (c : Cls) (u : List (Str × Ob)) : ∀ (id : Option Nat) (fs ex : List (Str × Ob)) (set : List Str),
    (u.map (·.1)).Nodup → ∃ fs' ex' set', updateAll (.inst id c fs ex set) u = .inst id c fs' ex' set' ∧
      (∀ k, (fieldOf c k).isSome ∨ ((classDef c).kind = .nonExtendable ∨ (classDef c).kind = .patterned) →
        lookup k fs' = (lookup k u).or (lookup k fs)) ∧
      (∀ k, fieldOf c k = none → (classDef c).kind = .extendable ∨ (classDef c).kind = .openExtra →
        lookup k ex' = (lookup k u).or (lookup k ex) ∧ lookup k fs' = lookup k fs) ∧
      (∀ k, (fieldOf c k).isSome → lookup k ex' = lookup k ex) ∧
      ((classDef c).kind = .nonExtendable ∨ (classDef c).kind = .patterned → ex' = ex) ∧
      (∀ k, k ∈ set' ↔ k ∈ set ∨ k ∈ u.map (·.1)) := by
  induction u with
  | nil =>
    intro id fs ex set _
    refine ⟨fs, ex, set, rfl, ?_, ?_, ?_, ?_, ?_⟩ <;> simp [lookup]
  | cons e u ih =>
    obtain ⟨k0, v0⟩ := e
    intro id fs ex set hn
    simp only [List.map_cons, List.nodup_cons] at hn
    have hk0 : lookup k0 u = none := by
      cases h : lookup k0 u with
      | none => rfl
      | some w => exact absurd (List.mem_map_of_mem (f := (·.1)) (lookup_some_mem h)) hn.1
    have hset : ∀ k, k ∈ Mutate.addSet set k0 ↔ k ∈ set ∨ k = k0 := by
      intro k
      unfold Mutate.addSet
      split
      · rename_i h
        have h := List.contains_iff_mem.1 h
        constructor
        · exact .inl
        · rintro (h' | rfl)
          · exact h'
          · exact h
      · simp
    have hl : ∀ k, lookup k ((k0, v0) :: u) = if k = k0 then some v0 else lookup k u := by
      intro k; simp only [lookup, eq_comm]
    have hor : ∀ (d : List (Str × Ob)) k, (lookup k u).or (lookup k (put d k0 v0)) = (lookup k ((k0, v0) :: u)).or (lookup k d) := by
      intro d k
      rw [find_put, hl]
      by_cases h : k = k0
      · subst h; rw [if_pos rfl, if_pos rfl, hk0]; rfl
      · rw [if_neg h, if_neg h]
    have hother : ∀ (d : List (Str × Ob)) k, k ≠ k0 → lookup k (put d k0 v0) = lookup k d := by
      intro d k h; rw [find_put, if_neg h]
    have keep : ∀ k, k ≠ k0 → lookup k ((k0, v0) :: u) = lookup k u := by
      intro k h; rw [hl, if_neg h]
    simp only [updateAll, updateOne]
    generalize hK : (classDef c).kind = K
    simp only [hK] at ih
    have mem : ∀ (set' : List Str), (∀ k, k ∈ set' ↔ k ∈ Mutate.addSet set k0 ∨ k ∈ u.map (·.1)) →
        ∀ k, k ∈ set' ↔ k ∈ set ∨ k ∈ List.map (·.1) ((k0, v0) :: u) := by
      intro set' h k
      rw [h, hset, List.map_cons, List.mem_cons, or_assoc]
    by_cases hopen : K = .extendable ∨ K = .openExtra
    · have hcl : ¬ (K = .nonExtendable ∨ K = .patterned) := by
        rcases hopen with rfl | rfl <;> simp
      cases hf : fieldOf c k0 with
      | some f =>
        obtain ⟨fs', ex', set', h1, h2, h3, h4, h5, h6⟩ := ih id (put fs k0 v0) ex (Mutate.addSet set k0) hn.2
        refine ⟨fs', ex', set', ?_, fun k hk => ?_, fun k hk ho => ?_, h4, h5, mem _ h6⟩
        · rcases hopen with rfl | rfl <;> simpa [hf] using h1
        · rw [h2 k hk, hor]
        · have hne : k ≠ k0 := by rintro rfl; rw [hf] at hk; cases hk
          obtain ⟨h7, h8⟩ := h3 k hk ho
          exact ⟨by rw [h7, keep k hne], by rw [h8, hother fs k hne]⟩
      | none =>
        obtain ⟨fs', ex', set', h1, h2, h3, h4, h5, h6⟩ := ih id fs (put ex k0 v0) (Mutate.addSet set k0) hn.2
        refine ⟨fs', ex', set', ?_, fun k hk => ?_, fun k hk ho => ?_, fun k hk => ?_, fun h => absurd h hcl, mem _ h6⟩
        · rcases hopen with rfl | rfl <;> simpa [hf] using h1
        · have hk' := hk.resolve_right hcl
          have hne : k ≠ k0 := by rintro rfl; rw [hf] at hk'; cases hk'
          rw [h2 k hk, keep k hne]
        · obtain ⟨h7, h8⟩ := h3 k hk ho
          exact ⟨by rw [h7, hor], h8⟩
        · have hne : k ≠ k0 := by rintro rfl; rw [hf] at hk; cases hk
          rw [h4 k hk, hother ex k hne]
    · have hcl : K = .nonExtendable ∨ K = .patterned := by
        cases K <;> simp at hopen ⊢
      obtain ⟨fs', ex', set', h1, h2, h3, h4, h5, h6⟩ := ih id (put fs k0 v0) ex (Mutate.addSet set k0) hn.2
      refine ⟨fs', ex', set', ?_, fun k hk => ?_, fun k hk ho => absurd ho hopen, h4, h5, mem _ h6⟩
      · rcases hcl with rfl | rfl <;> exact h1
      · rw [h2 k (.inr hcl), hor]

theorem keys_put {d : List (Str × Ob)} {k : Str} {v : Ob} (h : k ∈ d.map (·.1)) : (put d k v).map (·.1) = d.map (·.1) := by
  induction d with
  | nil => cases h
  | cons e d ih =>
    simp only [put]
    split
    · rename_i he; simp [he]
    · rename_i he
      simp only [List.map_cons, List.mem_cons] at h
      rw [List.map_cons, List.map_cons, ih (h.resolve_left fun h => he h.symm)]

/-- If only fields are updated that are there, the same fields are there afterwards. -/
theorem updateAll_keys (c : Cls) (u : List (Str × Ob)) : ∀ (id : Option Nat) (fs ex : List (Str × Ob)) (set : List Str),
    (∀ e ∈ u, (fieldOf c e.1).isSome ∨ (classDef c).kind = .nonExtendable ∨ (classDef c).kind = .patterned →
      e.1 ∈ fs.map (·.1)) →
    ∃ fs' ex' set', updateAll (.inst id c fs ex set) u = .inst id c fs' ex' set' ∧ fs'.map (·.1) = fs.map (·.1) := by
  induction u with
  | nil => intro id fs ex set _; exact ⟨_, _, _, rfl, rfl⟩
  | cons e u ih =>
    obtain ⟨k0, v0⟩ := e
    intro id fs ex set h
    have h0 := h _ (List.mem_cons_self ..)
    have hrest := fun e he => h e (List.mem_cons_of_mem (k0, v0) he)
    have step : ∀ set', k0 ∈ fs.map (·.1) → ∃ fs' ex' set'', updateAll (.inst id c (put fs k0 v0) ex set') u = .inst id c fs' ex' set'' ∧
        fs'.map (·.1) = fs.map (·.1) := by
      intro set' hk
      obtain ⟨fs', ex', set'', h1, h2⟩ := ih id (put fs k0 v0) ex set' (by rw [keys_put hk]; exact hrest)
      exact ⟨fs', ex', set'', h1, by rw [h2, keys_put hk]⟩
    simp only [updateAll, updateOne]
    cases hK : (classDef c).kind with
    | nonExtendable => exact step _ (h0 (.inr (.inl hK)))
    | patterned => exact step _ (h0 (.inr (.inr hK)))
    | extendable =>
      cases hf : fieldOf c k0 with
      | some f => simpa [hf] using step _ (h0 (.inl (by simp only [hf]; rfl)))
      | none => simpa [hf] using ih id fs (put ex k0 v0) (Mutate.addSet set k0) hrest
    | openExtra =>
      cases hf : fieldOf c k0 with
      | some f => simpa [hf] using step _ (h0 (.inl (by simp only [hf]; rfl)))
      | none => simpa [hf] using ih id fs (put ex k0 v0) (Mutate.addSet set k0) hrest

theorem lookup_obEntries (k : Str) (d : List (Str × Ob)) : lookup k (obEntries d) = (lookup k d).map Ob.val := by
  rw [obEntries_eq, lookup_map]

theorem keys_obEntries (d : List (Str × Ob)) : (obEntries d).map (·.1) = d.map (·.1) := by
  rw [obEntries_eq, List.map_map]; rfl

/-! ### Construction without validation -/

theorem constructFields_used (d : List (Str × V)) (L : List (FieldDef Cls)) :
    (constructFields d L).2.2 = L.filterMap fun f => (findKey f d).map (·.1) := by
  induction L with
  | nil => rfl
  | cons f L ih =>
    simp only [constructFields, List.filterMap_cons]
    cases findKey f d with
    | some kv => obtain ⟨k, v⟩ := kv; simp only [ih, Option.map_some]
    | none =>
      cases dfltValue f.dflt with
      | some v => simpa using ih
      | none => simpa using ih

theorem constructFields_names (d : List (Str × V)) (L : List (FieldDef Cls)) (k : Str)
    (h : ∀ f ∈ L, f.name ≠ k) : lookup k (constructFields d L).1 = none := by
  induction L with
  | nil => rfl
  | cons f L ih =>
    have ih := ih fun g hg => h g (List.mem_cons_of_mem _ hg)
    have hk := h f (List.mem_cons_self ..)
    simp only [constructFields]
    cases findKey f d with
    | some kv => obtain ⟨k', v⟩ := kv; simp only [lookup, if_neg hk, ih]
    | none =>
      cases dfltValue f.dflt with
      | some v => simp only [lookup, if_neg hk, ih]
      | none => exact ih

theorem constructFields_find (d : List (Str × V)) (L : List (FieldDef Cls)) (hn : (L.map (·.name)).Nodup) (f : FieldDef Cls)
    (hf : f ∈ L) : lookup f.name (constructFields d L).1 = match findKey f d with
      | some (_, v) => some v
      | none => dfltValue f.dflt := by
  induction L with
  | nil => cases hf
  | cons g L ih =>
    simp only [List.map_cons, List.nodup_cons] at hn
    have hfresh : lookup g.name (constructFields d L).1 = none :=
      constructFields_names d L g.name fun h hh e => hn.1 (e ▸ List.mem_map_of_mem hh)
    rcases List.mem_cons.1 hf with rfl | hf
    · simp only [constructFields]
      cases findKey f d with
      | some kv => obtain ⟨k', v⟩ := kv; simp only [lookup, if_true]
      | none =>
        cases dfltValue f.dflt with
        | some v => simp only [lookup, if_true]
        | none => exact hfresh
    · have hne : ¬ g.name = f.name := fun e => hn.1 (e ▸ List.mem_map_of_mem hf)
      have ih := ih hn.2 hf
      simp only [constructFields]
      cases findKey g d with
      | some kv => obtain ⟨k', v⟩ := kv; simp only [lookup, if_neg hne]; exact ih
      | none =>
        cases dfltValue g.dflt with
        | some v => simp only [lookup, if_neg hne]; exact ih
        | none => exact ih

/-- If every required field is given, the fields are the declared ones, in order. -/
theorem constructFields_full (d : List (Str × V)) (L : List (FieldDef Cls)) (val : FieldDef Cls → V)
    (h : ∀ f ∈ L, (match findKey f d with
      | some (_, v) => some v
      | none => dfltValue f.dflt) = some (val f)) : (constructFields d L).1 = L.map fun f => (f.name, val f) := by
  induction L with
  | nil => rfl
  | cons f L ih =>
    have hf := h f (List.mem_cons_self ..)
    have ih := ih fun g hg => h g (List.mem_cons_of_mem _ hg)
    simp only [constructFields, List.map_cons]
    cases hk : findKey f d with
    | some kv =>
      obtain ⟨k', v⟩ := kv
      rw [hk] at hf
      simp only [Option.some.injEq] at hf
      simp only [ih, hf]
    | none =>
      rw [hk] at hf
      simp only at hf
      simp only [hf, ih]

end Verif.Copy
