import Verif.Model.Pyd
import Verif.Spec.Fields
import Verif.Props.Patterns
/-! Construction of instances, in closed form. -/
namespace Verif.Pyd
open Verif Verif.Gen Verif.Spec

theorem isNone_iff {v : V} : v.isNone = true ↔ v = .none := by
  cases v <;> simp [V.isNone]
theorem isNone_false {v : V} : v.isNone = false ↔ v ≠ .none := by
  cases v <;> simp [V.isNone]

/-! ### Lookup -/

theorem lookup_entries (E : Env) (k : Str) (d : List (Str × V)) :
    lookup k (entries E d) = (lookup k d).map fun v => (v, parse E v) := by
  induction d with
  | nil => rfl
  | cons e d ih =>
    obtain ⟨k', v⟩ := e
    simp only [entries, lookup]
    split
    · rfl
    · exact ih

theorem entries_map (E : Env) (d : List (Str × V)) :
    entries E d = d.map fun e => (e.1, e.2, parse E e.2) := by
  induction d with
  | nil => rfl
  | cons e d ih => obtain ⟨k, v⟩ := e; simp only [entries, List.map_cons, ih]

theorem parsers_map (E : Env) (l : List V) : parsers E l = l.map (parse E) := by
  induction l with
  | nil => rfl
  | cons v l ih => simp only [parsers, List.map_cons, ih]

theorem lookup_map {α β : Type} (g : α → β) (k : Str) (d : List (Str × α)) :
    lookup k (d.map fun e => (e.1, g e.2)) = (lookup k d).map g := by
  induction d with
  | nil => rfl
  | cons e d ih =>
    obtain ⟨k', v⟩ := e
    simp only [List.map_cons, lookup]
    split
    · rfl
    · exact ih

/-- Looking up a key in a list of named things. -/
theorem lookup_named {α β : Type} (name : α → Str) (val : α → β) {l : List α}
    (hn : (l.map name).Nodup) {f : α} (hf : f ∈ l) :
    lookup (name f) (l.map fun f => (name f, val f)) = some (val f) := by
  induction l with
  | nil => cases hf
  | cons a l ih =>
    simp only [List.map_cons, List.nodup_cons] at hn
    simp only [List.map_cons, lookup]
    split
    · rename_i h
      rcases List.mem_cons.1 hf with rfl | hf
      · rfl
      · exact absurd (List.mem_map.2 ⟨f, hf, h.symm⟩) hn.1
    · rename_i h
      rcases List.mem_cons.1 hf with rfl | hf
      · exact absurd rfl h
      · exact ih hn.2 hf

/-! ### One field -/

/-- The outcome of one field. -/
def one (E : Env) (c : Cls) (d : List (Str × V)) (f : FieldDef Cls) : Option (V × Score) :=
  match findKey f d with
  | some (_, x) => match parse E x f.ty with
    | some (v, sc) => if lengthOk f.maxLen v && fieldCheck E c f.name v then some (v, sc.and ⟨2, some 1⟩) else none
    | none => none
  | none => (dfltValue f.dflt).map fun v => (v, .exactly)

theorem findKey_entries (E : Env) (f : FieldDef Cls) (d : List (Str × V)) :
    findKey f (entries E d) = (findKey f d).map fun e => (e.1, e.2, parse E e.2) := by
  unfold findKey
  cases ha : f.alias with
  | none => simp only [lookup_entries]; cases lookup f.name d <;> rfl
  | some a =>
    simp only [lookup_entries]
    cases lookup a d with
    | some x => rfl
    | none => simp only [Option.map_none]; cases lookup f.name d <;> rfl

/-- Score of a list of fields. -/
def fieldsScore (E : Env) (c : Cls) (d : List (Str × V)) : List (FieldDef Cls) → Score
  | [] => .exactly
  | f :: rest => match findKey f d with
    | some (_, x) => match parse E x f.ty with
      | some (_, sc) => sc.and ((fieldsScore E c d rest).and ⟨2, some 1⟩)
      | none => fieldsScore E c d rest
    | none => fieldsScore E c d rest

/-- The value of one field. -/
def valueOf (E : Env) (c : Cls) (d : List (Str × V)) (f : FieldDef Cls) : V :=
  match one E c d f with
  | some (v, _) => v
  | none => .none

theorem parseFields_eq (E : Env) (c : Cls) (d : List (Str × V)) (L : List (FieldDef Cls)) :
    parseFields E c (entries E d) L =
      if L.all (fun f => (one E c d f).isSome) then
        some ⟨L.map fun f => (f.name, valueOf E c d f), (L.filter fun f => (findKey f d).isSome).map (·.name),
          L.filterMap fun f => (findKey f d).map (·.1), fieldsScore E c d L⟩
      else none := by
  induction L with
  | nil => rfl
  | cons f rest ih =>
    simp only [parseFields, findKey_entries, List.all_cons, List.map_cons, List.filter_cons, List.filterMap_cons,
      fieldsScore]
    cases hk : findKey f d with
    | none =>
      simp only [Option.map_none, Option.isSome_none, Bool.false_eq_true, if_false]
      cases hd : dfltValue f.dflt with
      | none =>
        have ho : one E c d f = none := by unfold one; rw [hk, hd]; rfl
        simp [ho]
      | some v =>
        have ho : one E c d f = some (v, .exactly) := by unfold one; rw [hk, hd]; rfl
        have hv : valueOf E c d f = v := by unfold valueOf; rw [ho]
        simp only [ho, hv, Option.isSome_some, Bool.true_and, ih]
        by_cases h' : (rest.all fun f => (one E c d f).isSome) = true
        · simp only [h', if_true]
        · simp only [h', Bool.false_eq_true, if_false]
    | some kx =>
      obtain ⟨k, x⟩ := kx
      simp only [Option.map_some, Option.isSome_some, if_true]
      cases hp : parse E x f.ty with
      | none =>
        have ho : one E c d f = none := by unfold one; rw [hk]; simp only [hp]
        simp [ho]
      | some vs =>
        obtain ⟨v, sc⟩ := vs
        simp only
        by_cases hc : (lengthOk f.maxLen v && fieldCheck E c f.name v) = true
        · have ho : one E c d f = some (v, sc.and ⟨2, some 1⟩) := by
            unfold one; rw [hk]; simp only [hp]; rw [if_pos hc]
          have hv : valueOf E c d f = v := by unfold valueOf; rw [ho]
          simp only [hc, if_true, ho, hv, Option.isSome_some, Bool.true_and, ih, List.map_cons]
          by_cases h' : (rest.all fun f => (one E c d f).isSome) = true
          · simp only [h', if_true]
          · simp only [h', Bool.false_eq_true, if_false]
        · have ho : one E c d f = none := by
            unfold one; rw [hk]; simp only [hp]; rw [if_neg hc]
          simp only [hc, Bool.false_eq_true, if_false, ho, Option.isSome_none, Bool.false_and]

theorem unused_entries (E : Env) (used : List Str) (d : List (Str × V)) :
    unused used (entries E d) = d.filter fun e => !(used.contains e.1) := by
  rw [entries_map]
  unfold unused
  induction d with
  | nil => rfl
  | cons e d ih =>
    obtain ⟨k, v⟩ := e
    simp only [List.map_cons, List.filter_cons]
    split
    · simp only [List.map_cons, ih]
    · exact ih

/-- The keys the declared fields of `c` take from `d`. -/
def usedKeys (c : Cls) (d : List (Str × V)) : List Str :=
  (classDef c).fields.filterMap fun f => (findKey f d).map (·.1)

/-- The extra fields. -/
def extrasOf (c : Cls) (d : List (Str × V)) : List (Str × V) :=
  d.filter fun e => !((usedKeys c d).contains e.1)

/-- The fields that were given. -/
def setOf (c : Cls) (d : List (Str × V)) : List Str :=
  ((classDef c).fields.filter fun f => (findKey f d).isSome).map (·.name) ++ (extrasOf c d).map (·.1)

/-- Fields all right one by one. -/
def allOk (E : Env) (c : Cls) (d : List (Str × V)) : Bool :=
  (classDef c).fields.all (fun f => (one E c d f).isSome) &&
    !((classDef c).kind == .nonExtendable && !(extrasOf c d).isEmpty)

/-- The declared fields of the instance. -/
def fieldsOf (E : Env) (c : Cls) (d : List (Str × V)) : List (Str × V) :=
  (classDef c).fields.map fun f => (f.name, valueOf E c d f)

theorem construct_eq (E : Env) (c : Cls) (d : List (Str × V)) (set? : Option (List Str)) (floor : Nat) :
    construct E c (entries E d) set? floor =
      if allOk E c d then
        (after E c (.inst c (fieldsOf E c d) (extrasOf c d) (set?.getD (setOf c d)))).map fun i =>
          (i, (fieldsScore E c d (classDef c).fields).and ⟨floor, some 0⟩)
      else none := by
  unfold construct
  rw [parseFields_eq]
  by_cases h : ((classDef c).fields.all fun f => (one E c d f).isSome) = true
  · simp only [h, if_true, unused_entries]
    have hx : (d.filter fun e => !(((classDef c).fields.filterMap fun f => (findKey f d).map (·.1)).contains e.1)) =
        extrasOf c d := rfl
    rw [hx]
    unfold allOk
    simp only [h, Bool.true_and]
    by_cases hk : (classDef c).kind = .nonExtendable ∧ extrasOf c d ≠ []
    · rw [if_pos hk]
      have : ((classDef c).kind == .nonExtendable && !(extrasOf c d).isEmpty) = true := by
        simp [hk.1, hk.2]
      rw [this]; rfl
    · rw [if_neg hk]
      have : ((classDef c).kind == .nonExtendable && !(extrasOf c d).isEmpty) = false := by
        simpa [Classical.not_and_iff_not_or_not] using hk
      rw [this]
      simp only [Bool.not_false, if_true]
      change (match after E c (.inst c (fieldsOf E c d) (extrasOf c d) (set?.getD (setOf c d))) with
        | none => none | some i => _) = _
      cases after E c (.inst c (fieldsOf E c d) (extrasOf c d) (set?.getD (setOf c d))) <;> rfl
  · simp only [h]
    unfold allOk
    simp only [h, Bool.false_and]; rfl

end Verif.Pyd
