import Verif.Model.DumpWith
import Verif.Spec.DumpWith
import Verif.Props.Delete
/-!
# C76: writing with options

`model_dump(mode="json", by_alias=..., exclude_unset=..., exclude_defaults=..., exclude_none=...)`
(`Verif/Model/DumpWith.lean`), against `Verif/Spec/DumpWith.lean`.
-/
namespace Verif.Props
open Verif Verif.Gen Verif.Spec Verif.Pyd Verif.Mutate

theorem dumpWithList_map (o : Options) (l : List V) : dumpWithList o l = l.map (dumpWith o) := by
  induction l with
  | nil => rfl
  | cons v l ih => simp only [dumpWithList, List.map_cons, ih]

theorem dumpWithDict_map (o : Options) (d : List (Str × V)) : dumpWithDict o d = d.map fun e => (e.1, dumpWith o e.2) := by
  induction d with
  | nil => rfl
  | cons e d ih => obtain ⟨k, v⟩ := e; simp only [dumpWithDict, List.map_cons, ih]

theorem dumpWithExtras_map (o : Options) (d : List (Str × V)) :
    dumpWithExtras o d = (d.filter fun e => !(o.excludeNone && e.2.isNone)).map fun e => (e.1, dumpWith o e.2) := by
  induction d with
  | nil => rfl
  | cons e d ih =>
    obtain ⟨k, v⟩ := e
    simp only [dumpWithExtras, List.filter_cons]
    cases h : (o.excludeNone && v.isNone) <;> simp [ih]

theorem dumpWith_inst (o : Options) {c : Cls} (hk : (classDef c).kind ≠ .patterned) (fs ex : List (Str × V)) (set : List Str) :
    dumpWith o (.inst c fs ex set) = .dict (dumpWithFields o c set fs ++ dumpWithExtras o ex) := by
  rw [dumpWith]
  split
  · rename_i e; exact absurd e hk
  · rfl

theorem dumpWith_patterned (o : Options) {c : Cls} (hk : (classDef c).kind = .patterned) (fs ex : List (Str × V)) (set : List Str) :
    dumpWith o (.inst c fs ex set) = ((lookup p!"root" fs).map (dumpWith o)).getD .none := by
  rw [dumpWith]
  simp only [hk, dumpWithDict_map]
  congr 1
  induction fs with
  | nil => rfl
  | cons e fs ih => simp only [List.map_cons, lookup]; split <;> first | rfl | exact ih

theorem dump_patterned {c : Cls} (hk : (classDef c).kind = .patterned) (fs ex : List (Str × V)) (set : List Str) :
    dump (.inst c fs ex set) = ((lookup p!"root" fs).map dump).getD .none := by
  rw [dump]
  simp only [hk, dumpDict_map]
  congr 1
  induction fs with
  | nil => rfl
  | cons e fs ih => simp only [List.map_cons, lookup]; split <;> first | rfl | exact ih

theorem dump_inst {c : Cls} (hk : (classDef c).kind ≠ .patterned) (fs ex : List (Str × V)) (set : List Str) :
    dump (.inst c fs ex set) = .dict (dumpFields c fs ++ dumpDict ex) := by
  rw [dump]
  split
  · rename_i e; exact absurd e hk
  · rfl

/-! ### Exactly what is written -/

theorem equalsDefault_iff {d : Dflt} {v : V} :
    (match dfltValue d with | some w => pyEq v w | none => false) = true ↔ EqualsDefault d v := by
  cases d <;> cases v <;> simp [dfltValue, pyEq, EqualsDefault]
  all_goals first | exact eq_comm | skip

theorem leftOut_iff {U : Uni} {limit : Option Nat} (o : Options) (set : List Str) {c : Cls} {f : FieldDef Cls}
    (hf : f ∈ (classDef c).fields) {v : V} (hv : Valid U limit v f.ty) :
    leftOut o set f v = false ↔ ShownWith o.excludeUnset o.excludeDefaults o.excludeNone c set f v := by
  have hs := shown_iff hf hv
  have hd := equalsDefault_iff (d := f.dflt) (v := v)
  have hn := isNone_iff (v := v)
  unfold leftOut
  constructor
  · intro h
    simp only [Bool.or_eq_false_iff, Bool.and_eq_false_iff, Bool.not_eq_false', List.contains_iff_mem] at h
    obtain ⟨⟨⟨⟨h1, h2⟩, h3⟩, h4⟩, h5⟩ := h
    refine ⟨hs.1 ?_, fun hu => ?_, fun hu h => ?_, fun hu h => ?_⟩
    · rw [h3]
      rcases h5 with h5 | h5 <;> simp [h5]
    · rcases h1 with h1 | h1
      · rw [h1] at hu; cases hu
      · exact h1
    · rcases h4 with h4 | h4
      · rw [h4] at hu; cases hu
      · exact absurd ((hd.2 h).symm.trans h4) (by decide)
    · rcases h2 with h2 | h2
      · rw [h2] at hu; cases hu
      · rw [hn.2 h] at h2; cases h2
  · rintro ⟨h1, h2, h3, h4⟩
    have h1 := hs.2 h1
    simp only [Bool.and_eq_true, Bool.not_eq_true'] at h1
    simp only [Bool.or_eq_false_iff, Bool.and_eq_false_iff, Bool.not_eq_false', List.contains_iff_mem]
    refine ⟨⟨⟨⟨?_, ?_⟩, h1.1⟩, ?_⟩, Bool.and_eq_false_iff.1 h1.2⟩
    · cases hu : o.excludeUnset
      · exact .inl rfl
      · exact .inr (h2 hu)
    · cases hu : o.excludeNone
      · exact .inl rfl
      · exact .inr (by rw [isNone_false]; exact h4 hu)
    · cases hu : o.excludeDefaults
      · exact .inl rfl
      · refine .inr ?_
        rw [← Bool.not_eq_true]
        exact fun h => h3 hu (hd.1 h)

open Classical in
theorem dumpWithFields_eq {U : Uni} {limit : Option Nat} (o : Options) {c : Cls} (fs ex : List (Str × V)) (set : List Str)
    (hfs : fs.map (·.1) = (classDef c).fields.map (·.name))
    (hv : ∀ f ∈ (classDef c).fields, Valid U limit ((V.inst c fs ex set).attr f.name) f.ty) :
    dumpWithFields o c set fs = ((classDef c).fields.filter fun f =>
        ShownWith o.excludeUnset o.excludeDefaults o.excludeNone c set f ((V.inst c fs ex set).attr f.name)).map
      fun f => (if o.byAlias then jsonName f else f.name, dumpWith o ((V.inst c fs ex set).attr f.name)) := by
  have hnd := names_nodup c
  have hn : (fs.map (·.1)).Nodup := hfs ▸ hnd
  have key : ∀ (gs : List (Str × V)) (L : List (FieldDef Cls)), (∀ e ∈ gs, e ∈ fs) → (∀ f ∈ L, f ∈ (classDef c).fields) →
      gs.map (·.1) = L.map (·.name) → dumpWithFields o c set gs =
        (L.filter fun f =>
          ShownWith o.excludeUnset o.excludeDefaults o.excludeNone c set f ((V.inst c fs ex set).attr f.name)).map
          fun f => (if o.byAlias then jsonName f else f.name, dumpWith o ((V.inst c fs ex set).attr f.name)) := by
    intro gs
    induction gs with
    | nil => intro L _ _ h; cases L with
      | nil => rfl
      | cons => cases h
    | cons e gs ih =>
      intro L hg hL h
      cases L with
      | nil => cases h
      | cons f L =>
        simp only [List.map_cons, List.cons.injEq] at h
        obtain ⟨k, v⟩ := e
        have ha := attr_of_named (c := c) (ex := ex) (set := set) hn (hg (k, v) List.mem_cons_self)
        simp only at h ha
        have hf := hL f List.mem_cons_self
        have hfo : fieldOf c k = some f := by rw [h.1]; exact find_name hnd hf
        rw [h.1] at ha
        have hs := leftOut_iff o set hf (hv f hf)
        have := ih L (fun e he => hg e (List.mem_cons_of_mem _ he)) (fun f hf => hL f (List.mem_cons_of_mem _ hf)) h.2
        simp only [dumpWithFields, hfo, List.filter_cons]
        by_cases hsh : ShownWith o.excludeUnset o.excludeDefaults o.excludeNone c set f ((V.inst c fs ex set).attr f.name)
        · have hb := hs.2 hsh
          rw [ha] at hb
          simp only [hsh, decide_true, if_true, List.map_cons, hb, Bool.false_eq_true, if_false, this]
          rw [ha]; rfl
        · have hb : leftOut o set f v = true := by
            rw [← Bool.not_eq_false]
            intro hb
            exact hsh (hs.1 (by rw [ha]; exact hb))
          simp only [hsh, decide_false, Bool.false_eq_true, if_false, hb, if_true, this]
  exact key fs _ (fun _ h => h) (fun _ h => h) hfs

open Classical in
/-- **C76.** What is written of a valid instance, under any options, is exactly: its declared fields in order, those that are to
be shown and are not left out by an option, under their JSON names or their Python names; then its extra fields, with
`exclude_none` only those that are not null. -/
theorem C76_exact (U : Uni) (limit : Option Nat) (o : Options) (c : Cls) (hk : (classDef c).kind ≠ .patterned)
    (fs ex : List (Str × V)) (set : List Str) (hv : Valid U limit (.inst c fs ex set) (.model c)) :
    dumpWith o (.inst c fs ex set) = .dict ((((classDef c).fields.filter fun f =>
        ShownWith o.excludeUnset o.excludeDefaults o.excludeNone c set f ((V.inst c fs ex set).attr f.name)).map
      fun f => (if o.byAlias then jsonName f else f.name, dumpWith o ((V.inst c fs ex set).attr f.name))) ++
      (ex.filter fun e => o.excludeNone = true → e.2 ≠ .none).map fun e => (e.1, dumpWith o e.2)) := by
  cases hv with
  | model hfs hty hcon =>
    rw [dumpWith_inst o hk, dumpWithFields_eq o fs ex set hfs hty, dumpWithExtras_map]
    congr 3
    refine List.filter_congr fun e _ => ?_
    rw [Bool.eq_iff_iff, decide_eq_true_iff]
    cases o.excludeNone <;> simp [isNone_false]

/-- **C76.** Map objects: their entries, under any options. -/
theorem C76_patterned (U : Uni) (limit : Option Nat) (o : Options) (c : Cls) (hk : (classDef c).kind = .patterned) (v : V)
    (hv : Valid U limit v (.model c)) :
    ∃ d, v.attr p!"root" = .dict d ∧ dumpWith o v = .dict (d.map fun e => (e.1, dumpWith o e.2)) := by
  obtain ⟨d, hd, -⟩ := C36_patterned U limit c hk v hv
  refine ⟨d, hd, ?_⟩
  cases hv with
  | @model c fs ex set hfs hty hcon =>
    rw [dumpWith_patterned o hk]
    simp only [V.attr] at hd
    cases hl : lookup p!"root" fs with
    | none => rw [hl] at hd; cases hd
    | some w =>
      rw [hl] at hd
      simp only [Option.getD_some] at hd
      subst hd
      simp only [Option.map_some, Option.getD_some, dumpWith, dumpWithDict_map]

/-- **C76.** The options apply at every depth: lists and dicts are written item by item with the same options, and null entries of
dicts and null items of lists are written under all of them. -/
theorem C76_inside (o : Options) (l : List V) (d : List (Str × V)) :
    dumpWith o (.list l) = .list (l.map (dumpWith o)) ∧ dumpWith o (.dict d) = .dict (d.map fun e => (e.1, dumpWith o e.2)) ∧
    dumpWith o .none = .none := by
  simp only [dumpWith, dumpWithList_map, dumpWithDict_map, and_self]

/-- **C76.** Without options it is what `model_dump` writes (C36). -/
theorem C76_plain (v : V) : dumpWith {} v = dump v := by
  have hd : ∀ d : List (Str × V), (∀ e ∈ d, dumpWith {} e.2 = dump e.2) → dumpWithDict {} d = dumpDict d := by
    intro d h
    rw [dumpWithDict_map, dumpDict_map]
    exact List.map_congr_left fun e he => Prod.ext rfl (h e he)
  induction v using V.ind with
  | list l h =>
    simp only [dumpWith, dump, dumpWithList_map, dumpList_map, V.list.injEq]
    exact List.map_congr_left h
  | dict d h => simp only [dumpWith, dump, hd d h]
  | inst c fs ex set h1 h2 =>
    by_cases hk : (classDef c).kind = .patterned
    · rw [dumpWith_patterned _ hk, dump_patterned hk]
      cases hl : lookup p!"root" fs with
      | none => rfl
      | some w => exact h1 _ (lookup_some_mem hl)
    · rw [dumpWith_inst _ hk, dump_inst hk]
      have e1 : dumpWithExtras {} ex = dumpDict ex := by
        rw [dumpWithExtras_map, ← hd ex h2, dumpWithDict_map]
        simp
      have e2 : dumpWithFields {} c set fs = dumpFields c fs := by
        induction fs with
        | nil => rfl
        | cons e fs ih =>
          obtain ⟨k, v⟩ := e
          have ih := ih fun e he => h1 e (List.mem_cons_of_mem _ he)
          simp only [dumpWithFields, dumpFields, ih, h1 (k, v) List.mem_cons_self]
          cases fieldOf c k with
          | none => rfl
          | some f =>
            simp only [leftOut, Bool.false_and, Bool.false_or, if_true]
            cases f.exclude <;> cases (f.excludeNull && v.isNone) <;> rfl
      rw [e1, e2]
  | _ => rfl

/-! ### Options only leave things out -/

theorem fewer_dict {d : List (Str × V)} (F G : V → V) (h : ∀ e ∈ d, Fewer (F e.2) (G e.2)) :
    Fewer (.dict (d.map fun e => (e.1, F e.2))) (.dict (d.map fun e => (e.1, G e.2))) := by
  have := Fewer.dict (pairs := d.map fun e => (e.1, F e.2, G e.2)) (e := d.map fun e => (e.1, G e.2))
    (by
      intro p hp
      obtain ⟨e, he, rfl⟩ := List.mem_map.1 hp
      exact h e he) (by rw [List.map_map]; exact List.Sublist.refl _)
  rwa [List.map_map] at this

/-- **C76.** With JSON names, whatever the other options are, what is written is what is written without them, with entries
left out. -/
theorem C76_fewer (o : Options) (ha : o.byAlias = true) (v : V) : Fewer (dumpWith o v) (dump v) := by
  induction v using V.ind with
  | list l h =>
    have := Fewer.list (pairs := l.map fun v => (dumpWith o v, dump v)) (by
      intro p hp
      obtain ⟨e, he, rfl⟩ := List.mem_map.1 hp
      exact h e he)
    simp only [List.map_map] at this
    simp only [dumpWith, dump, dumpWithList_map, dumpList_map]
    exact this
  | dict d h =>
    simp only [dumpWith, dump, dumpWithDict_map, dumpDict_map]
    exact fewer_dict _ _ h
  | inst c fs ex set h1 h2 =>
    by_cases hk : (classDef c).kind = .patterned
    · rw [dumpWith_patterned _ hk, dump_patterned hk]
      cases hl : lookup p!"root" fs with
      | none => exact .refl
      | some w => exact h1 _ (lookup_some_mem hl)
    · rw [dumpWith_inst _ hk, dump_inst hk]
      have e1 : ∃ ps : List (Str × V × V), dumpWithExtras o ex = ps.map (fun p => (p.1, p.2.1)) ∧
          (ps.map fun p => (p.1, p.2.2)).Sublist (dumpDict ex) ∧ ∀ p ∈ ps, Fewer p.2.1 p.2.2 := by
        refine ⟨(ex.filter fun e => !(o.excludeNone && e.2.isNone)).map fun e => (e.1, dumpWith o e.2, dump e.2), ?_, ?_, ?_⟩
        · rw [dumpWithExtras_map, List.map_map]; rfl
        · rw [dumpDict_map, List.map_map]
          exact List.Sublist.map _ List.filter_sublist
        · intro p hp
          obtain ⟨e, he, rfl⟩ := List.mem_map.1 hp
          exact h2 e (List.mem_of_mem_filter he)
      have e2 : ∃ ps : List (Str × V × V), dumpWithFields o c set fs = ps.map (fun p => (p.1, p.2.1)) ∧
          (ps.map fun p => (p.1, p.2.2)).Sublist (dumpFields c fs) ∧ ∀ p ∈ ps, Fewer p.2.1 p.2.2 := by
        induction fs with
        | nil => exact ⟨[], rfl, List.Sublist.refl _, fun p hp => by cases hp⟩
        | cons e fs ih =>
          obtain ⟨k, v⟩ := e
          obtain ⟨ps, i1, i2, i3⟩ := ih fun e he => h1 e (List.mem_cons_of_mem _ he)
          have hv := h1 (k, v) List.mem_cons_self
          simp only [dumpWithFields, dumpFields]
          cases fieldOf c k with
          | none => exact ⟨ps, i1, i2, i3⟩
          | some f =>
            simp only [ha, if_true]
            have hsub : ∀ x, (ps.map fun p => (p.1, p.2.2)).Sublist (if f.exclude = true then dumpFields c fs else
                if (f.excludeNull && v.isNone) = true then dumpFields c fs else x :: dumpFields c fs) := by
              intro x
              split
              · exact i2
              · split
                · exact i2
                · exact i2.cons _
            cases hlo : leftOut o set f v with
            | true => exact ⟨ps, i1, hsub _, i3⟩
            | false =>
              refine ⟨(f.alias.getD f.name, dumpWith o v, dump v) :: ps, by simp [i1], ?_, ?_⟩
              · unfold leftOut at hlo
                simp only [Bool.or_eq_false_iff] at hlo
                simp only [hlo.1.1.2, hlo.2, Bool.false_eq_true, if_false, List.map_cons]
                exact i2.cons_cons _
              · intro p hp
                rcases List.mem_cons.1 hp with rfl | hp
                · exact hv
                · exact i3 p hp
      obtain ⟨p1, a1, b1, c1⟩ := e1
      obtain ⟨p2, a2, b2, c2⟩ := e2
      rw [a1, a2, ← List.map_append]
      refine .dict (fun p hp => ?_) (by rw [List.map_append]; exact b2.append b1)
      rcases List.mem_append.1 hp with hp | hp
      · exact c2 p hp
      · exact c1 p hp
  | _ => exact .refl

/-- **C76.** Python names in the place of JSON names change nothing else. -/
theorem C76_unaliased (v : V) : Unaliased (dumpWith { byAlias := false } v) (dump v) := by
  have hd : ∀ d : List (Str × V), (∀ e ∈ d, Unaliased (dumpWith { byAlias := false } e.2) (dump e.2)) →
      ∃ ps : List ((Str × V) × (Str × V)), dumpWithDict { byAlias := false } d = ps.map (·.1) ∧ dumpDict d = ps.map (·.2) ∧
        ∀ p ∈ ps, SameField p.1.1 p.2.1 ∧ Unaliased p.1.2 p.2.2 := by
    intro d h
    refine ⟨d.map fun e => ((e.1, dumpWith { byAlias := false } e.2), (e.1, dump e.2)), ?_, ?_, ?_⟩
    · rw [dumpWithDict_map, List.map_map]; rfl
    · rw [dumpDict_map, List.map_map]; rfl
    · intro p hp
      obtain ⟨e, he, rfl⟩ := List.mem_map.1 hp
      exact ⟨.inl rfl, h e he⟩
  induction v using V.ind with
  | list l h =>
    have := Unaliased.list (pairs := l.map fun v => (dumpWith { byAlias := false } v, dump v)) (by
      intro p hp
      obtain ⟨e, he, rfl⟩ := List.mem_map.1 hp
      exact h e he)
    simp only [List.map_map] at this
    simp only [dumpWith, dump, dumpWithList_map, dumpList_map]
    exact this
  | dict d h =>
    obtain ⟨ps, h1, h2, h3⟩ := hd d h
    simp only [dumpWith, dump, h1, h2]
    exact .dict (fun p hp => (h3 p hp).1) (fun p hp => (h3 p hp).2)
  | inst c fs ex set h1 h2 =>
    by_cases hk : (classDef c).kind = .patterned
    · rw [dumpWith_patterned _ hk, dump_patterned hk]
      cases hl : lookup p!"root" fs with
      | none => exact .refl
      | some w => exact h1 _ (lookup_some_mem hl)
    · rw [dumpWith_inst _ hk, dump_inst hk]
      have e1 : dumpWithExtras { byAlias := false } ex = dumpWithDict { byAlias := false } ex := by
        rw [dumpWithExtras_map, dumpWithDict_map]; simp
      have e2 : ∃ ps : List ((Str × V) × (Str × V)), dumpWithFields { byAlias := false } c set fs = ps.map (·.1) ∧
          dumpFields c fs = ps.map (·.2) ∧ ∀ p ∈ ps, SameField p.1.1 p.2.1 ∧ Unaliased p.1.2 p.2.2 := by
        induction fs with
        | nil => exact ⟨[], rfl, rfl, fun p hp => by cases hp⟩
        | cons e fs ih =>
          obtain ⟨k, v⟩ := e
          obtain ⟨ps, i1, i2, i3⟩ := ih fun e he => h1 e (List.mem_cons_of_mem _ he)
          have hv := h1 (k, v) List.mem_cons_self
          simp only [dumpWithFields, dumpFields]
          cases hf : fieldOf c k with
          | none => exact ⟨ps, i1, i2, i3⟩
          | some f =>
            simp only [leftOut, Bool.false_and, Bool.false_or, Bool.false_eq_true, if_false]
            have hne : ∃ qs : List ((Str × V) × (Str × V)),
                (f.name, dumpWith { byAlias := false } v) :: dumpWithFields { byAlias := false } c set fs = qs.map (·.1) ∧
                (f.alias.getD f.name, dump v) :: dumpFields c fs = qs.map (·.2) ∧
                ∀ p ∈ qs, SameField p.1.1 p.2.1 ∧ Unaliased p.1.2 p.2.2 := by
              refine ⟨((f.name, dumpWith { byAlias := false } v), (f.alias.getD f.name, dump v)) :: ps, by simp [i1], by simp [i2], ?_⟩
              intro p hp
              rcases List.mem_cons.1 hp with rfl | hp
              · exact ⟨.inr ⟨c, f, (fieldOf_some hf).1, rfl, rfl⟩, hv⟩
              · exact i3 p hp
            cases f.exclude <;> cases (f.excludeNull && v.isNone)
            · exact hne
            · exact ⟨ps, i1, i2, i3⟩
            · exact ⟨ps, i1, i2, i3⟩
            · exact ⟨ps, i1, i2, i3⟩
      obtain ⟨p1, a1, b1, c1⟩ := hd ex h2
      obtain ⟨p2, a2, b2, c2⟩ := e2
      rw [e1, a1, a2, b1, b2, ← List.map_append, ← List.map_append]
      have : ∀ p ∈ p2 ++ p1, SameField p.1.1 p.2.1 ∧ Unaliased p.1.2 p.2.2 := by
        intro p hp
        rcases List.mem_append.1 hp with hp | hp
        · exact c2 p hp
        · exact c1 p hp
      exact .dict (fun p hp => (this p hp).1) (fun p hp => (this p hp).2)
  | _ => exact .refl

/-! ### The record of given fields -/

theorem leftOut_forget (o : Options) (hu : o.excludeUnset = false) (set set' : List Str) (f : FieldDef Cls) (v : V) :
    leftOut o set f (forget v) = leftOut o set' f v := by
  unfold leftOut
  simp only [hu, Bool.false_and, Bool.false_or, isNone_forget]
  cases f.dflt <;> cases v <;> rfl

/-- **C76.** Without `exclude_unset`, what is written does not depend on which fields were given. -/
theorem C76_record (o : Options) (hu : o.excludeUnset = false) (a b : V) (h : forget a = forget b) :
    dumpWith o a = dumpWith o b := by
  have main : ∀ v, dumpWith o (forget v) = dumpWith o v := by
    intro v
    have hd : ∀ d : List (Str × V), (∀ e ∈ d, dumpWith o (forget e.2) = dumpWith o e.2) →
        dumpWithDict o (forgetDict d) = dumpWithDict o d := by
      intro d h
      rw [forgetDict_map, dumpWithDict_map, dumpWithDict_map, List.map_map]
      exact List.map_congr_left fun e he => Prod.ext rfl (h e he)
    have hx : ∀ d : List (Str × V), (∀ e ∈ d, dumpWith o (forget e.2) = dumpWith o e.2) →
        dumpWithExtras o (forgetDict d) = dumpWithExtras o d := by
      intro d h
      induction d with
      | nil => rfl
      | cons e d ih =>
        obtain ⟨k, v⟩ := e
        simp only [forgetDict, dumpWithExtras]
        rw [ih fun e he => h e (List.mem_cons_of_mem _ he), isNone_forget, h (k, v) List.mem_cons_self]
    have hf : ∀ (c : Cls) (set set' : List Str) (d : List (Str × V)), (∀ e ∈ d, dumpWith o (forget e.2) = dumpWith o e.2) →
        dumpWithFields o c set (forgetDict d) = dumpWithFields o c set' d := by
      intro c set set' d h
      induction d with
      | nil => rfl
      | cons e d ih =>
        obtain ⟨k, v⟩ := e
        simp only [forgetDict, dumpWithFields]
        rw [ih fun e he => h e (List.mem_cons_of_mem _ he), h (k, v) List.mem_cons_self]
        cases fieldOf c k with
        | none => rfl
        | some f => simp only [leftOut_forget o hu set set' f v]
    induction v using V.ind with
    | list l h =>
      simp only [forget, dumpWith, V.list.injEq]
      rw [forgetList_map, dumpWithList_map, dumpWithList_map, List.map_map]
      exact List.map_congr_left h
    | dict d h => simp only [forget, dumpWith, hd d h]
    | inst c fs ex set h1 h2 =>
      simp only [forget, dumpWith]
      rw [hf c [] set fs h1, hd fs h1, hx ex h2]
    | _ => rfl
  rw [← main a, h, main]

/-- **C76.** With `exclude_unset` it does: two equal instances, one made with the default `bindingVersion` and one without, are
written differently, and the second one without `bindingVersion`. -/
theorem C76_unset_record : ∃ a b, validate plainEnv .KafkaOperationBindings (.dict [(p!"bindingVersion", .str p!"0.5.0")]) = some a ∧
    validate plainEnv .KafkaOperationBindings (.dict []) = some b ∧ pyEq a b = true ∧
    dumpWith { excludeUnset := true } a = .dict [(p!"bindingVersion", .str p!"0.5.0")] ∧
    dumpWith { excludeUnset := true } b = .dict [] ∧
    dump a = .dict [(p!"bindingVersion", .str p!"0.5.0")] ∧ dump b = .dict [(p!"bindingVersion", .str p!"0.5.0")] := by
  exact ⟨_, _, rfl, rfl, rfl, rfl, rfl, rfl, rfl⟩

theorem validated_shape (E : Env) (hcall : OnlyChecks E.call) (c : Cls) (hk : (classDef c).kind ≠ .patterned) (d : List (Str × V)) (i : V)
    (h : validate E c (.dict d) = some i) :
    allOk E c d = true ∧ i = .inst c (fieldsOf E c d) (extrasOf c d) (Pyd.setOf c d) := by
  unfold validate at h
  rw [parse_model_dict E hk, construct_eq] at h
  split at h
  · rename_i hok
    rw [Option.map_map, Option.map_eq_some_iff] at h
    obtain ⟨j, hj, rfl⟩ := h
    have := after_same hcall hj
    subst this
    exact ⟨hok, rfl⟩
  · cases h

theorem given_keys {f : FieldDef Cls} {d : List (Str × V)} :
    (findKey f d).isSome = true ↔ jsonName f ∈ d.map (·.1) ∨ f.name ∈ d.map (·.1) := by
  have hmem : ∀ k, (lookup k d).isSome = true ↔ k ∈ d.map (·.1) := by
    intro k
    constructor
    · intro h
      obtain ⟨v, hv⟩ := Option.isSome_iff_exists.1 h
      exact List.mem_map_of_mem (f := (·.1)) (lookup_some_mem hv)
    · intro h
      obtain ⟨v, hv⟩ := lookup_isSome_of_mem h
      rw [hv]; rfl
  unfold findKey jsonName
  rw [← hmem, ← hmem]
  cases f.alias with
  | none => simp
  | some a =>
    simp only [Option.getD_some]
    cases lookup a d with
    | none => simp
    | some v => simp

theorem mem_setOf {c : Cls} {d : List (Str × V)} {f : FieldDef Cls} (hf : f ∈ (classDef c).fields) :
    f.name ∈ Pyd.setOf c d ↔ (findKey f d).isSome = true := by
  unfold Pyd.setOf
  rw [List.mem_append, List.mem_map, List.mem_map]
  constructor
  · rintro (⟨g, hg, hn⟩ | ⟨e, he, hn⟩)
    · obtain ⟨hg, hs⟩ := List.mem_filter.1 hg
      have h1 := find_name (names_nodup c) hf
      have h2 := find_name (names_nodup c) hg
      rw [hn, h1] at h2
      cases h2
      exact hs
    · rw [given_keys]
      refine .inr ?_
      rw [← hn]
      exact List.mem_map_of_mem (f := (·.1)) (List.mem_of_mem_filter he)
  · intro h
    exact .inl ⟨f, List.mem_filter.2 ⟨hf, h⟩, rfl⟩

/-- **C76.** With `exclude_unset`, an instance validated from a dict is written with exactly the fields that were given (those
that are written at all), under their JSON names, and the extra fields. -/
theorem C76_given (E : Env) (hcall : OnlyChecks E.call) (c : Cls) (hk : (classDef c).kind ≠ .patterned)
    (d : List (Str × V)) (i : V) (h : validate E c (.dict d) = some i) :
    ∃ l, dumpWith { excludeUnset := true } i = .dict l ∧ ∀ k, k ∈ l.map (·.1) ↔
      (∃ f ∈ (classDef c).fields, k = jsonName f ∧ (jsonName f ∈ d.map (·.1) ∨ f.name ∈ d.map (·.1)) ∧ Shown c f (i.attr f.name)) ∨
      k ∈ i.extras.map (·.1) := by
  classical
  have hval : Valid E.U E.digits i (.model c) := by
    by_cases hc : c = .AsyncAPI3
    · subst hc
      exact C42_document E (fun n doc doc' hd hc => by rw [hcall n doc doc' hc]; exact hd) _ _ h
    · exact C42_valid E c hc _ _ h
  obtain ⟨-, rfl⟩ := validated_shape E hcall c hk d i h
  refine ⟨_, C76_exact E.U E.digits { excludeUnset := true } c hk _ _ _ hval, fun k => ?_⟩
  rw [List.map_append, List.mem_append, List.map_map, List.map_map, List.mem_map, List.mem_map]
  refine or_congr ⟨?_, ?_⟩ ⟨?_, ?_⟩
  · rintro ⟨f, hf, rfl⟩
    obtain ⟨hf, hs⟩ := List.mem_filter.1 hf
    have hs := of_decide_eq_true hs
    exact ⟨f, hf, rfl, given_keys.1 ((mem_setOf hf).1 (hs.given rfl)), hs.shown⟩
  · rintro ⟨f, hf, rfl, hg, hs⟩
    refine ⟨f, List.mem_filter.2 ⟨hf, decide_eq_true ⟨hs, fun _ => (mem_setOf hf).2 (given_keys.2 hg), fun h => (by cases h), fun h => (by cases h)⟩⟩, rfl⟩
  · rintro ⟨e, he, rfl⟩
    exact List.mem_map_of_mem (f := (·.1)) (List.mem_of_mem_filter he)
  · intro hm
    obtain ⟨e, he, rfl⟩ := List.mem_map.1 hm
    exact ⟨e, List.mem_filter.2 ⟨he, decide_eq_true fun h => by cases h⟩, rfl⟩

/-- **C76.** After validation the record is right. -/
theorem C76_recorded (E : Env) (hcall : OnlyChecks E.call) (c : Cls) (hk : (classDef c).kind ≠ .patterned) (d : List (Str × V)) (i : V)
    (h : validate E c (.dict d) = some i) : RecordRight i := by
  obtain ⟨hok, rfl⟩ := validated_shape E hcall c hk d i h
  refine ⟨fun e he => ?_, fun f hf hn => ?_⟩
  · unfold Pyd.setOf
    exact List.mem_append.2 (.inr (List.mem_map_of_mem (f := (·.1)) he))
  · rw [mem_setOf hf] at hn
    have hfk : findKey f d = none := by
      cases hx : findKey f d with
      | none => rfl
      | some x => rw [hx] at hn; exact absurd rfl hn
    have hall : (one E c d f).isSome = true := by
      unfold allOk at hok
      rw [Bool.and_eq_true] at hok
      exact List.all_eq_true.1 hok.1 f hf
    rw [attr_fieldsOf hf, hasDefault_iff]
    unfold valueOf
    unfold one at hall ⊢
    rw [hfk] at hall ⊢
    cases hdv : dfltValue f.dflt with
    | none => rw [hdv] at hall; cases hall
    | some v => rfl

/-- **C76.** After any history of assignments, some of which may have raised errors, the record is still right; so what
`exclude_unset` leaves out always has its default. -/
theorem C76_recorded_assigns (E : Env) (hcall : OnlyChecks E.call) (rollback : Bool) (c : Cls) (fs ex : List (Str × V)) (set : List Str)
    (hfs : fs.map (·.1) = (classDef c).fields.map (·.name)) (hr : RecordRight (.inst c fs ex set)) (history : List (Str × V)) :
    ∃ fs' ex' set', Mutate.assigns E rollback (.inst c fs ex set) history = .inst c fs' ex' set' ∧
      fs'.map (·.1) = (classDef c).fields.map (·.name) ∧ RecordRight (.inst c fs' ex' set') := by
  induction history generalizing fs ex set with
  | nil => exact ⟨fs, ex, set, rfl, hfs, hr⟩
  | cons a history ih =>
    obtain ⟨n, x⟩ := a
    simp only [Mutate.assigns]
    have built : ∀ v, ((Mutate.rebuild c (dictSet (update fs ex) n v) (Mutate.addSet set n)) =
        .inst c ((classDef c).fields.map fun f => (f.name, (lookup f.name (dictSet (update fs ex) n v)).getD .none))
          ((dictSet (update fs ex) n v).filter fun e => (fieldOf c e.1).isNone) (Mutate.addSet set n)) ∧
        ((classDef c).fields.map fun f => (f.name, (lookup f.name (dictSet (update fs ex) n v)).getD .none)).map (·.1) =
          (classDef c).fields.map (·.name) ∧
        RecordRight (Mutate.rebuild c (dictSet (update fs ex) n v) (Mutate.addSet set n)) := by
      intro v
      have hadd : ∀ m, m ∈ Mutate.addSet set n ↔ m ∈ set ∨ m = n := by
        intro m
        unfold Mutate.addSet
        split
        · rename_i hc
          constructor
          · exact .inl
          · rintro (h | rfl)
            · exact h
            · exact List.contains_iff_mem.1 hc
        · rw [List.mem_append, List.mem_singleton]
      refine ⟨rfl, by rw [List.map_map]; rfl, ?_, ?_⟩
      · rintro ⟨k, w⟩ he
        obtain ⟨he, hn⟩ := List.mem_filter.1 he
        rw [hadd]
        by_cases hkn : k = n
        · exact .inr hkn
        · refine .inl ?_
          rw [mem_dictSet hkn] at he
          have hm : k ∈ (update fs ex).map (·.1) := List.mem_map_of_mem (f := (·.1)) he
          obtain ⟨y, hy⟩ := lookup_isSome_of_mem hm
          rw [Sharing.find_update] at hy
          cases hx : lookup k ex with
          | some z => exact hr.1 (k, z) (lookup_some_mem hx)
          | none =>
            rw [hx] at hy
            have hm : k ∈ fs.map (·.1) := List.mem_map_of_mem (f := (·.1)) (lookup_some_mem (show lookup k fs = some y from hy))
            rw [hfs] at hm
            obtain ⟨f, hf, rfl⟩ := List.mem_map.1 hm
            have := isSome_fieldOf.2 ⟨f, hf, rfl⟩
            simp only at hn
            rw [Option.isNone_iff_eq_none] at hn
            rw [hn] at this; cases this
      · intro f hf hn
        rw [hadd, not_or] at hn
        have hattr : (V.inst c ((classDef c).fields.map fun f => (f.name, (lookup f.name (dictSet (update fs ex) n v)).getD .none))
            ((dictSet (update fs ex) n v).filter fun e => (fieldOf c e.1).isNone) (Mutate.addSet set n)).attr f.name =
            (lookup f.name (dictSet (update fs ex) n v)).getD .none := by
          simp only [V.attr]
          rw [lookup_named (·.name) (fun f => (lookup f.name (dictSet (update fs ex) n v)).getD .none) (names_nodup c) hf]; rfl
        have hold := hr.2 f hf hn.1
        have hx : lookup f.name ex = none := by
          cases hx : lookup f.name ex with
          | none => rfl
          | some z => exact absurd (hr.1 _ (lookup_some_mem hx)) hn.1
        have e : (lookup f.name (dictSet (update fs ex) n v)).getD .none = (V.inst c fs ex set).attr f.name := by
          rw [lookup_dictSet, if_neg hn.2, Sharing.find_update, hx]; rfl
        show HasDefault f.dflt (V.attr _ f.name)
        rw [← e] at hold
        rw [← hattr] at hold
        exact hold
    have stays : ∃ fs' ex' set', Mutate.assigns E rollback (.inst c fs ex set) history = .inst c fs' ex' set' ∧
        fs'.map (·.1) = (classDef c).fields.map (·.name) ∧ RecordRight (.inst c fs' ex' set') := ih fs ex set hfs hr
    have fin : ∀ v, ∃ fs' ex' set', Mutate.assigns E rollback
        (Mutate.finish E rollback c (.inst c fs ex set) (Mutate.rebuild c (dictSet (update fs ex) n v) (Mutate.addSet set n))).state history =
          .inst c fs' ex' set' ∧ fs'.map (·.1) = (classDef c).fields.map (·.name) ∧ RecordRight (.inst c fs' ex' set') := by
      intro v
      obtain ⟨h1, h2, h3⟩ := built v
      have new := ih _ _ _ h2 (h1 ▸ h3)
      rw [← h1] at new
      unfold Mutate.finish
      split
      · rename_i j hj
        rw [after_same hcall hj]
        exact new
      · cases rollback
        · exact new
        · exact stays
    simp only [Mutate.assign]
    split
    · split
      · split
        · exact fin _
        · exact stays
      · exact stays
    · split
      · exact fin _
      · exact fin _
      · exact stays

/-- **C76.** So of an instance validated from a dict and changed by any history of assignments, whatever `exclude_unset` leaves out
has its default. -/
theorem C76_unset_default (E : Env) (hcall : OnlyChecks E.call) (rollback : Bool) (c : Cls) (hk : (classDef c).kind ≠ .patterned)
    (d : List (Str × V)) (i : V) (h : validate E c (.dict d) = some i) (history : List (Str × V)) :
    ∃ fs ex set, Mutate.assigns E rollback i history = .inst c fs ex set ∧ ∀ f ∈ (classDef c).fields,
      Shown c f ((V.inst c fs ex set).attr f.name) → ¬ ShownWith true false false c set f ((V.inst c fs ex set).attr f.name) →
      HasDefault f.dflt ((V.inst c fs ex set).attr f.name) := by
  have hrec := C76_recorded E hcall c hk d i h
  obtain ⟨-, rfl⟩ := validated_shape E hcall c hk d i h
  obtain ⟨fs, ex, set, h1, -, h3⟩ := C76_recorded_assigns E hcall rollback c _ _ _ (by unfold fieldsOf; rw [List.map_map]; rfl) hrec history
  refine ⟨fs, ex, set, h1, fun f hf hs hns => h3.2 f hf fun hm => hns ⟨hs, fun _ => hm, fun h => (by cases h), fun h => (by cases h)⟩⟩

/-! ### Reading what was written under Python names -/

/-- No JSON name of a field that differs from its Python name is the Python name of a field of the class. -/
def aliasNoName : Bool := Cls.all.all fun c => (classDef c).fields.all fun f =>
  match f.alias with
  | some a => a == f.name || (classDef c).fields.all fun g => g.name != a
  | none => true

theorem aliasNoName_ok : aliasNoName = true := by decide +kernel

/-- **C76.** What is written with `by_alias=False` is read as the same data with JSON names would be: on each level (the values inside
are as they are), provided no extra field has the name of a declared one. If the parts of the instance are written alike under
both (they have no field with two names), it is read as what is written with JSON names is. -/
theorem C76_by_name (E : Env) (c : Cls) (hk : (classDef c).kind ≠ .patterned) (fs ex : List (Str × V)) (set : List Str)
    (hv : Valid E.U E.digits (.inst c fs ex set) (.model c)) (hns : NotShadowed (.inst c fs ex set)) :
    ∃ l, dumpWith { byAlias := false } (.inst c fs ex set) = .dict l ∧
      validate E c (.dict l) = validate E c (.dict (byAlias c l)) ∧
      ((∀ e ∈ fs ++ ex, dumpWith { byAlias := false } e.2 = dump e.2) → .dict (byAlias c l) = dump (.inst c fs ex set) ∧
        validate E c (dumpWith { byAlias := false } (.inst c fs ex set)) = validate E c (dump (.inst c fs ex set))) := by
  classical
  have hsep : ∀ e ∈ ex, ∀ f ∈ (classDef c).fields, e.1 ≠ f.name ∧ f.alias ≠ some e.1 := hns c fs ex set rfl
  have hex := C76_exact E.U E.digits { byAlias := false } c hk fs ex set hv
  have hdump := C36_exact E.U E.digits c hk _ hv
  have honce : ∀ l, dumpWith { byAlias := false } (.inst c fs ex set) = .dict l → GivenOnce c l := by
    intro l hl f hf a ha hne hla
    rw [hex] at hl
    cases hl
    obtain ⟨v, hv⟩ := Option.ne_none_iff_exists'.1 hla
    rcases List.mem_append.1 (lookup_some_mem hv) with h | h
    · obtain ⟨g, hg, he⟩ := List.mem_map.1 h
      have hg := (List.mem_filter.1 hg).1
      have hga : g.name = a := congrArg Prod.fst he
      have := List.all_eq_true.1 (List.all_eq_true.1 aliasNoName_ok c (Cls.mem_all c)) f hf
      rw [ha] at this
      simp only [Bool.or_eq_true, beq_iff_eq, List.all_eq_true, bne_iff_ne] at this
      rcases this with h | h
      · exact absurd h hne
      · exact absurd hga (h g hg)
    · obtain ⟨e, he, hea⟩ := List.mem_map.1 h
      have hea : e.1 = a := congrArg Prod.fst hea
      exact absurd (hea ▸ ha) (hsep e (List.mem_of_mem_filter he) f hf).2
  refine ⟨_, hex, (C40_alias_or_name E c hk _ (honce _ hex)).symm, fun hsame => ?_⟩
  have hkey : ∀ f ∈ (classDef c).fields, jsonKey c f.name = jsonName f := by
    intro f hf
    unfold jsonKey
    rw [find_name (names_nodup c) hf]
  have hkex : ∀ e ∈ ex, jsonKey c e.1 = e.1 := by
    intro e he
    unfold jsonKey
    cases hf : (classDef c).fields.find? (·.name == e.1) with
    | none => rfl
    | some f =>
      have h1 := List.mem_of_find?_eq_some hf
      have h2 := List.find?_some hf
      exact absurd (by simpa using h2) (fun h : f.name = e.1 => (hsep e he f h1).1 h.symm)
  have hfs : fs.map (·.1) = (classDef c).fields.map (·.name) := by cases hv with | model h _ _ => exact h
  have hattr : ∀ f ∈ (classDef c).fields, ((f.name, (V.inst c fs ex set).attr f.name) : Str × V) ∈ fs := fun f hf =>
    lookup_mem_attr (ex := ex) (set := set) hfs hf
  have heq : ∀ l, dumpWith { byAlias := false } (.inst c fs ex set) = .dict l → V.dict (byAlias c l) = dump (.inst c fs ex set) := by
    intro l hl
    rw [hex] at hl
    cases hl
    rw [hdump]
    simp only [byAlias, List.map_append, List.map_map, V.dict.injEq]
    congr 1
    · have hfil : ((classDef c).fields.filter fun f => decide (ShownWith false false false c set f ((V.inst c fs ex set).attr f.name))) =
          (classDef c).fields.filter fun f => decide (Shown c f ((V.inst c fs ex set).attr f.name)) := by
        refine List.filter_congr fun f _ => ?_
        rw [decide_eq_decide]
        exact ⟨fun h => h.shown, fun h => ⟨h, fun h => (by cases h), fun h => (by cases h), fun h => (by cases h)⟩⟩
      rw [hfil]
      refine List.map_congr_left fun f hf => ?_
      have hf := (List.mem_filter.1 hf).1
      simp only [Function.comp, Bool.false_eq_true, if_false, Prod.mk.injEq]
      exact ⟨hkey f hf, hsame _ (List.mem_append.2 (.inl (hattr f hf)))⟩
    · have hfil : (ex.filter fun e => decide (false = true → e.2 ≠ .none)) = ex := by simp
      show List.map _ (ex.filter fun e => decide (false = true → e.2 ≠ .none)) = _
      rw [hfil]
      refine List.map_congr_left fun e he => ?_
      simp only [Function.comp, Prod.mk.injEq]
      exact ⟨hkex e he, hsame _ (List.mem_append.2 (.inr he))⟩
  refine ⟨heq _ hex, ?_⟩
  rw [← heq _ hex, hex]
  exact (C40_alias_or_name E c hk _ (honce _ hex)).symm

/-! ### Examples -/

/-- `bindingVersion` has its default; `binding_version` is the Python name of `bindingVersion`. -/
example : ∃ i, validate plainEnv .KafkaChannelBindings (.dict [(p!"topic", .str p!"t"), (p!"partitions", .int 3)]) = some i ∧
    dumpWith {} i = .dict [(p!"topic", .str p!"t"), (p!"partitions", .int 3), (p!"bindingVersion", .str p!"0.5.0")] ∧
    dumpWith { byAlias := false, excludeNone := true } i =
      .dict [(p!"topic", .str p!"t"), (p!"partitions", .int 3), (p!"binding_version", .str p!"0.5.0")] ∧
    dumpWith { excludeUnset := true } i = .dict [(p!"topic", .str p!"t"), (p!"partitions", .int 3)] ∧
    dumpWith { excludeDefaults := true } i = .dict [(p!"topic", .str p!"t"), (p!"partitions", .int 3)] ∧
    Mutate.assigns plainEnv false i [(p!"binding_version", .str p!"0.5.0")] ≠ i ∧
    dumpWith { excludeUnset := true } (Mutate.assigns plainEnv false i [(p!"binding_version", .str p!"0.5.0")]) = dumpWith {} i := by
  refine ⟨_, rfl, ?_⟩
  refine ⟨rfl, rfl, rfl, rfl, ?_, rfl⟩
  intro h
  injection h with _ _ _ h
  exact absurd h (by decide)

example : Valid plainEnv.U plainEnv.digits anExtendedLicense (.model .License) ∧ (classDef .License).kind ≠ .patterned ∧
    dumpWith { excludeUnset := true } anExtendedLicense = .dict [(p!"name", .str p!"MIT"), (p!"x-a", .int 1)] :=
  ⟨anExtendedLicense_valid, by decide, rfl⟩

example : dumpWith { excludeNone := true } (.inst .License [(p!"name", .str p!"MIT"), (p!"url", .none)] [(p!"x-a", .none), (p!"x-b", .list [.none])] []) =
    .dict [(p!"name", .str p!"MIT"), (p!"x-b", .list [.none])] := rfl

example : RecordRight anExtendedLicense := C76_recorded plainEnv (by intro n doc doc' h; cases h; rfl) .License (by decide) _ _ anExtendedLicense_made

/-- `C76_by_name` for bindings with a field of two names. -/
example : ∃ i, validate plainEnv .KafkaChannelBindings (.dict [(p!"topic", .str p!"t"), (p!"partitions", .int 3)]) = some i ∧
    validate plainEnv .KafkaChannelBindings (dumpWith { byAlias := false } i) = validate plainEnv .KafkaChannelBindings (dump i) ∧
    dumpWith { byAlias := false } i ≠ dump i := by
  refine ⟨_, rfl, ?_, ?_⟩
  · obtain ⟨l, -, -, h⟩ := C76_by_name plainEnv .KafkaChannelBindings (by decide) _ _ _
      (C42_valid plainEnv .KafkaChannelBindings (by decide) (.dict [(p!"topic", .str p!"t"), (p!"partitions", .int 3)]) _ rfl)
      (by
        intro c fs ex set h e he
        injection h with _ _ h _
        rw [← h] at he
        exact absurd he List.not_mem_nil)
    refine (h ?_).2
    intro e he
    simp only [List.append_nil, fieldsOf] at he
    change e ∈ ([(p!"topic", .str p!"t"), (p!"partitions", .int 3), (p!"replicas", .none), (p!"topic_configuration", .none),
      (p!"binding_version", .str p!"0.5.0")] : List (Str × V)) at he
    simp only [List.mem_cons, List.not_mem_nil, or_false] at he
    rcases he with rfl | rfl | rfl | rfl | rfl <;> rfl
  · intro h
    have h : (V.dict [(p!"topic", .str p!"t"), (p!"partitions", .int 3), (p!"binding_version", .str p!"0.5.0")]) =
      .dict [(p!"topic", .str p!"t"), (p!"partitions", .int 3), (p!"bindingVersion", .str p!"0.5.0")] := h
    injection h with h
    injection h with _ h
    injection h with _ h
    injection h with h _
    injection h with h _
    exact absurd h (by decide)

end Verif.Props
