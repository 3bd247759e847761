import Verif.Props.Valid
import Verif.Props.Alias
import Verif.Model.Mutate
import Verif.Spec.Mutate
/-!
# C34, C35: modifying instances
-/
namespace Verif.Props
open Verif Verif.Gen Verif.Spec Verif.Pyd Verif.Mutate

/-! ### C34 -/

/-- The dict `d` of a patterned object as a map. -/
structure Represents (d : List (Str × V)) (m : OMap) : Prop where
  nodup : (d.map (·.1)).Nodup
  order : m.order = d.map (·.1)
  content : ∀ k, m.content k = lookup k d

theorem lookup_isSome_iff {d : List (Str × V)} {k : Str} : (lookup k d).isSome = true ↔ k ∈ d.map (·.1) := by
  induction d with
  | nil => simp [lookup]
  | cons e d ih =>
    obtain ⟨k', v⟩ := e
    simp only [lookup, List.map_cons, List.mem_cons]
    split
    · rename_i h; subst h; simp
    · rename_i h; have h' : ¬ k = k' := fun e => h e.symm
      rw [ih]; simp [h']

theorem lookup_dictSet (d : List (Str × V)) (k j : Str) (v : V) :
    lookup j (dictSet d k v) = if j = k then some v else lookup j d := by
  induction d with
  | nil => simp only [dictSet, lookup, eq_comm]
  | cons e d ih =>
    obtain ⟨k', w⟩ := e
    simp only [dictSet]
    by_cases h : k' = k
    · subst h
      simp only [if_true, lookup]
      by_cases hj : j = k'
      · subst hj; simp
      · rw [if_neg hj, if_neg (fun e => hj e.symm), if_neg (fun e => hj e.symm)]
    · simp only [h, if_false, lookup]
      by_cases hj : k' = j
      · subst hj; simp [h]
      · simp only [hj, if_false, ih]

theorem keys_dictSet (d : List (Str × V)) (k : Str) (v : V) :
    (dictSet d k v).map (·.1) = if k ∈ d.map (·.1) then d.map (·.1) else d.map (·.1) ++ [k] := by
  induction d with
  | nil => rfl
  | cons e d ih =>
    obtain ⟨k', w⟩ := e
    simp only [dictSet, List.map_cons, List.mem_cons]
    by_cases h : k' = k
    · subst h; simp
    · have h' : ¬ k = k' := fun e => h e.symm
      simp only [h, if_false, List.map_cons, ih, h', false_or]
      split <;> rfl

theorem dictDel_none {d : List (Str × V)} {k : Str} : dictDel d k = none ↔ k ∉ d.map (·.1) := by
  induction d with
  | nil => simp [dictDel]
  | cons e d ih =>
    obtain ⟨k', w⟩ := e
    simp only [dictDel, List.map_cons, List.mem_cons, not_or]
    by_cases h : k' = k
    · subst h; simp
    · have h' : ¬ k = k' := fun e => h e.symm
      simp only [h, if_false, Option.map_eq_none_iff, ih, h', not_false_eq_true, true_and]

theorem dictDel_some {d d' : List (Str × V)} {k : Str} (hn : (d.map (·.1)).Nodup) (h : dictDel d k = some d') :
    d' = d.filter (fun e => e.1 ≠ k) := by
  induction d generalizing d' with
  | nil => cases h
  | cons e d ih =>
    obtain ⟨k', w⟩ := e
    simp only [List.map_cons, List.nodup_cons] at hn
    simp only [dictDel] at h
    by_cases he : k' = k
    · subst he
      simp only [if_true, Option.some.injEq] at h
      subst h
      rw [List.filter_cons]
      simp only [ne_eq, not_true_eq_false, decide_false, Bool.false_eq_true, if_false]
      refine (List.filter_eq_self.2 ?_).symm
      intro e he
      simp only [decide_eq_true_eq]
      rintro rfl
      exact hn.1 (List.mem_map.2 ⟨e, he, rfl⟩)
    · simp only [he, if_false, Option.map_eq_some_iff] at h
      obtain ⟨d1, h1, rfl⟩ := h
      rw [List.filter_cons]
      simp [he, ih hn.2 h1]

theorem lookup_filter_ne (d : List (Str × V)) (k j : Str) :
    lookup j (d.filter fun e => e.1 ≠ k) = if j = k then none else lookup j d := by
  induction d with
  | nil => simp [lookup]
  | cons e d ih =>
    obtain ⟨k', w⟩ := e
    rw [List.filter_cons]
    by_cases h : k' = k
    · subst h
      simp only [ne_eq, not_true_eq_false, decide_false, Bool.false_eq_true, if_false] at ih ⊢
      rw [ih]
      by_cases hj : j = k'
      · simp [hj]
      · simp only [hj, if_false, lookup]; rw [if_neg (fun e => hj e.symm)]
    · simp only [ne_eq, h, not_false_eq_true, decide_true, if_true, lookup] at ih ⊢
      by_cases hj : k' = j
      · subst hj; simp [h]
      · simp only [hj, if_false, ih]

/-- One operation answers as the map does, and leaves it represented. -/
theorem step_represents {d : List (Str × V)} {m : OMap} (h : Represents d m) (op : Op) :
    (step d op).2 = (m.step op).2 ∧ Represents (step d op).1 (m.step op).1 := by
  have hsome : ∀ k, (k ∈ m.order) ↔ (lookup k d).isSome = true := by
    intro k; rw [h.order, lookup_isSome_iff]
  cases op with
  | get k => exact ⟨by simp only [step, OMap.step, h.content]; cases lookup k d <;> rfl, h⟩
  | set k v =>
    refine ⟨rfl, ⟨?_, ?_, ?_⟩⟩
    · simp only [step, keys_dictSet]
      split
      · exact h.nodup
      · rename_i hk
        rw [List.nodup_append]
        refine ⟨h.nodup, by simp, ?_⟩
        intro a ha b hb
        rw [List.mem_singleton] at hb
        subst hb; rintro rfl; exact hk ha
    · simp only [step, OMap.step, keys_dictSet, h.order]
    · intro j; simp only [step, OMap.step, lookup_dictSet, h.content]
  | del k =>
    cases hd : dictDel d k with
    | none =>
      have := dictDel_none.1 hd
      rw [← h.order] at this
      simp only [step, OMap.step, hd, if_neg this]
      exact ⟨trivial, h⟩
    | some d' =>
      have hk : k ∈ m.order := by
        rw [h.order]
        exact Classical.byContradiction fun hn => by rw [dictDel_none.2 hn] at hd; cases hd
      simp only [step, OMap.step, hd, if_pos hk]
      have := dictDel_some h.nodup hd
      subst this
      refine ⟨trivial, ⟨?_, ?_, ?_⟩⟩
      · exact h.nodup.sublist (List.Sublist.map _ List.filter_sublist)
      · simp only [h.order, List.filter_map]; rfl
      · intro j; simp only [lookup_filter_ne, h.content]
  | contains k =>
    refine ⟨?_, h⟩
    simp only [step, OMap.step, Out.bool.injEq]
    rw [Bool.eq_iff_iff, decide_eq_true_eq, hsome]
  | len => exact ⟨by simp only [step, OMap.step, h.order, List.length_map], h⟩
  | iter => exact ⟨by simp only [step, OMap.step, h.order], h⟩

/-- **C34**: over any history of operations, a patterned object answers as an insertion-ordered map would,
and holds the same entries in the same order. -/
theorem C34_refines (d : List (Str × V)) (m : OMap) (h : Represents d m) (ops : List Op) :
    (Mutate.run d ops).2 = (m.run ops).2 ∧ Represents (Mutate.run d ops).1 (m.run ops).1 := by
  induction ops generalizing d m with
  | nil => exact ⟨rfl, h⟩
  | cons op ops ih =>
    obtain ⟨h1, h2⟩ := step_represents h op
    obtain ⟨h3, h4⟩ := ih _ _ h2
    exact ⟨by simp only [Mutate.run, OMap.run, h1, h3], by simpa only [Mutate.run, OMap.run] using h4⟩

/-- Every dict represents a map. -/
theorem represents_self (d : List (Str × V)) (h : (d.map (·.1)).Nodup) :
    Represents d ⟨d.map (·.1), fun k => lookup k d⟩ := ⟨h, rfl, fun _ => rfl⟩

/-- **C34**: a missing key is reported, and nothing changes. -/
theorem C34_missing (m : OMap) (hm : ∀ k, m.content k = none ↔ k ∉ m.order) (k : Str) (hk : k ∉ m.order) :
    m.step (.get k) = (m, .keyError) ∧ m.step (.del k) = (m, .keyError) := by
  constructor
  · simp only [OMap.step, (hm k).2 hk]
  · simp only [OMap.step, if_neg hk]

/-- The operations of an instance are those of its dict. -/
theorem C34_instance (c : Cls) (ex : List (Str × V)) (set : List Str) (d : List (Str × V)) (op : Op) :
    stepInst (.inst c [(p!"root", .dict d)] ex set) op =
      (.inst c [(p!"root", .dict (step d op).1)] ex set, (step d op).2) := rfl

example : (Mutate.run [(p!"a", .int 1), (p!"b", .int 2)]
    [.set p!"c" (.int 3), .del p!"a", .set p!"b" (.int 4), .set p!"a" (.int 5), .iter, .del p!"z", .len]).2 =
    [.unit, .unit, .unit, .unit, .keys [p!"b", p!"c", p!"a"], .keyError, .nat 3] := rfl

/-! ### C35 -/

/-- No extra field has the name of a declared one. -/
def Separate (i : V) : Prop := ∀ c fs ex set, i = .inst c fs ex set → ∀ e ∈ ex, ∀ f ∈ (classDef c).fields, e.1 ≠ f.name

theorem lookup_update (d e : List (Str × V)) (k : Str) : lookup k (update d e) = (lookup k e).orElse fun _ => lookup k d := by
  unfold update
  have happ : ∀ a b : List (Str × V), lookup k (a ++ b) = (lookup k a).orElse fun _ => lookup k b := by
    intro a b
    induction a with
    | nil => rfl
    | cons x a ih =>
      obtain ⟨k', v⟩ := x
      simp only [List.cons_append, lookup]
      split
      · rfl
      · exact ih
  rw [happ]
  have h1 : lookup k (d.map fun x => (x.1, (lookup x.1 e).getD x.2)) = (lookup k d).map fun v => (lookup k e).getD v := by
    induction d with
    | nil => rfl
    | cons x d ih =>
      obtain ⟨k', v⟩ := x
      simp only [List.map_cons, lookup]
      split
      · rename_i h; subst h; rfl
      · exact ih
  have h2 : lookup k d = none → lookup k (e.filter fun x => (lookup x.1 d).isNone) = lookup k e := by
    intro hd
    clear h1
    induction e with
    | nil => rfl
    | cons x e ih =>
      obtain ⟨k', v⟩ := x
      rw [List.filter_cons]
      by_cases hk : k' = k
      · subst hk; simp [hd, lookup]
      · have : lookup k (if (lookup k' d).isNone = true then (k', v) :: e.filter (fun x => (lookup x.1 d).isNone)
            else e.filter fun x => (lookup x.1 d).isNone) = lookup k (e.filter fun x => (lookup x.1 d).isNone) := by
          split
          · simp only [lookup, hk, if_false]
          · rfl
        refine this.trans ?_
        simp only [lookup, hk, if_false]
        exact ih
  rw [h1]
  cases hd : lookup k d with
  | none =>
    rw [h2 hd]
    simp only [Option.map_none]
    cases lookup k e <;> rfl
  | some v => cases lookup k e <;> rfl

theorem attr_rebuild {c : Cls} {d : List (Str × V)} {set : List Str} {f : FieldDef Cls} (hf : f ∈ (classDef c).fields) :
    (rebuild c d set).attr f.name = (lookup f.name d).getD .none := by
  have := lookup_named (name := fun f : FieldDef Cls => f.name) (val := fun f => (lookup f.name d).getD .none)
    (names_nodup c) hf
  simp only [rebuild, V.attr, this, Option.getD_some]

theorem fieldOf_some {c : Cls} {k : Str} {f : FieldDef Cls} (h : fieldOf c k = some f) :
    f ∈ (classDef c).fields ∧ f.name = k :=
  ⟨List.mem_of_find?_eq_some h, by simpa using List.find?_some h⟩

theorem fieldOf_none {c : Cls} {k : Str} (h : fieldOf c k = none) : ∀ f ∈ (classDef c).fields, k ≠ f.name := by
  intro f hf e
  have := List.find?_eq_none.1 h f hf
  exact this (by simp [e])

/-- An instance with valid fields that passes the `after` checks is valid. -/
theorem valid_of_checks {E : Env} {c : Cls} {fs ex : List (Str × V)} {set : List Str}
    (hfs : fs.map (·.1) = (classDef c).fields.map (·.name))
    (hv : ∀ f ∈ (classDef c).fields, Valid E.U E.digits ((V.inst c fs ex set).attr f.name) f.ty ∧
      lengthOk f.maxLen ((V.inst c fs ex set).attr f.name) = true ∧
      (c ≠ .AsyncAPI3 → fieldCheck E c f.name ((V.inst c fs ex set).attr f.name) = true))
    (hclosed : (classDef c).kind = .nonExtendable ∨ (classDef c).kind = .patterned → ex = [])
    (hver : c = .AsyncAPI3 → (V.inst c fs ex set).attr p!"asyncapi" = .str p!"3.0.0" ∨
      ∃ s, (V.inst c fs ex set).attr p!"asyncapi" = .str s ∧ VersionOk E.U E.digits s)
    (hb : (baseCheck E c (.inst c fs ex set) && modelCheck c (.inst c fs ex set)) = true) :
    Valid E.U E.digits (.inst c fs ex set) (.model c) := by
  rw [Bool.and_eq_true] at hb
  refine .model hfs (fun f hf => (hv f hf).1) ⟨?_, hclosed, ?_, ?_, ?_, hver⟩
  · by_cases hk : (classDef c).kind = .patterned
    · intro h; rw [hk] at h; cases h
    · exact (baseCheck_iff E c hk _).1 hb.1
  · intro hk d hd e he
    have hb1 := hb.1
    unfold baseCheck at hb1
    rw [hk] at hb1
    simp only [hd] at hb1
    exact (C20_keys_exact _).1 hb1 e.1 (List.mem_map.2 ⟨e, he, rfl⟩)
  · intro f hf m s hm hs
    have := (hv f hf).2.1
    rw [hm, hs] at this
    simpa [lengthOk] using this
  · by_cases hc : c = .AsyncAPI3
    · subst hc; trivial
    · exact (rule_iff E c hc _).1 ⟨fun f hf => (hv f hf).2.2 hc, hb.2⟩

theorem after_valid {E : Env} {c : Cls} (hs : Safe E (.model c)) {j i : V} (h : after E c j = some i)
    (hj : (baseCheck E c j && modelCheck c j) = true → Valid E.U E.digits j (.model c)) :
    Valid E.U E.digits i (.model c) := by
  have hb := after_checks h
  have hv := hj hb
  by_cases he : c = .AsyncAPI3
  · subst he
    have : after E .AsyncAPI3 j = (runProcessors E j).2 := by
      unfold after; rw [hb]; rfl
    rw [this] at h
    exact runProcessors_valid (hs.resolve_right (by decide)) hv h
  · have : after E c j = some j := by
      have hafter : after E c j = if baseCheck E c j && modelCheck c j then some j else none := by
        cases c <;> first | rfl | exact absurd rfl he
      rw [hafter, hb]; rfl
    rw [this] at h
    cases h; exact hv

theorem lookup_of_names {c : Cls} {fs ex : List (Str × V)} {set : List Str}
    (hfs : fs.map (·.1) = (classDef c).fields.map (·.name)) {f : FieldDef Cls} (hf : f ∈ (classDef c).fields) :
    lookup f.name fs = some ((V.inst c fs ex set).attr f.name) := by
  have : f.name ∈ fs.map (·.1) := hfs ▸ List.mem_map.2 ⟨f, hf, rfl⟩
  obtain ⟨v, hv⟩ := Option.isSome_iff_exists.1 (lookup_isSome_iff.2 this)
  rw [hv]; simp only [V.attr, hv, Option.getD_some]

/-- The new instance, before the `after` validators: everything else is as before. -/
theorem rebuild_valid {E : Env} {c : Cls} {fs ex : List (Str × V)} {set set' : List Str}
    (hi : Valid E.U E.digits (.inst c fs ex set) (.model c)) (hsep : Separate (.inst c fs ex set)) {name : Str} {x : V}
    (hx : ∀ f ∈ (classDef c).fields, f.name = name → Valid E.U E.digits x f.ty ∧ lengthOk f.maxLen x = true ∧
      fieldCheck E c f.name x = true)
    (hk : (∀ f ∈ (classDef c).fields, name ≠ f.name) → (classDef c).kind = .extendable ∨ (classDef c).kind = .openExtra)
    (hb : (baseCheck E c (rebuild c (dictSet (update fs ex) name x) set') &&
      modelCheck c (rebuild c (dictSet (update fs ex) name x) set')) = true) :
    Valid E.U E.digits (rebuild c (dictSet (update fs ex) name x) set') (.model c) := by
  cases hi with
  | model hfs hty hcon =>
    have hattr : ∀ f ∈ (classDef c).fields, (rebuild c (dictSet (update fs ex) name x) set').attr f.name =
        if f.name = name then x else (V.inst c fs ex set).attr f.name := by
      intro f hf
      rw [attr_rebuild hf, lookup_dictSet]
      split
      · rfl
      · rw [lookup_update]
        have : lookup f.name ex = none := by
          rw [lookup_none]
          intro v hv
          exact hsep c fs ex set rfl _ hv f hf rfl
        rw [this, lookup_of_names (ex := ex) (set := set) hfs hf]; rfl
    refine valid_of_checks (by simp) (fun f hf => ?_) ?_ ?_ hb
    · have hr : V.inst c _ _ set' = rebuild c (dictSet (update fs ex) name x) set' := rfl
      rw [hr, hattr f hf]
      split
      · rename_i he; obtain ⟨h1, h2, h3⟩ := hx f hf he; exact ⟨h1, h2, fun _ => h3⟩
      · refine ⟨hty f hf, ?_, fun hc => ((rule_iff E c hc _).2 hcon.rule).1 f hf⟩
        have := hcon.lengths f hf
        cases hm : f.maxLen with
        | none => rfl
        | some m =>
          cases hs : (V.inst c fs ex set).attr f.name <;> try rfl
          simpa [lengthOk] using this m _ hm hs
    · intro hkind
      have hex : ex = [] := hcon.closed hkind
      have hname : ∃ f ∈ (classDef c).fields, name = f.name := by
        apply Classical.byContradiction
        intro hn
        rcases hk (fun f hf e => hn ⟨f, hf, e⟩) with h | h <;> rw [h] at hkind <;> simp at hkind
      subst hex
      rw [List.filter_eq_nil_iff]
      intro e he
      have hm : e.1 ∈ (dictSet (update fs []) name x).map (·.1) := List.mem_map.2 ⟨e, he, rfl⟩
      have hu : (update fs ([] : List (Str × V))).map (·.1) = fs.map (·.1) := by
        unfold update; simp [Function.comp_def]
      have hmem : e.1 ∈ (classDef c).fields.map (·.name) := by
        obtain ⟨f, hf, rfl⟩ := hname
        have hfm : f.name ∈ (update fs ([] : List (Str × V))).map (·.1) := by
          rw [hu, hfs]; exact List.mem_map.2 ⟨f, hf, rfl⟩
        rw [keys_dictSet, if_pos hfm, hu, hfs] at hm
        exact hm
      obtain ⟨f, hf, hfe⟩ := List.mem_map.1 hmem
      rw [← hfe]
      have := find_name (names_nodup c) hf
      unfold fieldOf
      rw [this]; simp
    · rintro rfl
      have hr : V.inst .AsyncAPI3 _ _ set' = rebuild .AsyncAPI3 (dictSet (update fs ex) name x) set' := rfl
      obtain ⟨f, hf, hfn⟩ := asyncapi_field
      rw [hr, ← hfn, hattr f hf]
      split
      · rename_i he
        obtain ⟨h1, h2, h3⟩ := hx f hf he
        have hft : f.ty = .str := by
          change f ∈ defAsyncAPI3.fields at hf
          simp only [defAsyncAPI3, List.mem_cons, List.not_mem_nil, or_false] at hf
          rcases hf with rfl | rfl | rfl | rfl | rfl | rfl | rfl | rfl | rfl | rfl <;>
            first | rfl | exact absurd hfn (by decide)
        rw [hft] at h1
        cases h1 with
        | @str s =>
          rw [hfn] at h3
          exact .inr ⟨s, rfl, (C23_exact E.U E.digits s).1 h3⟩
      · rw [hfn]; exact hcon.version rfl

theorem separate_rebuild {c : Cls} {d : List (Str × V)} {set : List Str} : Separate (rebuild c d set) := by
  intro c' fs ex set' he e hm f hf hn
  simp only [rebuild, V.inst.injEq] at he
  obtain ⟨rfl, -, rfl, -⟩ := he
  have := (List.mem_filter.1 hm).2
  rw [hn, fieldOf, find_name (names_nodup c) hf] at this
  cases this

/-- Names of declared fields are no extension names. -/
theorem namesNoExtension : Cls.all.all (fun c => (classDef c).fields.all fun f => f.name.take 2 != p!"x-") = true := by
  decide +kernel

theorem separate_of_valid {U : Uni} {limit : Option Nat} {c : Cls} {i : V} (hk : (classDef c).kind ≠ .openExtra)
    (h : Valid U limit i (.model c)) : Separate i := by
  intro c' fs ex set he e hm f hf hn
  subst he
  cases h with
  | model _ _ hcon =>
    cases hkind : (classDef c).kind with
    | openExtra => exact hk hkind
    | nonExtendable => rw [show ex = [] from hcon.closed (.inl hkind)] at hm; cases hm
    | patterned => rw [show ex = [] from hcon.closed (.inr hkind)] at hm; cases hm
    | extendable =>
      have hx : OrNewline (ExtensionForm U) e.1 := hcon.extensions hkind e hm
      have hnx := List.all_eq_true.1 (List.all_eq_true.1 namesNoExtension c (Cls.mem_all c)) f hf
      rw [← hn, bne_iff_ne] at hnx
      apply hnx
      rcases hx with hx | ⟨r, hx, hx2⟩
      · obtain ⟨s, hs, _⟩ := hx; rw [hs]; rfl
      · obtain ⟨s, hs, _⟩ := hx2; rw [hx, hs]; rfl

theorem separate_after {E : Env} {c : Cls} (hs : Safe E (.model c)) {d : List (Str × V)} {set : List Str} {j : V}
    (h : after E c (rebuild c d set) = some j)
    (hj : (baseCheck E c (rebuild c d set) && modelCheck c (rebuild c d set)) = true →
      Valid E.U E.digits (rebuild c d set) (.model c)) : Separate j := by
  by_cases hk : (classDef c).kind = .openExtra
  · have hc : c ≠ .AsyncAPI3 := by rintro rfl; cases hk
    have hafter : after E c (rebuild c d set) =
        if baseCheck E c (rebuild c d set) && modelCheck c (rebuild c d set) then some (rebuild c d set) else none := by
      cases c <;> first | rfl | exact absurd rfl hc
    rw [hafter] at h
    split at h
    · cases h; exact separate_rebuild
    · cases h
  · exact separate_of_valid hk (after_valid hs h hj)

/-- Classes with a rule between fields. -/
def crossField : List Cls := [.Channel, .MessageExample, .OAuthFlows, .SecurityScheme, .AMQPChannelBindings,
  .SolaceDestination, .IBMMQChannelBindings, .IBMMQMessageBindings, .KafkaServerBindings]

/-- Assignments that are either refused at once or always succeed: a declared field, or any name in a
class open to all names, of a class without rules between fields, keys or processors. -/
def OneField (c : Cls) (name : Str) : Prop :=
  c ∉ crossField ∧ c ≠ .AsyncAPI3 ∧ (classDef c).kind ≠ .patterned ∧
  ((∃ f ∈ (classDef c).fields, f.name = name) ∨ (classDef c).kind ≠ .extendable)

theorem modelCheck_trivial {c : Cls} (h : c ∉ crossField) (i : V) : modelCheck c i = true := by
  cases c <;> first | rfl | exact absurd (by decide) h

/-- What an assignment does, in one place. -/
theorem assign_cases (E : Env) (rb : Bool) (c : Cls) (fs ex : List (Str × V)) (set : List Str) (name : Str) (x : V) :
    (assign E rb (.inst c fs ex set) name x = .raised (.inst c fs ex set)) ∨
    ∃ v, (∀ f ∈ (classDef c).fields, f.name = name → Accepts E x f.ty v ∧ lengthOk f.maxLen v = true ∧
        fieldCheck E c f.name v = true) ∧
      ((∀ f ∈ (classDef c).fields, name ≠ f.name) → (classDef c).kind = .extendable ∨ (classDef c).kind = .openExtra) ∧
      assign E rb (.inst c fs ex set) name x =
        finish E rb c (.inst c fs ex set) (rebuild c (dictSet (update fs ex) name v) (addSet set name)) := by
  cases hf : fieldOf c name with
  | some f =>
    obtain ⟨hmem, hn⟩ := fieldOf_some hf
    cases hp : parse E x f.ty with
    | none => exact .inl (by simp only [assign, hf, hp])
    | some vs =>
      obtain ⟨v, sc⟩ := vs
      by_cases hck : (lengthOk f.maxLen v && fieldCheck E c f.name v) = true
      · have hck' := hck
        rw [Bool.and_eq_true] at hck'
        refine .inr ⟨v, ?_, fun h => absurd hn.symm (h f hmem), by simp only [assign, hf, hp, hck, if_true]⟩
        intro g hg hgn
        have := same_field hg hmem (hgn.trans hn.symm)
        subst this
        exact ⟨⟨sc, hp⟩, hck'.1, hck'.2⟩
      · exact .inl (by simp only [assign, hf, hp, hck]; rfl)
  | none =>
    have hnone := fieldOf_none hf
    cases hk : (classDef c).kind with
    | extendable =>
      exact .inr ⟨x, fun f hf' he => absurd he.symm (hnone f hf'), fun _ => .inl rfl, by simp only [assign, hf, hk]⟩
    | openExtra =>
      exact .inr ⟨x, fun f hf' he => absurd he.symm (hnone f hf'), fun _ => .inr rfl, by simp only [assign, hf, hk]⟩
    | nonExtendable => exact .inl (by simp only [assign, hf, hk])
    | patterned => exact .inl (by simp only [assign, hf, hk])

theorem accepts_valid {E : Env} {c : Cls} {f : FieldDef Cls} (hf : f ∈ (classDef c).fields) {x v : V}
    (h : Accepts E x f.ty v) : Valid E.U E.digits v f.ty := by
  obtain ⟨sc, h⟩ := h
  exact parse_valid x _ _ _ (.inr (field_docFree hf)) h

/-- One assignment. -/
theorem assign_valid (E : Env) (rb : Bool) (c : Cls) (hs : Safe E (.model c)) (i : V)
    (hi : Valid E.U E.digits i (.model c)) (hsep : Separate i) (name : Str) (x : V)
    (hok : rb = true ∨ OneField c name ∨ ∃ j, assign E rb i name x = .done j) :
    Valid E.U E.digits (assign E rb i name x).state (.model c) ∧ Separate (assign E rb i name x).state := by
  obtain ⟨fs, ex, set, rfl⟩ : ∃ fs ex set, i = .inst c fs ex set := by
    cases hi with | model _ _ _ => exact ⟨_, _, _, rfl⟩
  rcases assign_cases E rb c fs ex set name x with h | ⟨v, hv, hk, h⟩
  · rw [h]; exact ⟨hi, hsep⟩
  · rw [h] at hok ⊢
    have hnew := rebuild_valid (set' := addSet set name) hi hsep
      (fun f hf hn => ⟨accepts_valid hf (hv f hf hn).1, (hv f hf hn).2⟩) hk
    unfold finish at hok ⊢
    cases ha : after E c (rebuild c (dictSet (update fs ex) name v) (addSet set name)) with
    | some j => exact ⟨after_valid hs ha hnew, separate_after hs ha hnew⟩
    | none =>
      rw [ha] at hok
      rcases hok with rfl | hone | ⟨j, hj⟩
      · exact ⟨hi, hsep⟩
      · exfalso
        obtain ⟨h1, h2, h3, h4⟩ := hone
        have hafter : ∀ j, after E c j = if baseCheck E c j && modelCheck c j then some j else none := by
          intro j; cases c <;> first | rfl | exact absurd rfl h2
        rw [hafter, modelCheck_trivial h1, Bool.and_true] at ha
        split at ha
        · cases ha
        · rename_i hb
          apply hb
          rw [baseCheck_iff E c h3]
          intro hkind e he
          -- the extra fields are those there were
          have hd : ∃ f ∈ (classDef c).fields, f.name = name := by
            rcases h4 with h4 | h4
            · exact h4
            · exact absurd hkind h4
          obtain ⟨f, hf, rfl⟩ := hd
          cases hi with
          | model hfs hty hcon =>
            have hm : e ∈ dictSet (update fs ex) f.name v := (List.mem_filter.1 he).1
            have hnf : (fieldOf c e.1).isNone = true := (List.mem_filter.1 he).2
            have hne : ∀ g ∈ (classDef c).fields, e.1 ≠ g.name := by
              rw [Option.isNone_iff_eq_none] at hnf
              exact fieldOf_none hnf
            have hkey : e.1 ∈ (dictSet (update fs ex) f.name v).map (·.1) := List.mem_map.2 ⟨e, hm, rfl⟩
            have hin : e.1 ∈ (update fs ex).map (·.1) := by
              rw [keys_dictSet] at hkey
              split at hkey
              · exact hkey
              · rcases List.mem_append.1 hkey with h | h
                · exact h
                · rw [List.mem_singleton] at h; exact absurd h (hne f hf)
            unfold update at hin
            rw [List.map_append, List.mem_append] at hin
            rcases hin with hin | hin
            · have : e.1 ∈ fs.map (·.1) := by
                simpa [List.map_map, Function.comp_def] using hin
              rw [hfs] at this
              obtain ⟨g, hg, hge⟩ := List.mem_map.1 this
              exact absurd hge.symm (hne g hg)
            · obtain ⟨e', he', hee⟩ := List.mem_map.1 hin
              rw [← hee]
              exact hcon.extensions hkind e' (List.mem_filter.1 he').1
      · cases hj

/-- **C35**, partial: an assignment that is accepted leaves a valid instance. (Separate: no extra field
has the name of a declared one, see `C35_shadow_refuted`. It is kept by assignments.) -/
theorem C35_assignment_partial (E : Env) (rb : Bool) (c : Cls) (hs : c = .AsyncAPI3 → Preserves E) (i : V)
    (hi : Valid E.U E.digits i (.model c)) (hsep : Separate i) (name : Str) (x j : V)
    (h : assign E rb i name x = .done j) : Valid E.U E.digits j (.model c) ∧ Separate j := by
  have hsafe : Safe E (.model c) := by
    by_cases hc : c = .AsyncAPI3
    · exact .inl (hs hc)
    · exact .inr (by show (c != .AsyncAPI3) = true; simpa using hc)
  have := assign_valid E rb c hsafe i hi hsep name x (.inr (.inr ⟨j, h⟩))
  rw [h] at this
  exact this

/-- **C35**, partial: any history of assignments to declared fields, accepted or refused, leaves a valid
instance, for every class without rules between fields. -/
theorem C35_history_partial (E : Env) (rb : Bool) (c : Cls) (i : V) (hi : Valid E.U E.digits i (.model c))
    (hsep : Separate i) (history : List (Str × V)) (hh : ∀ e ∈ history, OneField c e.1) :
    Valid E.U E.digits (assigns E rb i history) (.model c) ∧ Separate (assigns E rb i history) := by
  induction history generalizing i with
  | nil => exact ⟨hi, hsep⟩
  | cons e history ih =>
    obtain ⟨n, x⟩ := e
    have h1 := hh (n, x) List.mem_cons_self
    have hsafe : Safe E (.model c) := .inr (by show (c != .AsyncAPI3) = true; simpa using h1.2.1)
    obtain ⟨h2, h3⟩ := assign_valid E rb c hsafe i hi hsep n x (.inr (.inl h1))
    exact ih _ h2 h3 fun e he => hh e (List.mem_cons_of_mem _ he)

/-- **C35**, partial: if refused assignments were undone, any history would leave a valid instance,
for every class. -/
theorem C35_rollback_partial (E : Env) (c : Cls) (hs : c = .AsyncAPI3 → Preserves E) (i : V)
    (hi : Valid E.U E.digits i (.model c)) (hsep : Separate i) (history : List (Str × V)) :
    Valid E.U E.digits (assigns E true i history) (.model c) := by
  have hsafe : Safe E (.model c) := by
    by_cases hc : c = .AsyncAPI3
    · exact .inl (hs hc)
    · exact .inr (by show (c != .AsyncAPI3) = true; simpa using hc)
  induction history generalizing i with
  | nil => exact hi
  | cons e history ih =>
    obtain ⟨n, x⟩ := e
    obtain ⟨h2, h3⟩ := assign_valid E true c hsafe i hi hsep n x (.inl rfl)
    exact ih _ h2 h3

/-- A value of the wrong type, too long, or refused by the field's own validator never gets in. -/
theorem C35_type_error_unchanged (E : Env) (rb : Bool) (c : Cls) (fs ex : List (Str × V)) (set : List Str)
    (f : FieldDef Cls) (hf : f ∈ (classDef c).fields) (x : V) (hx : ∀ v, ¬ Accepts E x f.ty v) :
    assign E rb (.inst c fs ex set) f.name x = .raised (.inst c fs ex set) := by
  rcases assign_cases E rb c fs ex set f.name x with h | ⟨v, hv, _, _⟩
  · exact h
  · exact absurd (hv f hf rfl).1 (hx v)

/-! ### C35 in full is false -/

/-- **C35** as stated: whatever assignments are made, accepted or not, the instance stays valid. -/
def C35_Claim (E : Env) (rb : Bool) : Prop := ∀ c i, Valid E.U E.digits i (.model c) →
  ∀ history, Valid E.U E.digits (assigns E rb i history) (.model c)

set_option maxRecDepth 20000

/-- A channel with an address with a parameter. -/
def aChannel : V := .inst .Channel [(p!"address", .str p!"a/{x}"), (p!"messages", .none), (p!"title", .none),
  (p!"summary", .none), (p!"description", .none), (p!"servers", .none),
  (p!"parameters", .inst .Parameters [(p!"root", .dict [(p!"x", .inst .Parameter [(p!"enum", .none), (p!"default", .none),
    (p!"description", .none), (p!"examples", .none), (p!"location", .none)] [] [])])] [] [p!"root"]),
  (p!"tags", .none), (p!"external_docs", .none), (p!"bindings", .none)] [] [p!"address", p!"parameters"]

theorem aChannel_made : validate plainEnv .Channel (.dict [(p!"address", .str p!"a/{x}"),
    (p!"parameters", .dict [(p!"x", .dict [])])]) = some aChannel := rfl

theorem aChannel_valid : Valid plainEnv.U plainEnv.digits aChannel (.model .Channel) :=
  C42_valid plainEnv .Channel (by decide) _ _ aChannel_made

theorem valid_rule {U : Uni} {limit : Option Nat} {c : Cls} {i : V} (h : Valid U limit i (.model c)) : Rule c i := by
  cases h with | model _ _ hcon => exact hcon.rule

/-- The assignment `channel.address = "b"` raises (parameters without expressions), but the channel now has
that address: pydantic changes the instance before it runs the `after` validators. -/
theorem C35_raised_refuted : ¬ C35_Claim plainEnv false := by
  intro h
  have := valid_rule (h .Channel aChannel aChannel_valid [(p!"address", .str p!"b")])
  change ChannelRule _ at this
  obtain ⟨a, ha, b, ins, r, hb, hins, _⟩ := this (by intro e; cases e)
  have : a = p!"b" := by cases ha; rfl
  subst this
  have := congrArg List.length hb
  cases b with
  | nil => cases hb
  | cons c b => simp at this

example : ∃ j, assign plainEnv false aChannel p!"address" (.str p!"b") = .raised j := ⟨_, rfl⟩
/-- A valid new address is accepted. -/
example : ∃ j, assign plainEnv false aChannel p!"address" (.str p!"b/{x}") = .done j := ⟨_, rfl⟩
example : Separate aChannel := separate_of_valid (by decide) aChannel_valid
example : OneField .Info p!"title" := ⟨by decide, by decide, by decide, .inl ⟨defInfo.fields[0], by exact List.mem_of_getElem (i := 0) rfl, rfl⟩⟩

/-- **C35** for item assignment on patterned objects: validity is kept. -/
def C35_ItemClaim (E : Env) : Prop := ∀ c i, Valid E.U E.digits i (.model c) →
  ∀ op, Valid E.U E.digits (stepInst i op).1 (.model c)

/-- `servers["my server"] = 1`: neither the key nor the value is checked. -/
theorem C35_setitem_refuted : ¬ C35_ItemClaim plainEnv := by
  intro h
  have hv : Valid plainEnv.U plainEnv.digits (.inst .Servers [(p!"root", .dict [])] [] [p!"root"]) (.model .Servers) :=
    C42_valid plainEnv .Servers (by decide) (.dict []) _ rfl
  have := h _ _ hv (.set p!"my server" (.int 1))
  cases this with
  | model _ _ hcon =>
    have := hcon.keys rfl [(p!"my server", .int 1)] rfl (p!"my server", .int 1) List.mem_cons_self
    rw [← C20_key_exact] at this
    revert this
    decide +kernel

/-- **C35** for instances within instances: replacing the value of a declared field by another valid
instance of the same class (as assigning to an attribute of that instance does, instances being
shared) keeps validity. -/
def C35_NestedClaim (E : Env) : Prop := ∀ c fs ex set c' name i j,
  Valid E.U E.digits (.inst c fs ex set) (.model c) → (V.inst c fs ex set).attr name = i →
  Valid E.U E.digits i (.model c') → Valid E.U E.digits j (.model c') →
  Valid E.U E.digits (.inst c (dictSet fs name j) ex set) (.model c)

/-- `flows.implicit.authorization_url = None` is accepted by the flow, but the flows object is no
longer valid. -/
theorem C35_nested_refuted : ¬ C35_NestedClaim plainEnv := by
  intro h
  have h1 := h .OAuthFlows [(p!"implicit", .inst .OAuthFlow [(p!"authorization_url", .url .any p!"https://x"),
      (p!"token_url", .none), (p!"refresh_url", .none), (p!"available_scopes", .dict [])] []
      [p!"authorization_url", p!"available_scopes"]), (p!"password", .none),
      (p!"client_credentials", .none), (p!"authorization_code", .none)] [] [p!"implicit"] .OAuthFlow p!"implicit" _
    (.inst .OAuthFlow [(p!"authorization_url", .none),
      (p!"token_url", .none), (p!"refresh_url", .none), (p!"available_scopes", .dict [])] []
      [p!"authorization_url", p!"available_scopes"])
    (C42_valid plainEnv .OAuthFlows (by decide) (.dict [(p!"implicit", .dict [(p!"authorizationUrl", .str p!"https://x"),
      (p!"availableScopes", .dict [])])]) _ rfl) rfl
    (C42_valid plainEnv .OAuthFlow (by decide) (.dict [(p!"authorizationUrl", .str p!"https://x"),
      (p!"availableScopes", .dict [])]) _ rfl)
    (C42_valid plainEnv .OAuthFlow (by decide) (.dict [(p!"authorizationUrl", .none),
      (p!"availableScopes", .dict [])]) _ rfl)
  have := valid_rule h1
  exact this.1 p!"implicit" (by simp) (by intro e; cases e) rfl

/-- Without `Separate`: a schema given `externalDocs` and an extra field with the Python name. Assigning
any other attribute makes the unchecked extra value the value of the field. -/
theorem C35_shadow_refuted : ∃ i j, Valid plainEnv.U plainEnv.digits i (.model .Schema) ∧
    assign plainEnv false i p!"deprecated" (.bool true) = .done j ∧
    ¬ Valid plainEnv.U plainEnv.digits j (.model .Schema) := by
  refine ⟨.inst .Schema [(p!"discriminator", .none), (p!"external_docs", .none), (p!"deprecated", .none)]
      [(p!"external_docs", .int 1)] [p!"external_docs", p!"external_docs"],
    .inst .Schema [(p!"discriminator", .none), (p!"external_docs", .int 1), (p!"deprecated", .bool true)]
      [] [p!"external_docs", p!"external_docs", p!"deprecated"],
    C42_valid plainEnv .Schema (by decide) (.dict [(p!"externalDocs", .none), (p!"external_docs", .int 1)]) _ rfl,
    rfl, ?_⟩
  intro h
  cases h with
  | model _ hty _ =>
    have : Valid plainEnv.U plainEnv.digits (.int 1) (.union [.model .ExternalDocumentation, .model .Reference, .none]) :=
      hty (defSchema.fields[1]) (by exact List.mem_of_getElem (i := 1) rfl)
    cases this with
    | union ht hv =>
      simp only [List.mem_cons, List.not_mem_nil, or_false] at ht
      rcases ht with rfl | rfl | rfl <;> cases hv

end Verif.Props
