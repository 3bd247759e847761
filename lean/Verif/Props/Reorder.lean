import Verif.Lemmas.Reorder
/-!
# C56: the order of keys

JSON objects are unordered. Neither what is accepted nor what it means depends on the order in which keys are given, at
any depth: not the choice in unions, not the checks of the classes, not the package's validators.
-/
namespace Verif.Props
open Verif Verif.Gen Verif.Spec Verif.Pyd Verif.Document Verif.Mutate

theorem mem_dumpFields {c : Cls} {fs : List (Str × V)} {k : Str} {a : V} : (k, a) ∈ dumpFields c fs ↔
    ∃ n v f, (n, v) ∈ fs ∧ fieldOf c n = some f ∧ f.exclude = false ∧ (f.excludeNull && v.isNone) = false ∧
      k = f.alias.getD f.name ∧ a = dump v := by
  induction fs with
  | nil => simp [dumpFields]
  | cons e fs ih =>
    obtain ⟨n, v⟩ := e
    simp only [dumpFields]
    cases hf : fieldOf c n with
    | none =>
      simp only [ih, List.mem_cons, Prod.mk.injEq]
      constructor
      · rintro ⟨n', v', f, h, rest⟩; exact ⟨n', v', f, .inr h, rest⟩
      · rintro ⟨n', v', f, h | h, h1, rest⟩
        · rw [h.1, hf] at h1; cases h1
        · exact ⟨n', v', f, h, h1, rest⟩
    | some f =>
      simp only [List.mem_cons, Prod.mk.injEq]
      cases hx : f.exclude with
      | true =>
        simp only [if_true, ih]
        constructor
        · rintro ⟨n', v', f, h, rest⟩; exact ⟨n', v', f, .inr h, rest⟩
        · rintro ⟨n', v', f', h | h, h1, h2, rest⟩
          · rw [h.1, hf] at h1; cases h1; rw [hx] at h2; cases h2
          · exact ⟨n', v', f', h, h1, h2, rest⟩
      | false =>
        cases hn : f.excludeNull && v.isNone with
        | true =>
          simp only [if_true, Bool.false_eq_true, if_false, ih]
          constructor
          · rintro ⟨n', v', f, h, rest⟩; exact ⟨n', v', f, .inr h, rest⟩
          · rintro ⟨n', v', f', h | h, h1, h2, h3, rest⟩
            · rw [h.1, hf] at h1; cases h1; rw [h.2, hn] at h3; cases h3
            · exact ⟨n', v', f', h, h1, h2, h3, rest⟩
        | false =>
          simp only [Bool.false_eq_true, if_false, List.mem_cons, Prod.mk.injEq, ih]
          constructor
          · rintro (⟨rfl, rfl⟩ | ⟨n', v', f, h, rest⟩)
            · exact ⟨n, v, f, .inl ⟨rfl, rfl⟩, hf, hx, hn, rfl, rfl⟩
            · exact ⟨n', v', f, .inr h, rest⟩
          · rintro ⟨n', v', f', h | h, h1, h2, h3, h4, h5⟩
            · rw [h.1, hf] at h1; cases h1
              exact .inl ⟨h4, by rw [h5, h.2]⟩
            · exact .inr ⟨n', v', f', h, h1, h2, h3, h4, h5⟩

theorem same_key {d d' : List (Str × V)} (h : ∀ k, k ∈ d.map (·.1) ↔ k ∈ d'.map (·.1)) {k : Str} {v : V} (hv : (k, v) ∈ d) :
    ∃ w, (k, w) ∈ d' := by
  obtain ⟨⟨k', w⟩, hw, rfl⟩ := List.mem_map.1 ((h k).1 (List.mem_map_of_mem hv))
  exact ⟨w, hw⟩

theorem nodup_unique {d : List (Str × V)} (hn : (d.map (·.1)).Nodup) {k : Str} {v w : V} (hv : (k, v) ∈ d) (hw : (k, w) ∈ d) : v = w :=
  Option.some.inj (((lookup_iff hn).2 hv).symm.trans ((lookup_iff hn).2 hw))

/-- What is written of the same thing is the same. -/
theorem dump_reordered {v w : V} (h : Reordered v w) : WellFormed (dump v) → WellFormed (dump w) → Reordered (dump v) (dump w) := by
  induction h with
  | none => intros; exact .none
  | bool => intros; exact .bool
  | int => intros; exact .int
  | float => intros; exact .float
  | str => intros; exact .str
  | url => intros; exact .str
  | proc => intros; exact .proc
  | list hl h ih =>
    rename_i l l'
    simp only [dump, dumpList_map]
    intro h1 h2
    cases h1 with
    | list h1 => cases h2 with
      | list h2 =>
        refine .list (by simp [hl]) fun i a b ha hb => ?_
        rw [List.getElem?_map, Option.map_eq_some_iff] at ha hb
        obtain ⟨a, ha, rfl⟩ := ha
        obtain ⟨b, hb, rfl⟩ := hb
        exact ih i a b ha hb (h1 _ (List.mem_map_of_mem (List.mem_of_getElem? ha))) (h2 _ (List.mem_map_of_mem (List.mem_of_getElem? hb)))
  | dict h1 h2 h3 h4 ih =>
    simp only [dump, dumpDict_map]
    intro hw hw'
    cases hw with
    | dict hw1 hw2 => cases hw' with
      | dict hw1' hw2' =>
        refine .dict hw1 hw1' (by simp only [List.map_map]; exact h3) fun k a b ha hb => ?_
        have ha' := hw2 _ ha
        have hb' := hw2' _ hb
        obtain ⟨⟨k1, a1⟩, hm, e⟩ := List.mem_map.1 ha
        obtain ⟨⟨k2, b1⟩, hm', e'⟩ := List.mem_map.1 hb
        simp only [Prod.mk.injEq] at e e'
        obtain ⟨rfl, rfl⟩ := e
        obtain ⟨rfl, rfl⟩ := e'
        exact ih _ _ _ hm hm' ha' hb'
  | inst h1 h2 h3 h4 h5 h6 h7 h8 ih1 ih2 =>
    rename_i c fs fs' ex ex' set set'
    have hfs : Alikes fs fs' := ⟨fun k => by rw [h1], h3⟩
    simp only [dump]
    split
    · rw [dumpDict_map, dumpDict_map, lookup_map, lookup_map]
      rcases alikes_lookup hfs p!"root" with ⟨e1, e2⟩ | ⟨v, w, e1, e2, _⟩
      · rw [e1, e2]; intros; exact .none
      · rw [e1, e2]; exact ih1 _ v w (lookup_some_mem e1) (lookup_some_mem e2)
    · intro hw hw'
      cases hw with
      | dict hw1 hw2 => cases hw' with
        | dict hw1' hw2' =>
          -- each entry has its counterpart
          have key : ∀ k a, (k, a) ∈ dumpFields c fs ++ dumpDict ex → ∃ b, (k, b) ∈ dumpFields c fs' ++ dumpDict ex' ∧ Reordered a b := by
            intro k a ha
            have hwa := hw2 _ ha
            rcases List.mem_append.1 ha with ha | ha
            · obtain ⟨n, v, f, hv, hf, hx, hnull, rfl, rfl⟩ := mem_dumpFields.1 ha
              obtain ⟨w, hw⟩ := same_key hfs.1 hv
              have hm : (f.alias.getD f.name, dump w) ∈ dumpFields c fs' ++ dumpDict ex' :=
                List.mem_append.2 (.inl (mem_dumpFields.2 ⟨n, w, f, hw, hf, hx, by rw [reordered_isNone (h3 n v w hv hw)]; exact hnull, rfl, rfl⟩))
              exact ⟨_, hm, ih1 n v w hv hw hwa (hw2' _ hm)⟩
            · rw [dumpDict_map] at ha
              obtain ⟨⟨k', v⟩, hv, e⟩ := List.mem_map.1 ha
              simp only [Prod.mk.injEq] at e
              obtain ⟨rfl, rfl⟩ := e
              obtain ⟨w, hw⟩ := same_key h6 hv
              have hm : (k', dump w) ∈ dumpFields c fs' ++ dumpDict ex' :=
                List.mem_append.2 (.inr (by rw [dumpDict_map]; exact List.mem_map.2 ⟨_, hw, rfl⟩))
              exact ⟨_, hm, ih2 _ v w hv hw hwa (hw2' _ hm)⟩
          have key' : ∀ k b, (k, b) ∈ dumpFields c fs' ++ dumpDict ex' → ∃ a, (k, a) ∈ dumpFields c fs ++ dumpDict ex := by
            intro k b hb
            rcases List.mem_append.1 hb with hb | hb
            · obtain ⟨n, w, f, hw, hf, hx, hnull, rfl, rfl⟩ := mem_dumpFields.1 hb
              obtain ⟨v, hv⟩ := same_key (fun k => (hfs.1 k).symm) hw
              exact ⟨_, List.mem_append.2 (.inl (mem_dumpFields.2 ⟨n, v, f, hv, hf, hx, by
                rw [← reordered_isNone (h3 n v w hv hw)]; exact hnull, rfl, rfl⟩))⟩
            · rw [dumpDict_map] at hb
              obtain ⟨⟨k', w⟩, hw, e⟩ := List.mem_map.1 hb
              simp only [Prod.mk.injEq] at e
              obtain ⟨rfl, rfl⟩ := e
              obtain ⟨v, hv⟩ := same_key (fun k => (h6 k).symm) hw
              exact ⟨_, List.mem_append.2 (.inr (by rw [dumpDict_map]; exact List.mem_map.2 ⟨_, hv, rfl⟩))⟩
          refine .dict hw1 hw1' ?_ ?_
          · intro k
            constructor
            · intro hk
              obtain ⟨⟨k', a⟩, ha, rfl⟩ := List.mem_map.1 hk
              obtain ⟨b, hb, _⟩ := key _ _ ha
              exact List.mem_map_of_mem (f := (·.1)) hb
            · intro hk
              obtain ⟨⟨k', a⟩, ha, rfl⟩ := List.mem_map.1 hk
              obtain ⟨b, hb⟩ := key' _ _ ha
              exact List.mem_map_of_mem (f := (·.1)) hb
          · intro k a b ha hb
            obtain ⟨b', hb', hr⟩ := key k a ha
            rw [nodup_unique hw1' hb hb']
            exact hr

/-- `Reordered` JSON has no key twice. -/
theorem reordered_wellFormed {x y : V} (h : Reordered x y) (hj : x.isJson = true) : WellFormed x ∧ WellFormed y := by
  induction h with
  | none => exact ⟨.none, .none⟩
  | bool => exact ⟨.bool, .bool⟩
  | int => exact ⟨.int, .int⟩
  | float => exact ⟨.float, .float⟩
  | str => exact ⟨.str, .str⟩
  | url => cases hj
  | proc => cases hj
  | inst => cases hj
  | list hl h ih =>
    rename_i l l'
    rw [V.isJson, isJsonList_iff] at hj
    constructor
    · refine .list fun v hv => ?_
      obtain ⟨i, hi, rfl⟩ := List.getElem_of_mem hv
      exact (ih i _ _ (List.getElem?_eq_getElem hi) (List.getElem?_eq_getElem (by omega)) (hj _ hv)).1
    · refine .list fun v hv => ?_
      obtain ⟨i, hi, rfl⟩ := List.getElem_of_mem hv
      have hi' : i < l.length := by omega
      exact (ih i _ _ (List.getElem?_eq_getElem hi') (List.getElem?_eq_getElem hi) (hj _ (List.getElem_mem _))).2
  | dict h1 h2 h3 h4 ih =>
    rw [V.isJson, isJsonDict_iff] at hj
    constructor
    · refine .dict h1 fun e he => ?_
      obtain ⟨w, hw⟩ := same_key h3 (show (e.1, e.2) ∈ _ from he)
      exact (ih e.1 e.2 w he hw (hj _ he)).1
    · refine .dict h2 fun e he => ?_
      obtain ⟨v, hv⟩ := same_key (fun k => (h3 k).symm) (show (e.1, e.2) ∈ _ from he)
      exact (ih e.1 v e.2 hv he (hj _ hv)).2

/-- **C56.** JSON that differs in the order of keys only is accepted or refused alike; what is made of it is the same, and
what is written of it is the same, up to the order of keys. -/
theorem C56_order (E : Env) (c : Cls) (x y : V) (hj : x.isJson = true) (h : Reordered x y) :
    (validate E c x = none ∧ validate E c y = none) ∨
      ∃ v w, validate E c x = some v ∧ validate E c y = some w ∧ Reordered v w ∧ Reordered (dump v) (dump w) := by
  have := json_respects E x hj y h (.model c)
  obtain ⟨hx, hy⟩ := reordered_wellFormed h hj
  have d1 := C54_written E c x hx
  have d2 := C54_written E c y hy
  unfold validate at d1 d2 ⊢
  revert this d1 d2
  cases parse E x (.model c) with
  | none => cases parse E y (.model c) with
    | none => intros; exact .inl ⟨rfl, rfl⟩
    | some r => intro h; cases h
  | some r => cases parse E y (.model c) with
    | none => intro h; cases h
    | some r' =>
      rintro ⟨h, _⟩ d1 d2
      exact .inr ⟨_, _, rfl, rfl, h, dump_reordered h (d1 _ rfl) (d2 _ rfl)⟩

/-! ### The validators of the package -/

theorem reordered_symm {v w : V} (h : Reordered v w) : Reordered w v := by
  induction h with
  | list hl h ih => exact .list hl.symm fun i a b ha hb => ih i b a hb ha
  | dict h1 h2 h3 h4 ih => exact .dict h2 h1 (fun k => (h3 k).symm) fun k a b ha hb => ih k b a hb ha
  | inst h1 h2 h3 h4 h5 h6 h7 h8 ih1 ih2 =>
    exact .inst h1.symm (h1 ▸ h2) (fun k a b ha hb => ih1 k b a hb ha) h5 h4 (fun k => (h6 k).symm)
      (fun k a b ha hb => ih2 k b a hb ha) fun n => (h8 n).symm
  | _ => constructor

open Classical in
/-- The same, but for the order of keys: so each has all that the other has. -/
theorem grows_reordered {v w : V} (h : Reordered v w) : Grows v w := by
  induction h with
  | none => exact .none
  | bool => exact .plain .bool .bool
  | int => exact .plain .int .int
  | float => exact .plain .float .float
  | str => exact .plain .str .str
  | url => exact .plain .url .url
  | proc => exact .plain .proc .proc
  | list hl h ih =>
    rename_i l l'
    refine Grows.ofList fun i v hv => ?_
    have hi : i < l'.length := by rw [← hl]; exact (List.getElem?_eq_some_iff.1 hv).1
    exact ⟨l'[i], List.getElem?_eq_getElem hi, ih i v _ hv (List.getElem?_eq_getElem hi)⟩
  | dict h1 h2 h3 h4 ih =>
    refine Grows.ofDict fun k v hv => ?_
    obtain ⟨w, hw⟩ := same_key h3 hv
    exact ⟨w, hw, ih k v w hv hw⟩
  | inst h1 h2 h3 h4 h5 h6 h7 h8 ih1 ih2 =>
    rename_i c fs fs' ex ex' set set'
    have hk : ∀ k, k ∈ fs.map (·.1) ↔ k ∈ fs'.map (·.1) := fun k => by rw [h1]
    have href : c = .Reference → ∀ s, (p!"ref", .str s) ∈ fs ↔ (p!"ref", .str s) ∈ fs' := by
      refine fun _ s => ⟨fun hv => ?_, fun hw => ?_⟩
      · obtain ⟨w, hw⟩ := same_key hk hv
        cases h3 _ _ _ hv hw
        exact hw
      · obtain ⟨v, hv⟩ := same_key (fun k => (hk k).symm) hw
        cases h3 _ _ _ hv hw
        exact hv
    refine Grows.ofInst href (fun k v hv => ?_) (fun k w hw => ?_) (fun v hv => ?_) (fun w hw => ?_)
    · obtain ⟨w, hw⟩ := same_key hk hv
      exact ⟨w, hw, .inr (ih1 k v w hv hw)⟩
    · obtain ⟨v, hv⟩ := same_key (fun k => (hk k).symm) hw
      exact ⟨v, hv, .inr (ih1 k v w hv hw)⟩
    · obtain ⟨w, hw⟩ := same_key h6 hv
      exact ⟨w, hw, ih2 _ v w hv hw⟩
    · obtain ⟨v, hv⟩ := same_key (fun k => (h6 k).symm) hw
      exact ⟨v, hv, ih2 _ v w hv hw⟩

theorem asked_data {U : Uni} {limit : Option Nat} {number : Validator → Nat} {d : List (Str × V)} {cs ps : List Validator}
    (ha : Asked number d cs ps) (hk : (d.map (·.1)).Nodup) (hw : WellFormed (.dict (withoutProcessors d))) :
    Data (.dict d) ∧ Sound U limit (.dict d) := by
  have hall : ∀ e ∈ d, Data e.2 ∧ Sound U limit e.2 := by
    intro e he
    by_cases hx : e.1 = p!"extra_converters" ∨ e.1 = p!"extra_validators"
    · exact processors_plain ha hk e (mem_processorsIn.2 ⟨he, hx⟩)
    · simp only [not_or] at hx
      cases hw with
      | dict _ hw =>
        have := hw e (mem_without.2 ⟨he, hx⟩)
        exact ⟨wellFormed_data this, wellFormed_sound this⟩
  exact ⟨.dict fun e he => (hall e he).1, .dict hk fun e he => (hall e he).2⟩

/-- A list of processors has one order. -/
theorem reordered_procs {ns : List Nat} {w : V} (h : Reordered (.list (ns.map .proc)) w) : w = .list (ns.map .proc) := by
  cases h with
  | list hl h =>
    rename_i l'
    congr 1
    refine List.ext_getElem? fun i => ?_
    by_cases hi : i < l'.length
    · have hi' : i < (ns.map V.proc).length := by omega
      have := h i _ _ (List.getElem?_eq_getElem hi') (List.getElem?_eq_getElem hi)
      rw [List.getElem?_eq_getElem hi', List.getElem?_eq_getElem hi]
      rw [List.getElem_map] at this ⊢
      revert this
      generalize l'[i] = x
      intro this
      cases this; rfl
    · rw [List.getElem?_eq_none (by omega), List.getElem?_eq_none (by omega)]

theorem holds_reordered {number : Validator → Nat} {d d' : List (Str × V)} (h : Alikes d d') {k : Str} {qs : List Validator}
    (hh : Holds number d k qs) : Holds number d' k qs := by
  unfold Holds at *
  rcases hh with hh | ⟨e, hh | hh⟩
  · left
    rcases alikes_lookup h k with ⟨e1, _⟩ | ⟨v, w, e1, e2, hr⟩
    · rw [e1] at hh; cases hh
    · rw [e1] at hh
      cases hh
      rw [show (qs.map fun p => V.proc (number p)) = (qs.map number).map V.proc by simp] at hr ⊢
      rw [e2, reordered_procs hr]
  · rcases alikes_lookup h k with ⟨_, e2⟩ | ⟨v, w, e1, _, _⟩
    · exact .inr ⟨e, .inl e2⟩
    · rw [e1] at hh; cases hh
  · rcases alikes_lookup h k with ⟨e1, _⟩ | ⟨v, w, e1, e2, hr⟩
    · rw [e1] at hh; cases hh
    · rw [e1] at hh; cases hh; cases hr
      exact .inr ⟨e, .inr e2⟩

/-- **C56.** The same with the validators of the package: whether they accept a document, read from JSON, does not depend on
the order of its keys. -/
theorem C56_validators (E : Env) (number : Validator → Nat) (hn : Numbered E number) (d d' : List (Str × V))
    (cs ps : List Validator) (ha : Asked number d cs ps) (hj : (V.dict (withoutProcessors d)).isJson = true)
    (h : Reordered (.dict d) (.dict d')) (j : V) (hv : validate E .AsyncAPI3 (.dict d) = some j) :
    ∃ j', validate E .AsyncAPI3 (.dict d') = some j' ∧ Reordered j j' := by
  cases h with
  | dict h1 h2 h3 h4 =>
    have hal : Alikes d d' := ⟨h3, h4⟩
    rw [V.isJson, isJsonDict_iff] at hj
    have hresp : ∀ e ∈ d, Respects E e.2 := by
      intro e he
      by_cases hx : e.1 = p!"extra_converters" ∨ e.1 = p!"extra_validators"
      · rcases asked_value ha h1 he hx with h | ⟨qs, h⟩ <;> rw [h]
        · exact json_respects E _ rfl
        · rw [show (qs.map fun p => V.proc (number p)) = (qs.map number).map V.proc by simp]
          exact procs_respect E _
      · simp only [not_or] at hx
        exact json_respects E _ (hj e (mem_without.2 ⟨he, hx⟩))
    have hwith : ∀ {d : List (Str × V)}, (d.map (·.1)).Nodup → ((withoutProcessors d).map (·.1)).Nodup := fun hd =>
      hd.sublist (List.filter_sublist.map _)
    have hW : WellFormed (.dict (withoutProcessors d)) ∧ WellFormed (.dict (withoutProcessors d')) := by
      refine ⟨.dict (hwith h1) fun e he => ?_, .dict (hwith h2) fun e he => ?_⟩
      · obtain ⟨w, hw⟩ := same_key h3 (show (e.1, e.2) ∈ d from (mem_without.1 he).1)
        exact (reordered_wellFormed (h4 _ _ _ (mem_without.1 he).1 hw) (hj e he)).1
      · obtain ⟨w, hw⟩ := same_key (fun k => (h3 k).symm) (show (e.1, e.2) ∈ d' from (mem_without.1 he).1)
        exact (reordered_wellFormed (h4 _ _ _ hw (mem_without.1 he).1) (hj (e.1, w) (mem_without.2 ⟨hw, (mem_without.1 he).2⟩))).2
    have ha' : Asked number d' cs ps := ⟨holds_reordered hal ha.1, holds_reordered hal ha.2⟩
    obtain ⟨hd1, hd2⟩ := asked_data (U := E.U) (limit := E.digits) ha h1 hW.1
    obtain ⟨hd1', hd2'⟩ := asked_data (U := E.U) (limit := E.digits) ha' h2 hW.2
    obtain ⟨hok, hb, rfl, hdem⟩ := (validate_validators hn ha hd2 hd1 j).1 hv
    have hr : Reordered (built E d) (built E d') := inst_alikes (E := E) h1 h2 hal hresp .AsyncAPI3
    refine ⟨built E d', (validate_validators hn ha' hd2' hd1' _).2 ⟨(allOk_alikes hal hresp _).trans hok,
      (reordered_baseCheck hr E _).trans hb, rfl, fun p hp => ?_⟩, hr⟩
    exact demands_both (grows_reordered hr) (grows_reordered (reordered_symm hr)) (hdem p hp)

/-! ### A concrete case -/

mutual
/-- All objects with their keys in reverse order. -/
def mirror : V → V
  | .list l => .list (mirrorL l)
  | .dict d => .dict (mirrorD d).reverse
  | v => v
def mirrorL : List V → List V
  | [] => []
  | v :: l => mirror v :: mirrorL l
def mirrorD : List (Str × V) → List (Str × V)
  | [] => []
  | (k, v) :: d => (k, mirror v) :: mirrorD d
end

theorem mirrorL_map (l : List V) : mirrorL l = l.map mirror := by
  induction l with
  | nil => rfl
  | cons v l ih => simp [mirrorL, ih]
theorem mirrorD_map (d : List (Str × V)) : mirrorD d = d.map fun e => (e.1, mirror e.2) := by
  induction d with
  | nil => rfl
  | cons e d ih => obtain ⟨k, v⟩ := e; simp [mirrorD, ih]

/-- Everything that was read from JSON has such a reordering. -/
theorem reordered_mirror {x : V} (h : WellFormed x ∨ ∃ n, x = .proc n ∨ ∃ ns : List Nat, x = .list (ns.map .proc)) :
    Reordered x (mirror x) := by
  rcases h with h | ⟨n, rfl | ⟨ns, rfl⟩⟩
  · induction h with
    | none => exact .none
    | bool => exact .bool
    | int => exact .int
    | float => exact .float
    | str => exact .str
    | list h ih =>
      rw [mirror, mirrorL_map]
      refine .list (by simp) fun i v w hv hw => ?_
      rw [List.getElem?_map, hv] at hw
      cases hw
      exact ih v (List.mem_of_getElem? hv)
    | dict hn h ih =>
      rw [mirror, mirrorD_map]
      refine .dict hn ?_ ?_ ?_
      · rw [List.map_reverse, List.nodup_reverse, List.map_map]; exact hn
      · intro k; rw [List.map_reverse, List.mem_reverse, List.map_map]; rfl
      · intro k v w hv hw
        rw [List.mem_reverse] at hw
        obtain ⟨⟨k', v'⟩, hv', e⟩ := List.mem_map.1 hw
        simp only [Prod.mk.injEq] at e
        obtain ⟨rfl, rfl⟩ := e
        rw [nodup_unique hn hv hv']
        exact ih _ hv'
  · exact .proc
  · rw [mirror, mirrorL_map]
    refine .list (by simp) fun i v w hv hw => ?_
    rw [List.getElem?_map, hv] at hw
    cases hw
    obtain ⟨n, _, rfl⟩ := List.mem_map.1 (List.mem_of_getElem? hv)
    exact .proc

set_option maxRecDepth 20000

/-- The document of C55's example, mirrored, without its processors: it is another value, … -/
example : mirror (.dict (withoutProcessors twice)) ≠ .dict (withoutProcessors twice) := by
  intro h
  have := congrArg (fun v => match v with | .dict ((k, _) :: _) => k | _ => []) h
  revert this; decide +kernel
/-- … and accepted with the same result. -/
example : ∃ v w, validate packageEnv .AsyncAPI3 (.dict (withoutProcessors twice)) = some v ∧
    validate packageEnv .AsyncAPI3 (mirror (.dict (withoutProcessors twice))) = some w ∧ Reordered v w := by
  rcases C56_order packageEnv .AsyncAPI3 _ _ (wellFormed_json twice_json) (reordered_mirror (.inl twice_json)) with ⟨h, _⟩ | ⟨v, w, h1, h2, h3, _⟩
  · have : (validate packageEnv .AsyncAPI3 (.dict (withoutProcessors twice))).isSome = true := by decide +kernel
    rw [h] at this; cases this
  · exact ⟨v, w, h1, h2, h3⟩

theorem twice_mirror : Reordered (.dict twice) (mirror (.dict twice)) := by
  have hn : (twice.map (·.1)).Nodup := by decide
  have hall : ∀ e ∈ twice, Reordered e.2 (mirror e.2) := by
    intro e he
    by_cases hx : e.1 = p!"extra_converters" ∨ e.1 = p!"extra_validators"
    · rcases asked_value (number := numberOf) (cs := [.tags]) (ps := [.unified, .externalDocs]) ⟨.inl rfl, .inl rfl⟩ hn he hx with h | ⟨qs, h⟩
      · rw [h]; exact .none
      · rw [h, show (qs.map fun p => V.proc (numberOf p)) = (qs.map numberOf).map V.proc by simp]
        exact reordered_mirror (.inr ⟨0, .inr ⟨_, rfl⟩⟩)
    · simp only [not_or] at hx
      have hw := twice_json
      cases hw with
      | dict _ hw => exact reordered_mirror (.inl (hw e (mem_without.2 ⟨he, hx⟩)))
  rw [mirror, mirrorD_map]
  refine .dict hn ?_ ?_ ?_
  · rw [List.map_reverse, List.nodup_reverse, List.map_map]; exact hn
  · intro k; rw [List.map_reverse, List.mem_reverse, List.map_map]; rfl
  · intro k v w hv hw
    rw [List.mem_reverse] at hw
    obtain ⟨⟨k', v'⟩, hv', e⟩ := List.mem_map.1 hw
    simp only [Prod.mk.injEq] at e
    obtain ⟨rfl, rfl⟩ := e
    rw [nodup_unique hn hv hv']
    exact hall _ hv'

/-- With the validators: the mirrored document is accepted by them too. -/
example : ∃ j', validate packageEnv .AsyncAPI3 (mirror (.dict twice)) = some j' := by
  obtain ⟨j, hj⟩ := Option.isSome_iff_exists.1 twice_accepted
  obtain ⟨j', h, _⟩ := C56_validators packageEnv numberOf (by intro p; cases p <;> rfl) twice _ [.tags] [.unified, .externalDocs]
    ⟨.inl rfl, .inl rfl⟩ (wellFormed_json twice_json) twice_mirror j hj
  exact ⟨j', h⟩

end Verif.Props
