import Verif.Lemmas.EqualDump
import Verif.Model.HashSet
import Verif.Spec.HashSet
/-!
# C59: equality; C57: sets of References
-/
namespace Verif.Props
open Verif Verif.Gen Verif.Spec Verif.Pyd Verif.Document Verif.HashSet

/-! ### C59 -/

theorem sound_keyed {U : Uni} {limit : Option Nat} {v : V} (h : Sound U limit v) : Keyed v := by
  induction h with
  | none => exact .none
  | bool => exact .bool
  | int => exact .int
  | float => exact .float
  | str => exact .str
  | url => exact .url
  | proc => exact .proc
  | list _ ih => exact .list ih
  | dict hn _ ih => exact .dict hn ih
  | @inst c fs ex set hv _ hn _ ih ih' =>
    refine .inst ?_ ih hn ih'
    cases hv with | model hf _ _ => rw [hf]; exact names_nodup c

theorem wellFormed_keyed {v : V} (h : WellFormed v) : Keyed v := sound_keyed (U := .ascii) (limit := none) (wellFormed_sound h)

/-- **C59.** `a == b` holds exactly if they are equal as specified. -/
theorem C59_exact (v w : V) (hv : Keyed v) (hw : Keyed w) : pyEq v w = true ↔ Equal v w := pyEq_iff v w hv hw

/-- **C59.** It is an equivalence. -/
theorem C59_equivalence (u v w : V) (hu : Keyed u) (hv : Keyed v) (hw : Keyed w) :
    pyEq u u = true ∧ (pyEq u v = true → pyEq v u = true) ∧ (pyEq u v = true → pyEq v w = true → pyEq u w = true) := by
  rw [C59_exact u u hu hu, C59_exact u v hu hv, C59_exact v u hv hu, C59_exact v w hv hw, C59_exact u w hu hw]
  exact ⟨equal_refl u hu, equal_symm, fun h1 h2 => equal_trans h1 h2⟩

/-- **C59.** Equal instances that were read from JSON are written as equal JSON. -/
theorem C59_written (E : Env) (c c' : Cls) (x y v w : V) (hx : WellFormed x) (hy : WellFormed y)
    (hv : validate E c x = some v) (hw : validate E c' y = some w) (h : pyEq v w = true) :
    pyEq (dump v) (dump w) = true := by
  have k1 := wellFormed_keyed (C54_written E c x hx v hv)
  have k2 := wellFormed_keyed (C54_written E c' y hy w hw)
  have s1 := sound_keyed (json_sound E c x hx v hv)
  have s2 := sound_keyed (json_sound E c' y hy w hw)
  rw [C59_exact _ _ s1 s2] at h
  rw [C59_exact _ _ k1 k2]
  exact equal_dump h s1 s2 k1 k2

theorem reordered_equal {v w : V} (h : Reordered v w) : Equal v w := by
  induction h with
  | none => exact .none
  | bool => exact .number rfl rfl
  | int => exact .number rfl rfl
  | float => exact .float
  | str => exact .str
  | url => exact .url
  | proc => exact .proc
  | list hl _ ih => exact .list hl ih
  | dict _ _ hk _ ih => exact .dict hk ih
  | inst hk _ _ _ _ hkx _ _ ih ih' => exact .inst (fun k => by rw [hk]) ih hkx ih'

/-- **C59.** Instances read from the same JSON, but for the order of keys, are equal. -/
theorem C59_order (E : Env) (c : Cls) (x y v w : V) (hj : x.isJson = true) (h : Reordered x y)
    (hv : validate E c x = some v) (hw : validate E c y = some w) : pyEq v w = true := by
  obtain ⟨hx, hy⟩ := reordered_wellFormed h hj
  rcases C56_order E c x y hj h with ⟨h1, _⟩ | ⟨v', w', h1, h2, h3, _⟩
  · rw [h1] at hv; cases hv
  · rw [hv] at h1; rw [hw] at h2; cases h1; cases h2
    rw [C59_exact _ _ (sound_keyed (json_sound E c x hx v hv)) (sound_keyed (json_sound E c y hy w hw))]
    exact reordered_equal h3

theorem forget_equal : ∀ v w : V, Keyed v → forget v = forget w → Equal v w := by
  have keys : ∀ {d e : List (Str × V)}, (d.map fun x => (x.1, forget x.2)) = (e.map fun x => (x.1, forget x.2)) →
      ∀ k, k ∈ d.map (·.1) ↔ k ∈ e.map (·.1) := by
    intro d e h k
    have := congrArg (List.map Prod.fst) h
    simp only [List.map_map, Function.comp_def] at this
    rw [this]
  have pairs : ∀ {d e : List (Str × V)}, (d.map fun x => (x.1, forget x.2)) = (e.map fun x => (x.1, forget x.2)) →
      (d.map (·.1)).Nodup → ∀ {k v w}, (k, v) ∈ d → (k, w) ∈ e → forget v = forget w := by
    intro d e h hn k v w hv hw
    obtain ⟨v', h1, h2⟩ := map_mem h.symm hw
    rw [nodup_unique hn hv h1, h2]
  refine V.ind ?_ ?_ ?_ ?_ ?_ ?_ ?_ ?_ ?_ ?_
  · intro l ih w hk h
    cases w <;> simp only [forget, reduceCtorEq, V.list.injEq] at h
    cases hk with | list hk =>
    rw [forgetList_map, forgetList_map] at h
    refine .list (by simpa using congrArg List.length h) fun i v w hv hw => ?_
    obtain ⟨v', h1, h2⟩ := map_getElem h hv
    rw [hw] at h1; cases h1
    exact ih v (List.mem_of_getElem? hv) w (hk _ (List.mem_of_getElem? hv)) h2
  · intro d ih w hk h
    cases w <;> simp only [forget, reduceCtorEq, V.dict.injEq] at h
    cases hk with | dict hn hk =>
    rw [forgetDict_map, forgetDict_map] at h
    exact .dict (keys h) fun k v w hv hw => ih _ hv w (hk _ hv) (pairs h hn hv hw)
  · intro c fs ex set ih1 ih2 w hk h
    cases w <;> simp only [forget, reduceCtorEq, V.inst.injEq] at h
    obtain ⟨rfl, h1, h2, -⟩ := h
    cases hk with | inst n1 k1 n2 k2 =>
    rw [forgetDict_map, forgetDict_map] at h1 h2
    exact .inst (keys h1) (fun k v w hv hw => ih1 _ hv w (k1 _ hv) (pairs h1 n1 hv hw))
      (keys h2) (fun k v w hv hw => ih2 _ hv w (k2 _ hv) (pairs h2 n2 hv hw))
  all_goals
    intros
    rename_i w hk h
    cases w <;> simp only [forget, reduceCtorEq] at h
    first
      | exact .none
      | (cases h; exact equal_refl _ hk)

/-- **C59.** Where C39 holds: an instance that is written and read again is equal to what it was, -/
theorem C59_round_trip (E : Env) (hd : E.digits ≠ some 0) (c : Cls) (x v : V) (hx : WellFormed x)
    (hv : validate E c x = some v) (hr : Regular v) (hK : Keys (ReadsBack E) v) :
    ∃ v', validate E c (dump v) = some v' ∧ pyEq v v' = true := by
  obtain ⟨v', h1, h2, _⟩ := C39_json_partial E hd c x (wellFormed_json hx) v hv hr hK
  have k := sound_keyed (json_sound E c x hx v hv)
  exact ⟨v', h1, (C59_exact _ _ k (sound_keyed (json_sound E c _ (C54_written E c x hx v hv) v' h1))).2
    (forget_equal _ _ k h2.symm)⟩

/-- **C59.** and two instances that are written alike are equal. -/
theorem C59_written_alike (E : Env) (hd : E.digits ≠ some 0) (c : Cls) (x y v w : V) (hx : WellFormed x) (hy : WellFormed y)
    (hv : validate E c x = some v) (hw : validate E c y = some w) (hr : Regular v) (hK : Keys (ReadsBack E) v)
    (hr' : Regular w) (hK' : Keys (ReadsBack E) w) (h : dump v = dump w) : pyEq v w = true := by
  obtain ⟨v', h1, h2, _⟩ := C39_json_partial E hd c x (wellFormed_json hx) v hv hr hK
  obtain ⟨w', h1', h2', _⟩ := C39_json_partial E hd c y (wellFormed_json hy) w hw hr' hK'
  rw [h, h1'] at h1
  cases h1
  have k := sound_keyed (json_sound E c x hx v hv)
  rw [C59_exact _ _ k (sound_keyed (json_sound E c y hy w hw))]
  exact forget_equal _ _ k (h2.symm.trans h2')

theorem equal_grows {v w : V} (h : Equal v w) : Grows v w := by
  have sub : ∀ {d e : List (Str × V)}, (∀ k, k ∈ d.map (·.1) ↔ k ∈ e.map (·.1)) →
      (∀ k v w, (k, v) ∈ d → (k, w) ∈ e → Grows v w) →
      (∀ k v, (k, v) ∈ d → ∃ v', (k, v') ∈ e ∧ Grows v v') ∧ ∀ k w, (k, w) ∈ e → ∃ v, (k, v) ∈ d ∧ Grows v w := by
    intro d e hk h
    refine ⟨fun k v hv => ?_, fun k w hw => ?_⟩
    · obtain ⟨w, hw⟩ := mem_key.1 ((hk k).1 (mem_key.2 ⟨v, hv⟩)); exact ⟨w, hw, h k v w hv hw⟩
    · obtain ⟨v, hv⟩ := mem_key.1 ((hk k).2 (mem_key.2 ⟨w, hw⟩)); exact ⟨v, hv, h k v w hv hw⟩
  induction h with
  | none => exact .none
  | @number v w n h h' =>
    have : ∀ v : V, number v = some n → IsPlain v := by
      intro v h; cases v <;> simp [number] at h <;> constructor
    exact .plain (this v h) (this w h')
  | float => exact .plain .float .float
  | str => exact .plain .str .str
  | url => exact .plain .url .url
  | proc => exact .plain .proc .proc
  | @list l l' hl _ ih =>
    refine .ofList fun i v hv => ?_
    have : i < l'.length := by rw [← hl]; exact (List.getElem?_eq_some_iff.1 hv).1
    exact ⟨_, List.getElem?_eq_getElem this, ih i v _ hv (List.getElem?_eq_getElem this)⟩
  | dict hk _ ih => exact .ofDict (sub hk ih).1
  | @inst c fs fs' ex ex' set set' hk hf hkx _ ih ihx =>
    have h1 := sub hk ih
    have h2 := sub hkx ihx
    have hstr : ∀ s (v w : V), Equal v w → (v = .str s ↔ w = .str s) := by
      intro s v w h
      constructor
      all_goals
        rintro rfl
        cases h with
        | number h h' => simp [number] at h h'
        | str => rfl
    have href : c = .Reference → ∀ s, (p!"ref", .str s) ∈ fs ↔ (p!"ref", .str s) ∈ fs' := by
      refine fun _ s => ⟨fun hv => ?_, fun hw => ?_⟩
      · obtain ⟨w, hw, -⟩ := h1.1 _ _ hv
        cases (hstr s _ _ (hf _ _ _ hv hw)).1 rfl
        exact hw
      · obtain ⟨v, hv, -⟩ := h1.2 _ _ hw
        cases (hstr s _ _ (hf _ _ _ hv hw)).2 rfl
        exact hv
    exact .ofInst href (fun k v hv => let ⟨w, a, b⟩ := h1.1 k v hv; ⟨w, a, .inr b⟩)
      (fun k v hv => let ⟨w, a, b⟩ := h1.2 k v hv; ⟨w, a, .inr b⟩) (h2.1 _) (h2.2 _)

/-- **C59.** The package's validators treat equal documents alike. -/
theorem C59_validators (U : Uni) (limit : Option Nat) (doc doc' : V) (h : pyEq doc doc' = true)
    (hv : Valid U limit doc (.model .AsyncAPI3)) (hs : Sound U limit doc) (hc : Clean doc (.model .AsyncAPI3))
    (hv' : Valid U limit doc' (.model .AsyncAPI3)) (hs' : Sound U limit doc') (hc' : Clean doc' (.model .AsyncAPI3))
    (p : Validator) : p.run U doc = some doc ↔ p.run U doc' = some doc' := by
  rw [C59_exact _ _ (sound_keyed hs) (sound_keyed hs')] at h
  rw [run_iff hv hs hc, run_iff hv' hs' hc']
  have g := equal_grows h
  have g' := equal_grows (equal_symm h)
  exact ⟨fun x => ⟨rfl, demands_both g g' x.2⟩, fun x => ⟨rfl, demands_both g' g x.2⟩⟩

/-- Are the instances read from `x` and `y`, and what is written of them, equal? -/
def bothEqual (c : Cls) (x y : V) : Option (Bool × Bool) :=
  match validate plainEnv c x, validate plainEnv c y with
  | some v, some w => some (pyEq v w, pyEq (dump v) (dump w))
  | _, _ => none

/-- Equal, though one had a null given and the other not, and their keys are in different orders; not equal to another. -/
def equalInput (n : V) : V :=
  .dict [(p!"title", .str p!"t"), (p!"version", .str p!"1"), (p!"x-a", .dict [(p!"b", n), (p!"c", .none)])]
example : bothEqual .Info (equalInput (.int 1)) (.dict [(p!"x-a", .dict [(p!"c", .none), (p!"b", .bool true)]),
    (p!"version", .str p!"1"), (p!"description", .none), (p!"title", .str p!"t")]) = some (true, true) := by decide +kernel
example : bothEqual .Info (equalInput (.int 1)) (equalInput (.int 2)) = some (false, false) := by decide +kernel

/-! ### C57 -/

/-- A Reference as construction leaves it. -/
theorem reference_form {U : Uni} {limit : Option Nat} {v : V} (h : Valid U limit v (.model .Reference)) :
    ∃ s set, v = .inst .Reference [(p!"ref", .str s)] [] set := by
  cases h with
  | @model c fs ex set hf ht hc =>
    have hex : ex = [] := hc.closed (.inl rfl)
    subst hex
    match fs, hf with
    | [(k, v)], hf =>
      have hk : k = p!"ref" := by simpa [classDef, defReference] using hf
      subst hk
      have := ht _ (List.mem_singleton_self _)
      have h2 : Valid U limit v .str := this
      cases h2
      exact ⟨_, _, rfl⟩

/-- **C57.** Two References are equal exactly if their strings are, and then their hashes are the same, whatever Python's
hash of strings is. -/
theorem C57_hash (U : Uni) (limit : Option Nat) (h : Str → Int) (a b : V) (ha : Valid U limit a (.model .Reference))
    (hb : Valid U limit b (.model .Reference)) :
    (pyEq a b = true ↔ refText a = refText b) ∧ hashOf h a = some (h (refText a)) ∧
    (pyEq a b = true → hashOf h a = hashOf h b) := by
  obtain ⟨s, set, rfl⟩ := reference_form ha
  obtain ⟨t, set', rfl⟩ := reference_form hb
  have : pyEq (.inst .Reference [(p!"ref", .str s)] [] set) (.inst .Reference [(p!"ref", .str t)] [] set') = true ↔ s = t := by
    simp [pyEq, eqDict, lookup]
  refine ⟨this, rfl, fun e => ?_⟩
  rw [this.1 e]; rfl

/-- The state of a set: its elements have different strings, and are kept under the hashes of these. -/
structure Keeps (h : Str → Int) (store : Nat → V) (S : List (Int × Nat)) (L : List Str) : Prop where
  texts : S.map (fun e => refText (store e.2)) = L
  distinct : L.Nodup
  hashes : ∀ e ∈ S, e.1 = h (refText (store e.2))

section
variable {U : Uni} {limit : Option Nat} {h : Str → Int} {store : Nat → V} {S : List (Int × Nat)} {L : List Str}

theorem find_iff (hst : ∀ x, Valid U limit (store x) (.model .Reference)) (K : Keeps h store S L) (x : Nat) (e : Int × Nat) :
    (e.1 == h (refText (store x)) && (e.2 == x || pyEq (store e.2) (store x))) = true ∧ e ∈ S ↔
      e ∈ S ∧ refText (store e.2) = refText (store x) := by
  rw [Bool.and_eq_true, Bool.or_eq_true, beq_iff_eq, beq_iff_eq, (C57_hash U limit h _ _ (hst e.2) (hst x)).1]
  constructor
  · rintro ⟨⟨_, h1 | h1⟩, h2⟩
    · exact ⟨h2, by rw [h1]⟩
    · exact ⟨h2, h1⟩
  · rintro ⟨h1, h2⟩
    exact ⟨⟨by rw [K.hashes e h1, h2], .inr h2⟩, h1⟩

theorem find_isSome (hst : ∀ x, Valid U limit (store x) (.model .Reference)) (K : Keeps h store S L) (x : Nat) :
    (find store S (h (refText (store x))) x).isSome = decide (refText (store x) ∈ L) := by
  rw [Bool.eq_iff_iff, decide_eq_true_eq, find, List.find?_isSome, ← K.texts, List.mem_map]
  constructor
  · rintro ⟨e, h1, h2⟩; exact ⟨e, ((find_iff hst K x e).1 ⟨h2, h1⟩)⟩
  · rintro ⟨e, h1, h2⟩; exact ⟨e, h1, ((find_iff hst K x e).2 ⟨h1, h2⟩).1⟩

theorem erase_texts (t : Nat → Str) {S : List (Int × Nat)} (hn : (S.map fun e => t e.2).Nodup) {e : Int × Nat} (he : e ∈ S) :
    (S.erase e).map (fun e => t e.2) = (S.map fun e => t e.2).filter (· ≠ t e.2) := by
  induction S with
  | nil => cases he
  | cons a S ih =>
    simp only [List.map_cons, List.nodup_cons] at hn
    by_cases ha : a = e
    · subst ha
      rw [List.erase_cons_head, List.map_cons, List.filter_cons_of_neg (by simp)]
      refine (List.filter_eq_self.2 fun s hs => ?_).symm
      simp only [decide_not, Bool.not_eq_true', decide_eq_false_iff_not]
      rintro rfl; exact hn.1 hs
    · have he' : e ∈ S := (List.mem_cons.1 he).resolve_left fun h => ha h.symm
      have hne : t a.2 ≠ t e.2 := fun h => hn.1 (List.mem_map.2 ⟨e, he', h.symm⟩)
      rw [List.erase_cons_tail (by simpa using ha), List.map_cons, List.map_cons, List.filter_cons_of_pos (by simpa using hne),
        ih hn.2 he']

/-- One operation on a set of References is the operation on the set of their strings. -/
theorem setStep_keeps (hst : ∀ x, Valid U limit (store x) (.model .Reference)) (K : Keeps h store S L) (op : SetOp)
    (hop : ∀ x v, op = .assign x v → Valid U limit v (.model .Reference) ∧ ∀ e ∈ S, e.2 ≠ x) :
    (setStep h store S op).2.2 = (onStrings (fun x => refText (store x)) L op).2 ∧
    (∀ x, Valid U limit ((setStep h store S op).1 x) (.model .Reference)) ∧
    Keeps h (setStep h store S op).1 (setStep h store S op).2.1 (onStrings (fun x => refText (store x)) L op).1 := by
  have hh : ∀ x, hashOf h (store x) = some (h (refText (store x))) := fun x => (C57_hash U limit h _ _ (hst x) (hst x)).2.1
  cases op with
  | len =>
    refine ⟨?_, hst, K⟩
    simp only [setStep, onStrings, ← K.texts, List.length_map]
  | contains x =>
    refine ⟨?_, ?_, ?_⟩
    · simp only [setStep, hh, onStrings, find_isSome hst K x]
    · simp only [setStep, hh]; exact hst
    · simp only [setStep, hh, onStrings]; exact K
  | assign x v =>
    obtain ⟨hv, hx⟩ := hop x v rfl
    refine ⟨rfl, fun y => ?_, ?_⟩
    · show Valid U limit (if y = x then v else store y) _
      by_cases hy : y = x
      · rw [if_pos hy]; exact hv
      · rw [if_neg hy]; exact hst y
    · have same : ∀ e ∈ S, (if e.2 = x then v else store e.2) = store e.2 := fun e he => if_neg (hx e he)
      refine ⟨?_, K.distinct, fun e he => ?_⟩
      · show S.map (fun e => refText (if e.2 = x then v else store e.2)) = L
        rw [← K.texts]
        exact List.map_congr_left fun e he => by rw [same e he]
      · show e.1 = h (refText (if e.2 = x then v else store e.2))
        rw [same e he]; exact K.hashes e he
  | add x =>
    have hf := find_isSome hst K x
    simp only [setStep, hh, onStrings]
    cases he : find store S (h (refText (store x))) x with
    | some e =>
      rw [he, Option.isSome_some, eq_comm, decide_eq_true_eq] at hf
      simp only [if_pos hf]
      exact ⟨trivial, hst, K⟩
    | none =>
      rw [he, Option.isSome_none, eq_comm, decide_eq_false_iff_not] at hf
      simp only [if_neg hf]
      refine ⟨trivial, hst, ?_, ?_, fun e hm => ?_⟩
      · rw [List.map_append, K.texts]; rfl
      · rw [List.nodup_append]
        refine ⟨K.distinct, List.nodup_singleton _, fun a ha b hb => ?_⟩
        rw [List.mem_singleton] at hb
        rintro rfl; exact hf (hb ▸ ha)
      · rcases List.mem_append.1 hm with hm | hm
        · exact K.hashes e hm
        · rw [List.mem_singleton] at hm; rw [hm]
  | discard x =>
    have hf := find_isSome hst K x
    simp only [setStep, hh, onStrings]
    cases he : find store S (h (refText (store x))) x with
    | none =>
      rw [he, Option.isSome_none, eq_comm, decide_eq_false_iff_not] at hf
      have : L.filter (· ≠ refText (store x)) = L := List.filter_eq_self.2 fun s hs => by
        simp only [decide_not, Bool.not_eq_true', decide_eq_false_iff_not]
        rintro rfl; exact hf hs
      refine ⟨rfl, hst, ?_⟩
      rw [this]; exact K
    | some e =>
      have h1 := List.find?_some he
      have h2 := List.mem_of_find?_eq_some he
      obtain ⟨h2, h3⟩ := (find_iff hst K x e).1 ⟨h1, h2⟩
      refine ⟨rfl, hst, ?_, K.distinct.filter _, fun e' he' => K.hashes e' (List.mem_of_mem_erase he')⟩
      show (S.erase e).map (fun e => refText (store e.2)) = _
      rw [erase_texts (fun x => refText (store x)) (by rw [K.texts]; exact K.distinct) h2, K.texts, h3]
end

theorem step_elements {h : Str → Int} {store : Nat → V} {S : List (Int × Nat)} {op : SetOp} {e : Int × Nat}
    (he : e ∈ (setStep h store S op).2.1) : e ∈ S ∨ op = .add e.2 := by
  cases op with
  | add x =>
    simp only [setStep] at he
    split at he
    · exact .inl he
    · split at he
      · exact .inl he
      · rcases List.mem_append.1 he with he | he
        · exact .inl he
        · rw [List.mem_singleton] at he; rw [he]; exact .inr rfl
  | discard x =>
    simp only [setStep] at he
    split at he
    · exact .inl he
    · split at he
      · exact .inl (List.mem_of_mem_erase he)
      · exact .inl he
  | contains x =>
    simp only [setStep] at he
    split at he <;> exact .inl he
  | len => exact .inl he
  | assign x v => exact .inl he

/-- No object is assigned after it was added. -/
def NotAfterwards (ops : List SetOp) : Prop :=
  ∀ pre x v post, ops = pre ++ .assign x v :: post → .add x ∉ pre

theorem setRun_keeps {U : Uni} {limit : Option Nat} {h : Str → Int} (ops : List SetOp) : ∀ {store S L},
    (∀ x, Valid U limit (store x) (.model .Reference)) → Keeps h store S L →
    (∀ x v, .assign x v ∈ ops → Valid U limit v (.model .Reference) ∧ ∀ e ∈ S, e.2 ≠ x) → NotAfterwards ops →
    (setRun h store S ops).2.2 = (historyOnStrings store L ops).2 ∧
    Keeps h (setRun h store S ops).1 (setRun h store S ops).2.1 (historyOnStrings store L ops).1 := by
  induction ops with
  | nil => intro store S L _ K _ _; exact ⟨rfl, K⟩
  | cons op ops ih =>
    intro store S L hst K hop hna
    obtain ⟨h1, h2, h3⟩ := setStep_keeps hst K op fun x v e => hop x v (e ▸ List.mem_cons_self)
    have hstore : (setStep h store S op).1 = objectsAfter store op := by
      have hh : ∀ x, hashOf h (store x) = some (h (refText (store x))) := fun x => (C57_hash U limit h _ _ (hst x) (hst x)).2.1
      cases op <;> simp only [setStep, hh, objectsAfter]
      · split <;> rfl
      · split <;> rfl
    have := ih h2 h3 (fun x v hm => ?_) fun pre x v post e hadd =>
      hna (op :: pre) x v post (by rw [e]; rfl) (List.mem_cons_of_mem _ hadd)
    · obtain ⟨i1, i2⟩ := this
      simp only [setRun, historyOnStrings, ← hstore]
      exact ⟨by rw [h1, i1], i2⟩
    · obtain ⟨hv, hx⟩ := hop x v (List.mem_cons_of_mem _ hm)
      refine ⟨hv, fun e he hex => ?_⟩
      rcases step_elements he with he | he
      · exact hx e he hex
      · obtain ⟨pre, post, rfl⟩ := List.append_of_mem hm
        exact hna (op :: pre) x v post rfl (by rw [he, hex]; exact List.mem_cons_self)

/-- **C57.** A set of References, under any history of additions, removals, look-ups and changes, if no Reference is changed
after it was added, returns what a set of their strings returns; at the end it has exactly one element for each string. -/
theorem C57_history (U : Uni) (limit : Option Nat) (h : Str → Int) (store : Nat → V) (ops : List SetOp)
    (hst : ∀ x, Valid U limit (store x) (.model .Reference))
    (hop : ∀ x v, .assign x v ∈ ops → Valid U limit v (.model .Reference)) (hna : NotAfterwards ops) :
    (setRun h store [] ops).2.2 = (historyOnStrings store [] ops).2 ∧
    ((setRun h store [] ops).2.1.map fun e => refText ((setRun h store [] ops).1 e.2)) = (historyOnStrings store [] ops).1 ∧
    (historyOnStrings store [] ops).1.Nodup := by
  obtain ⟨h1, h2⟩ := setRun_keeps (h := h) ops hst (S := []) (L := []) ⟨rfl, List.nodup_nil, by simp⟩
    (fun x v hm => ⟨hop x v hm, by simp⟩) hna
  exact ⟨h1, h2.texts, h2.distinct⟩

/-- Strings added one after the other. -/
theorem history_adds (store : Nat → V) (xs : List Nat) (L : List Str) (s : Str) :
    s ∈ (historyOnStrings store L (xs.map .add)).1 ↔ s ∈ L ∨ ∃ x ∈ xs, s = refText (store x) := by
  induction xs generalizing L with
  | nil => simp [historyOnStrings]
  | cons x xs ih =>
    simp only [List.map_cons, historyOnStrings, onStrings, objectsAfter, ih, List.mem_cons, exists_eq_or_imp]
    by_cases hx : refText (store x) ∈ L
    · simp only [if_pos hx]
      constructor
      · rintro (h | h)
        · exact .inl h
        · exact .inr (.inr h)
      · rintro (h | h | h)
        · exact .inl h
        · exact .inl (h ▸ hx)
        · exact .inr h
    · simp only [if_neg hx, List.mem_append, List.mem_singleton, or_assoc]

/-- **C57.** Deduplication: the set made of any References has exactly one of them for each string that occurs. -/
theorem C57_dedup (U : Uni) (limit : Option Nat) (h : Str → Int) (store : Nat → V) (xs : List Nat)
    (hst : ∀ x, Valid U limit (store x) (.model .Reference)) :
    ((setRun h store [] (xs.map .add)).2.1.map fun e => refText (store e.2)).Nodup ∧
    ∀ s, (∃ x ∈ xs, refText (store x) = s) ↔ ∃ e ∈ (setRun h store [] (xs.map .add)).2.1, refText (store e.2) = s := by
  have hop : ∀ x v, SetOp.assign x v ∉ xs.map SetOp.add := by simp
  obtain ⟨h1, h2, h3⟩ := C57_history U limit h store (xs.map .add) hst (fun x v hm => absurd hm (hop x v))
    (fun pre x v post e => absurd (e ▸ (by simp : SetOp.assign x v ∈ pre ++ .assign x v :: post)) (hop x v))
  have hs : ∀ (xs : List Nat) S, (setRun h store S (xs.map .add)).1 = store := by
    intro xs
    induction xs with
    | nil => intro S; rfl
    | cons x xs ih =>
      intro S
      simp only [List.map_cons, setRun]
      have : (setStep h store S (.add x)).1 = store := by
        simp only [setStep]; split
        · rfl
        · split <;> rfl
      rw [this, ih]
  rw [hs] at h2
  refine ⟨by rw [h2]; exact h3, fun s => ?_⟩
  have := history_adds store xs [] s
  rw [← h2, List.mem_map] at this
  simp only [List.not_mem_nil, false_or] at this
  constructor
  · rintro ⟨x, hx, rfl⟩; exact this.2 ⟨x, hx, rfl⟩
  · intro hh; obtain ⟨x, hx, e⟩ := this.1 hh; exact ⟨x, hx, e.symm⟩

/-- Three References, two of them equal. -/
def threeRefs : Nat → V := fun x => referenceTo (if x = 2 then p!"#/b" else p!"#/a")

theorem threeRefs_valid (x : Nat) : Valid plainEnv.U plainEnv.digits (threeRefs x) (.model .Reference) := by
  have : ∀ s : Str, Valid plainEnv.U plainEnv.digits (referenceTo s) (.model .Reference) := fun s =>
    C42_valid plainEnv .Reference (by decide) (.dict [(p!"$ref", .str s)]) (referenceTo s) rfl
  exact this _

example : NotAfterwards [.assign 3 (referenceTo p!"#/b"), .add 0, .add 1, .add 2, .contains 3] := by
  rintro pre x v post e hm
  match pre, e with
  | [], _ => cases hm
  | _ :: [], e => simp at e
  | _ :: _ :: [], e => simp at e
  | _ :: _ :: _ :: [], e => simp at e
  | _ :: _ :: _ :: _ :: [], e => simp at e
  | _ :: _ :: _ :: _ :: _ :: _, e => simp at e

/-- Of three, two are kept; an equal one is found, and removes its equal. -/
example (h : Str → Int) : (setRun h threeRefs [] [.add 0, .add 1, .add 2, .len, .contains 1, .discard 1, .contains 0, .len]).2.2 =
    [.unit, .unit, .unit, .nat 2, .bool true, .unit, .bool false, .nat 1] := by
  rw [(C57_history plainEnv.U plainEnv.digits h threeRefs _ threeRefs_valid (by simp) (fun pre x v post e => by
    have : SetOp.assign x v ∈ pre ++ .assign x v :: post := by simp
    rw [← e] at this; simp at this)).1]
  decide +kernel

/-- **C57, the exception**: a Reference that is changed while it is in a set is no longer found there, not even as the same
object, whenever the hashes of the strings differ; and it can be added a second time. -/
theorem C57_changed (h : Str → Int) (hne : h p!"#/a" ≠ h p!"#/b") :
    (setRun h threeRefs [] [.add 0, .contains 0, .assign 0 (referenceTo p!"#/b"), .contains 0, .add 0, .len]).2.2 =
      [.unit, .bool true, .unit, .bool false, .unit, .nat 2] := by
  have hb : (h p!"#/a" == h p!"#/b") = false := by simpa using hne
  have ha : (h p!"#/a" == h p!"#/a") = true := by simp
  simp [setRun, setStep, hashOf, threeRefs, find, lookup, hne]

end Verif.Props
