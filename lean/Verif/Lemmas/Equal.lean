import Verif.Spec.Equal
import Verif.Model.Equal
import Verif.Lemmas.Valid
import Verif.Lemmas.Resolve
/-! `==` is what the specification says. -/
namespace Verif.Pyd
open Verif Verif.Gen Verif.Spec

theorem eqDict_iff {d e : List (Str × V)} : eqDict d e = true ↔ ∀ k v, (k, v) ∈ d → ∃ w, lookup k e = some w ∧ pyEq v w = true := by
  induction d with
  | nil => simp [eqDict]
  | cons a d ih =>
    obtain ⟨k, v⟩ := a
    rw [eqDict, Bool.and_eq_true, ih]
    constructor
    · rintro ⟨h1, h2⟩ k' v' hm
      rcases List.mem_cons.1 hm with hm | hm
      · cases hm
        cases hl : lookup k e with
        | none => rw [hl] at h1; cases h1
        | some w => rw [hl] at h1; exact ⟨w, rfl, h1⟩
      · exact h2 k' v' hm
    · intro h
      refine ⟨?_, fun k' v' hm => h k' v' (List.mem_cons_of_mem _ hm)⟩
      obtain ⟨w, h1, h2⟩ := h k v List.mem_cons_self
      rw [h1]; exact h2

theorem eqList_iff {l m : List V} : eqList l m = true ↔
    l.length = m.length ∧ ∀ (i : Nat) v w, l[i]? = some v → m[i]? = some w → pyEq v w = true := by
  induction l generalizing m with
  | nil => cases m <;> simp [eqList]
  | cons a l ih =>
    cases m with
    | nil => simp [eqList]
    | cons b m =>
      rw [eqList, Bool.and_eq_true, ih, List.length_cons, List.length_cons]
      constructor
      · rintro ⟨h1, h2, h3⟩
        refine ⟨by rw [h2], fun i v w hv hw => ?_⟩
        cases i with
        | zero => simp only [List.getElem?_cons_zero, Option.some.injEq] at hv hw; rw [← hv, ← hw]; exact h1
        | succ i => exact h3 i v w (by simpa using hv) (by simpa using hw)
      · rintro ⟨h1, h2⟩
        exact ⟨h2 0 a b rfl rfl, by omega, fun i v w hv hw => h2 (i + 1) v w (by simpa using hv) (by simpa using hw)⟩

theorem mem_key {d : List (Str × V)} {k : Str} : k ∈ d.map (·.1) ↔ ∃ v, (k, v) ∈ d := by
  constructor
  · intro h
    obtain ⟨⟨k', v⟩, hm, rfl⟩ := List.mem_map.1 h
    exact ⟨v, hm⟩
  · rintro ⟨v, h⟩; exact List.mem_map.2 ⟨_, h, rfl⟩

/-- Comparing two dicts without repeated keys. -/
theorem dict_equal {d e : List (Str × V)} (hd : (d.map (·.1)).Nodup) (he : (e.map (·.1)).Nodup)
    (ih : ∀ k v w, (k, v) ∈ d → (k, w) ∈ e → (pyEq v w = true ↔ Equal v w)) :
    (d.length == e.length && eqDict d e) = true ↔
      (∀ k, k ∈ d.map (·.1) ↔ k ∈ e.map (·.1)) ∧ ∀ k v w, (k, v) ∈ d → (k, w) ∈ e → Equal v w := by
  rw [Bool.and_eq_true, beq_iff_eq, eqDict_iff]
  constructor
  · rintro ⟨hl, h⟩
    have hsub : d.map (·.1) ⊆ e.map (·.1) := by
      intro k hk
      obtain ⟨v, hv⟩ := mem_key.1 hk
      obtain ⟨w, hw, _⟩ := h k v hv
      exact mem_key.2 ⟨w, (lookup_iff he).1 hw⟩
    have hperm : (d.map (·.1)).Perm (e.map (·.1)) := by
      refine (List.subperm_of_subset hd hsub).perm_of_length_le ?_
      simp [hl]
    refine ⟨fun k => hperm.mem_iff, fun k v w hv hw => ?_⟩
    obtain ⟨w', hw', heq⟩ := h k v hv
    rw [(lookup_iff he).2 hw] at hw'
    cases hw'
    exact (ih k v w hv hw).1 heq
  · rintro ⟨hk, h⟩
    constructor
    · have : (d.map (·.1)).Perm (e.map (·.1)) := (List.perm_ext_iff_of_nodup hd he).2 hk
      simpa using this.length_eq
    · intro k v hv
      obtain ⟨w, hw⟩ := mem_key.1 ((hk k).1 (mem_key.2 ⟨v, hv⟩))
      exact ⟨w, (lookup_iff he).2 hw, (ih k v w hv hw).2 (h k v w hv hw)⟩

theorem pyEq_iff : ∀ v w : V, Keyed v → Keyed w → (pyEq v w = true ↔ Equal v w) := by
  refine V.ind ?_ ?_ ?_ ?_ ?_ ?_ ?_ ?_ ?_ ?_
  · intro l ih w hv hw
    cases w with
    | list m =>
      cases hv with | list hv =>
      cases hw with | list hw =>
      rw [pyEq, eqList_iff]
      constructor
      · rintro ⟨h1, h2⟩
        exact .list h1 fun i v w h h' => (ih v (List.mem_of_getElem? h) w (hv v (List.mem_of_getElem? h))
          (hw w (List.mem_of_getElem? h'))).1 (h2 i v w h h')
      · intro h
        cases h with
        | number h _ => simp [number] at h
        | list h1 h2 => exact ⟨h1, fun i v w h h' => (ih v (List.mem_of_getElem? h) w (hv v (List.mem_of_getElem? h))
            (hw w (List.mem_of_getElem? h'))).2 (h2 i v w h h')⟩
    | _ =>
      refine ⟨fun h => by simp [pyEq] at h, fun h => ?_⟩
      cases h with | number h _ => simp [number] at h
  · intro d ih w hv hw
    cases w with
    | dict e =>
      cases hv with | dict hv hv' =>
      cases hw with | dict hw hw' =>
      rw [pyEq, dict_equal hv hw fun k v w h h' => ih (k, v) h w (hv' _ h) (hw' _ h')]
      refine ⟨fun h => .dict h.1 h.2, fun h => ?_⟩
      cases h with
      | number h _ => simp [number] at h
      | dict h1 h2 => exact ⟨h1, h2⟩
    | _ =>
      refine ⟨fun h => by simp [pyEq] at h, fun h => ?_⟩
      cases h with | number h _ => simp [number] at h
  · intro c fs ex set ih1 ih2 w hv hw
    cases w with
    | inst c' fs' ex' set' =>
      cases hv with | inst a1 a2 a3 a4 =>
      cases hw with | inst b1 b2 b3 b4 =>
      rw [pyEq, Bool.and_eq_true, Bool.and_eq_true (decide _),
        dict_equal a1 b1 fun k v w h h' => ih1 (k, v) h w (a2 _ h) (b2 _ h'),
        dict_equal a3 b3 fun k v w h h' => ih2 (k, v) h w (a4 _ h) (b4 _ h'), decide_eq_true_eq]
      refine ⟨?_, fun h => ?_⟩
      · rintro ⟨⟨rfl, h1, h2⟩, h3, h4⟩; exact .inst h1 h2 h3 h4
      · cases h with
        | number h _ => simp [number] at h
        | inst h1 h2 h3 h4 => exact ⟨⟨rfl, h1, h2⟩, h3, h4⟩
    | _ =>
      refine ⟨fun h => by simp [pyEq] at h, fun h => ?_⟩
      cases h with | number h _ => simp [number] at h
  all_goals
    intros
    rename_i w _ _
    cases w <;> simp only [pyEq, Bool.false_eq_true, false_iff, true_iff, beq_iff_eq, Bool.and_eq_true, decide_eq_true_eq]
  all_goals first
    | exact .none
    | (intro h; cases h with | number h h' => simp [number] at h h')
    | (refine ⟨fun h => .number rfl (by simp [number, h]), fun h => ?_⟩
       cases h with | number h h' => simp [number] at h h'; simp_all)
    | (refine ⟨fun h => .number (by simp [number, h]) rfl, fun h => ?_⟩
       cases h with | number h h' => simp [number] at h h'; simp_all)
    | (refine ⟨fun h => by rw [h]; first | exact .float | exact .str | exact .proc, fun h => ?_⟩
       cases h with
       | number h _ => simp [number] at h
       | _ => rfl)
    | (refine ⟨fun h => by rw [h.1, h.2]; exact .url, fun h => ?_⟩
       cases h with
       | number h _ => simp [number] at h
       | _ => exact ⟨rfl, rfl⟩)
    | (rename_i b _ b' _
       refine ⟨fun h => by rw [h]; exact .number rfl rfl, fun h => ?_⟩
       cases h with | number h h' => cases b <;> cases b' <;> simp [number] at h h' <;> first | rfl | (rw [← h] at h'; cases h'))

theorem nodup_unique {d : List (Str × V)} (h : (d.map (·.1)).Nodup) {k v w} (hv : (k, v) ∈ d) (hw : (k, w) ∈ d) : v = w := by
  have h1 := (lookup_iff h).2 hv
  rw [(lookup_iff h).2 hw] at h1
  exact (Option.some.inj h1).symm

theorem equal_refl : ∀ v : V, Keyed v → Equal v v := by
  refine V.ind ?_ ?_ ?_ ?_ ?_ ?_ ?_ ?_ ?_ ?_
  · intro l ih h
    cases h with | list h =>
    refine .list rfl fun i v w hv hw => ?_
    rw [hv] at hw; cases hw
    exact ih v (List.mem_of_getElem? hv) (h v (List.mem_of_getElem? hv))
  · intro d ih h
    cases h with | dict h h' =>
    refine .dict (fun _ => Iff.rfl) fun k v w hv hw => ?_
    cases nodup_unique h hv hw
    exact ih _ hv (h' _ hv)
  · intro c fs ex set ih1 ih2 h
    cases h with | inst h1 h1' h2 h2' =>
    refine .inst (fun _ => Iff.rfl) (fun k v w hv hw => ?_) (fun _ => Iff.rfl) (fun k v w hv hw => ?_)
    · cases nodup_unique h1 hv hw
      exact ih1 _ hv (h1' _ hv)
    · cases nodup_unique h2 hv hw
      exact ih2 _ hv (h2' _ hv)
  · exact fun _ => .none
  · exact fun _ _ => .number rfl rfl
  · exact fun _ _ => .number rfl rfl
  · exact fun _ _ => .float
  · exact fun _ _ => .str
  · exact fun _ _ _ => .url
  · exact fun _ _ => .proc

theorem equal_symm {v w : V} (h : Equal v w) : Equal w v := by
  induction h with
  | none => exact .none
  | number h h' => exact .number h' h
  | float => exact .float
  | str => exact .str
  | url => exact .url
  | proc => exact .proc
  | list hl _ ih => exact .list hl.symm fun i v w hv hw => ih i w v hw hv
  | dict hk _ ih => exact .dict (fun k => (hk k).symm) fun k v w hv hw => ih k w v hw hv
  | inst hk _ hk' _ ih ih' =>
    exact .inst (fun k => (hk k).symm) (fun k v w hv hw => ih k w v hw hv) (fun k => (hk' k).symm)
      (fun k v w hv hw => ih' k w v hw hv)

theorem equal_number {v w : V} (h : Equal v w) {n} (hv : number v = some n) : number w = some n := by
  cases h with
  | number h h' => rw [hv] at h; cases h; exact h'
  | _ => simp [number] at hv

theorem equal_trans {v w : V} (h : Equal v w) : ∀ {x}, Equal w x → Equal v x := by
  induction h with
  | none => exact id
  | number h h' => exact fun h2 => .number h (equal_number h2 h')
  | float => exact id
  | str => exact id
  | url => exact id
  | proc => exact id
  | @list l l' hl _ ih =>
    intro x h2
    cases h2 with
    | number h _ => simp [number] at h
    | @list _ l'' hl' h2 =>
      refine .list (hl.trans hl') fun i v w hv hw => ?_
      obtain ⟨u, hu⟩ : ∃ u, l'[i]? = some u := by
        have : i < l'.length := by rw [← hl]; exact (List.getElem?_eq_some_iff.1 hv).1
        exact ⟨_, List.getElem?_eq_getElem this⟩
      exact ih i v u hv hu (h2 i u w hu hw)
  | dict hk _ ih =>
    intro x h2
    cases h2 with
    | number h _ => simp [number] at h
    | dict hk' h2 =>
      refine .dict (fun k => (hk k).trans (hk' k)) fun k v w hv hw => ?_
      obtain ⟨u, hu⟩ := mem_key.1 ((hk k).1 (mem_key.2 ⟨v, hv⟩))
      exact ih k v u hv hu (h2 k u w hu hw)
  | inst hk _ hkx _ ih ihx =>
    intro x h2
    cases h2 with
    | number h _ => simp [number] at h
    | inst hk' h2 hkx' h2x =>
      refine .inst (fun k => (hk k).trans (hk' k)) (fun k v w hv hw => ?_) (fun k => (hkx k).trans (hkx' k)) (fun k v w hv hw => ?_)
      · obtain ⟨u, hu⟩ := mem_key.1 ((hk k).1 (mem_key.2 ⟨v, hv⟩))
        exact ih k v u hv hu (h2 k u w hu hw)
      · obtain ⟨u, hu⟩ := mem_key.1 ((hkx k).1 (mem_key.2 ⟨v, hv⟩))
        exact ihx k v u hv hu (h2x k u w hu hw)

theorem equal_none {v w : V} (h : Equal v w) : v = .none ↔ w = .none := by
  cases h with
  | number h h' => constructor <;> rintro rfl <;> simp [number] at h h'
  | _ => simp

theorem equal_isNone {v w : V} (h : Equal v w) : v.isNone = w.isNone := by
  cases h with
  | @number v w n h h' => cases v <;> cases w <;> simp [number] at h h' <;> rfl
  | _ => rfl

end Verif.Pyd
