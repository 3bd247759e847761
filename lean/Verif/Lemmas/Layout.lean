import Verif.Spec.Represents
import Verif.Py.Layout
import Verif.Lemmas.Valid
/-! The graph of a value holds the value. -/
namespace Verif
open Verif.Gen Verif.Spec Verif.Pyd

variable {N : Nat}

theorem layoutL_length {l : List V} (h : ∀ v ∈ l, ∀ N at_, (layout N at_ v).length = objects v) (N at_ : Nat) :
    (layoutL N at_ l).length = objectsL l := by
  induction l generalizing at_ with
  | nil => rfl
  | cons v l ih =>
    rw [layoutL, objectsL, List.length_append, h v List.mem_cons_self, ih (fun v hv => h v (List.mem_cons_of_mem _ hv))]

theorem layoutD_length {d : List (Str × V)} (h : ∀ e ∈ d, ∀ N at_, (layout N at_ e.2).length = objects e.2) (N at_ : Nat) :
    (layoutD N at_ d).length = objectsD d := by
  induction d generalizing at_ with
  | nil => rfl
  | cons e d ih =>
    obtain ⟨k, v⟩ := e
    rw [layoutD, objectsD, List.length_append, h (k, v) List.mem_cons_self, ih (fun v hv => h v (List.mem_cons_of_mem _ hv))]

theorem layout_length : ∀ (v : V) (N at_ : Nat), (layout N at_ v).length = objects v := by
  apply V.ind
  · intro l h N a; rw [layout, objects, List.length_cons, layoutL_length h]; omega
  · intro d h N a; rw [layout, objects, List.length_cons, layoutD_length h]; omega
  · intro c fs ex set h1 h2 N a
    rw [layout, objects, List.length_cons, List.length_append, layoutD_length h1, layoutD_length h2]; omega
  all_goals intros; rfl

/-- The graph has these objects from address `at`. -/
def Has (D : Doc Cls (N + 1)) (at_ : Nat) (l : List (Node Cls (N + 1))) : Prop :=
  ∀ i nd, l[i]? = some nd → D.node (Fin.ofNat (N + 1) (at_ + i)) = nd

theorem Has.left {D : Doc Cls (N + 1)} {at_ : Nat} {l m} (h : Has D at_ (l ++ m)) : Has D at_ l := by
  intro i nd hi
  apply h
  rw [List.getElem?_append_left]
  · exact hi
  · exact (List.getElem?_eq_some_iff.1 hi).1

theorem Has.right {D : Doc Cls (N + 1)} {at_ : Nat} {l m} (h : Has D at_ (l ++ m)) : Has D (at_ + l.length) m := by
  intro i nd hi
  rw [Nat.add_assoc]
  apply h
  rw [List.getElem?_append_right (by omega)]
  rw [Nat.add_sub_cancel_left]; exact hi

theorem Has.tail {D : Doc Cls (N + 1)} {at_ : Nat} {x l} (h : Has D at_ (x :: l)) : Has D (at_ + 1) l :=
  Has.right (l := [x]) h

theorem Has.head {D : Doc Cls (N + 1)} {at_ : Nat} {x l} (h : Has D at_ (x :: l)) : D.node (Fin.ofNat (N + 1) at_) = x :=
  h 0 x rfl

/-- The goal for one value. -/
def Laid (v : V) : Prop := ∀ (N : Nat) (D : Doc Cls (N + 1)) (at_ : Nat), Has D at_ (layout N at_ v) →
  Rep D (valueAt N at_ v) v ∧
  ∀ i, i < objects v → ∃ w, Within w v ∧ Rep D (.ptr (Fin.ofNat (N + 1) (at_ + i))) w

theorem laidL {l : List V} (h : ∀ v ∈ l, Laid v) {D : Doc Cls (N + 1)} {at_ : Nat} (hD : Has D at_ (layoutL N at_ l)) :
    (itemsAt N at_ l).length = l.length ∧
    (∀ (i : Nat) x v, (itemsAt N at_ l)[i]? = some x → l[i]? = some v → Rep D x v) ∧
    ∀ i, i < objectsL l → ∃ w v, v ∈ l ∧ Within w v ∧ Rep D (.ptr (Fin.ofNat (N + 1) (at_ + i))) w := by
  induction l generalizing at_ with
  | nil =>
    refine ⟨rfl, ?_, ?_⟩
    · intro i x v hx; simp [itemsAt] at hx
    · intro i hi; exact absurd hi (by simp [objectsL])
  | cons v l ih =>
    rw [layoutL] at hD
    obtain ⟨h1, h2⟩ := h v List.mem_cons_self N D at_ hD.left
    have hr := hD.right
    rw [layout_length] at hr
    obtain ⟨h3, h4, h5⟩ := ih (fun v hv => h v (List.mem_cons_of_mem _ hv)) hr
    refine ⟨by simp [itemsAt, h3], ?_, ?_⟩
    · intro i x w hx hw
      cases i with
      | zero => simp only [itemsAt, List.getElem?_cons_zero, Option.some.injEq] at hx hw; rw [← hx, ← hw]; exact h1
      | succ i => simp only [itemsAt, List.getElem?_cons_succ] at hx hw; exact h4 i x w hx hw
    · intro i hi
      rw [objectsL] at hi
      by_cases hlt : i < objects v
      · obtain ⟨w, hw, hrep⟩ := h2 i hlt
        exact ⟨w, v, List.mem_cons_self, hw, hrep⟩
      · obtain ⟨w, u, hu, hw, hrep⟩ := h5 (i - objects v) (by omega)
        refine ⟨w, u, List.mem_cons_of_mem _ hu, hw, ?_⟩
        rwa [show at_ + objects v + (i - objects v) = at_ + i by omega] at hrep

theorem laidD {d : List (Str × V)} (h : ∀ e ∈ d, Laid e.2) {D : Doc Cls (N + 1)} {at_ : Nat} (hD : Has D at_ (layoutD N at_ d)) :
    (entriesAt N at_ d).map (·.1) = d.map (·.1) ∧
    (∀ (i : Nat) k x k' v, (entriesAt N at_ d)[i]? = some (k, x) → d[i]? = some (k', v) → Rep D x v) ∧
    ∀ i, i < objectsD d → ∃ w e, e ∈ d ∧ Within w e.2 ∧ Rep D (.ptr (Fin.ofNat (N + 1) (at_ + i))) w := by
  induction d generalizing at_ with
  | nil =>
    refine ⟨rfl, ?_, ?_⟩
    · intro i k x k' v hx; simp [entriesAt] at hx
    · intro i hi; exact absurd hi (by simp [objectsD])
  | cons e d ih =>
    obtain ⟨k, v⟩ := e
    rw [layoutD] at hD
    obtain ⟨h1, h2⟩ := h (k, v) List.mem_cons_self N D at_ hD.left
    have hr := hD.right
    rw [layout_length] at hr
    obtain ⟨h3, h4, h5⟩ := ih (fun v hv => h v (List.mem_cons_of_mem _ hv)) hr
    refine ⟨by simp [entriesAt, h3], ?_, ?_⟩
    · intro i j x j' w hx hw
      cases i with
      | zero =>
        simp only [entriesAt, List.getElem?_cons_zero, Option.some.injEq, Prod.mk.injEq] at hx hw
        rw [← hx.2, ← hw.2]; exact h1
      | succ i => simp only [entriesAt, List.getElem?_cons_succ] at hx hw; exact h4 i j x j' w hx hw
    · intro i hi
      rw [objectsD] at hi
      by_cases hlt : i < objects v
      · obtain ⟨w, hw, hrep⟩ := h2 i hlt
        exact ⟨w, (k, v), List.mem_cons_self, hw, hrep⟩
      · obtain ⟨w, u, hu, hw, hrep⟩ := h5 (i - objects v) (by omega)
        refine ⟨w, u, List.mem_cons_of_mem _ hu, hw, ?_⟩
        rwa [show at_ + objects v + (i - objects v) = at_ + i by omega] at hrep

theorem laid : ∀ v, Laid v := by
  apply V.ind
  · intro l h N D a hD
    rw [layout] at hD
    obtain ⟨h1, h2, h3⟩ := laidL h hD.tail
    have hrep : Rep D (valueAt N a (.list l)) (.list l) := .list hD.head h1 h2
    refine ⟨hrep, fun i hi => ?_⟩
    cases i with
    | zero => exact ⟨_, .refl, hrep⟩
    | succ i =>
      rw [objects] at hi
      obtain ⟨w, v, hv, hw, hr⟩ := h3 i (by omega)
      refine ⟨w, .item hv hw, ?_⟩
      rwa [show a + 1 + i = a + (i + 1) by omega] at hr
  · intro d h N D a hD
    rw [layout] at hD
    obtain ⟨h1, h2, h3⟩ := laidD h hD.tail
    have hrep : Rep D (valueAt N a (.dict d)) (.dict d) := .dict hD.head h1 h2
    refine ⟨hrep, fun i hi => ?_⟩
    cases i with
    | zero => exact ⟨_, .refl, hrep⟩
    | succ i =>
      rw [objects] at hi
      obtain ⟨w, v, hv, hw, hr⟩ := h3 i (by omega)
      refine ⟨w, .entry hv hw, ?_⟩
      rwa [show a + 1 + i = a + (i + 1) by omega] at hr
  · intro c fs ex set hf hx N D a hD
    rw [layout] at hD
    obtain ⟨h1, h2, h3⟩ := laidD hf hD.tail.left
    have hr := hD.tail.right
    rw [layoutD_length (fun e _ => layout_length e.2)] at hr
    obtain ⟨k1, k2, k3⟩ := laidD hx hr
    have hrep : Rep D (valueAt N a (.inst c fs ex set)) (.inst c fs ex set) := .inst hD.head h1 k1 h2 k2
    refine ⟨hrep, fun i hi => ?_⟩
    cases i with
    | zero => exact ⟨_, .refl, hrep⟩
    | succ i =>
      rw [objects] at hi
      by_cases hlt : i < objectsD fs
      · obtain ⟨w, v, hv, hw, hr⟩ := h3 i hlt
        refine ⟨w, .field hv hw, ?_⟩
        rwa [show a + 1 + i = a + (i + 1) by omega] at hr
      · obtain ⟨w, v, hv, hw, hr⟩ := k3 (i - objectsD fs) (by omega)
        refine ⟨w, .extra hv hw, ?_⟩
        rwa [show a + 1 + objectsD fs + (i - objectsD fs) = a + (i + 1) by omega] at hr
  all_goals
    intros; intro N D a hD
    refine ⟨?_, fun i hi => absurd hi (by simp [objects])⟩
  · exact .none
  · exact .bool
  · exact .int
  · exact .float
  · exact .str
  · rename_i k s; cases k; exact .anyUrl; exact .httpUrl
  · exact .proc

/-- Is the value an object (not childless)? -/
theorem objects_pos {c : Cls} {fs ex : List (Str × V)} {set : List Str} : 0 < objects (.inst c fs ex set) := by
  rw [objects]; omega

/-- The graph of an instance holds it. -/
theorem graphOf_represents (c : Cls) (fs ex : List (Str × V)) (set : List Str) :
    Depicts (graphOf (.inst c fs ex set)) (.inst c fs ex set) := by
  generalize hv : V.inst c fs ex set = v
  have hpos : 0 < objects v := by rw [← hv]; exact objects_pos
  have hhas : Has (graphOf v) 0 (layout (objects v - 1) 0 v) := by
    intro i nd hi
    have hlt : i < objects v := by
      have := (List.getElem?_eq_some_iff.1 hi).1
      rwa [layout_length] at this
    have : (Fin.ofNat (objects v - 1 + 1) (0 + i)).val = i := by
      simp only [Fin.ofNat, Nat.zero_add]
      exact Nat.mod_eq_of_lt (by omega)
    change ((layout _ 0 v)[(Fin.ofNat (objects v - 1 + 1) (0 + i)).val]?).getD _ = nd
    rw [this, hi]; rfl
  obtain ⟨h1, h2⟩ := laid v _ _ 0 hhas
  constructor
  · have : valueAt (objects v - 1) 0 v = .ptr (graphOf v).spec := by rw [← hv]; rfl
    rw [← this]; exact h1
  · intro a
    obtain ⟨w, hw, hr⟩ := h2 a.val (by have := a.isLt; omega)
    refine ⟨w, hw, ?_⟩
    have : Fin.ofNat (objects v - 1 + 1) (0 + a.val) = a := by
      apply Fin.ext
      simp only [Fin.ofNat, Nat.zero_add]
      exact Nat.mod_eq_of_lt a.isLt
    rwa [this] at hr

end Verif
