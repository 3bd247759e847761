import Verif.Spec.Extract
import Verif.Lemmas.Removes
/-! References in a document in which an instance was replaced by another. -/
namespace Verif.Pyd
open Verif Verif.Gen Verif.Spec

variable {U : Uni} {limit : Option Nat}

/-- The same, or changed strictly inside. -/
def Alike (x x' v v' : V) : Prop := v' = v ∨ ∃ st sub, Replaced x x' v (st :: sub) v'

theorem alike_class {x x' v v' : V} (h : Alike x x' v v') {c fs ex set} (e : v = .inst c fs ex set) :
    ∃ fs' ex' set', v' = .inst c fs' ex' set' := by
  subst e
  rcases h with rfl | ⟨st, sub, h⟩
  · exact ⟨_, _, _, rfl⟩
  · cases h with | field => exact ⟨_, _, _, rfl⟩

theorem alike_ref {x x' : V} (hx : ∀ s, x ≠ .str s) {v v' : V} (h : Alike x x' v v') {s} (hr : TRef v s) : TRef v' s := by
  obtain ⟨fs, ex, set, rfl, hm⟩ := hr
  rcases h with rfl | ⟨st, sub, h⟩
  · exact ⟨_, _, _, rfl, hm⟩
  · cases h with
    | field h =>
      refine ⟨_, _, _, rfl, ?_⟩
      rcases List.mem_append.1 hm with hm | hm
      · exact List.mem_append_left _ hm
      · rcases List.mem_cons.1 hm with hm | hm
        · obtain ⟨-, rfl⟩ := Prod.mk.inj hm
          cases h with
          | here => exact absurd rfl (hx s)
        · exact List.mem_append_right _ (List.mem_cons_of_mem _ hm)

theorem alike_of_replaced {x x' y y' : V} {sub} (h : Replaced x x' y sub y') : (sub = [] ∧ y = x ∧ y' = x') ∨ Alike x x' y y' := by
  cases sub with
  | nil => cases h; exact .inl ⟨rfl, rfl, rfl⟩
  | cons st sub => exact .inr (.inr ⟨st, sub, h⟩)

/-- A changed dict is a dict. -/
theorem replaced_dict {x x' : V} (hx : ∃ c fs ex set, x = .inst c fs ex set) {d : List (Str × V)} {sub y'}
    (h : Replaced x x' (.dict d) sub y') : ∃ d', y' = .dict d' := by
  cases h with
  | here => obtain ⟨_, _, _, _, e⟩ := hx; cases e
  | entry => exact ⟨_, rfl⟩

theorem replaced_not_none {x x' : V} (hx : x' ≠ .none) {y sub y'} (h : Replaced x x' y sub y') : y' ≠ .none := by
  cases h with
  | here => exact hx
  | _ => simp

theorem no_root_changed {x x' : V} (hx' : ∃ c fs ex set, x' = .inst c fs ex set) {c fs fs' ex set k y y' steps}
    (hy : Replaced x x' y steps y') (h0 : ∀ d, ¬ TRoot (.inst c (fs ++ (k, y) :: fs') ex set) d) :
    ∀ d, ¬ TRoot (.inst c (fs ++ (k, y') :: fs') ex set) d := by
  rintro d ⟨_, _, _, _, e, hr⟩
  cases e
  rcases hr with hr | ⟨hn, hr⟩
  · rcases List.mem_append.1 hr with hr | hr
    · exact h0 d ⟨_, _, _, _, rfl, .inl (List.mem_append_left _ hr)⟩
    · rcases List.mem_cons.1 hr with hr | hr
      · obtain ⟨rfl, rfl⟩ := Prod.mk.inj hr
        obtain ⟨d0, rfl⟩ := replaced_dict hx' (replaced_symm hy)
        exact h0 d0 ⟨_, _, _, _, rfl, .inl (List.mem_append_right _ (List.mem_cons_self ..))⟩
      · exact h0 d ⟨_, _, _, _, rfl, .inl (List.mem_append_right _ (List.mem_cons_of_mem _ hr))⟩
  · refine h0 d ⟨_, _, _, _, rfl, .inr ⟨fun w hw' => ?_, hr⟩⟩
    rcases List.mem_append.1 hw' with h | h
    · exact hn w (List.mem_append_left _ h)
    · rcases List.mem_cons.1 h with h | h
      · cases h; exact hn y' (List.mem_append_right _ (List.mem_cons_self ..))
      · exact hn w (List.mem_append_right _ (List.mem_cons_of_mem _ h))

/-- A path leads to the same as before, but for changes inside; or to or through what was replaced. -/
theorem walk_changed {x x' : V} (hx : ∃ c fs ex set, x = .inst c fs ex set) (hx' : ∃ c fs ex set, x' = .inst c fs ex set)
    {doc steps doc'} (h : Replaced x x' doc steps doc') : ∀ path v, TWalk doc path v →
      (∃ v', TWalk doc' path v' ∧ Alike x x' v v') ∨
      ∃ pre suf, path = pre ++ suf ∧ Leads x doc pre steps ∧ TWalk doc' pre x' ∧ TWalk x suf v := by
  induction h with
  | here => exact fun path v hw => .inr ⟨[], path, rfl, .nil, .nil, hw⟩
  | item h _ =>
    intro path v hw
    cases hw with
    | nil => exact .inl ⟨_, .nil, .inr ⟨_, _, .item h⟩⟩
    | cons h _ => cases h with | root h => obtain ⟨_, _, _, _, e, _⟩ := h; cases e
  | @entry d d' k y y' steps hy ih =>
    intro path v hw
    cases hw with
    | nil => exact .inl ⟨_, .nil, .inr ⟨_, _, .entry hy⟩⟩
    | cons h hw =>
      cases h with
      | root h => obtain ⟨_, _, _, _, e, _⟩ := h; cases e
      | dict hm =>
        rcases List.mem_append.1 hm with hm | hm
        · exact .inl ⟨v, .cons (.dict (List.mem_append_left _ hm)) hw, .inl rfl⟩
        · rcases List.mem_cons.1 hm with hm | hm
          · cases hm
            rcases ih _ v hw with ⟨v', h, ha⟩ | ⟨pre, suf, rfl, h1, h2, h3⟩
            · exact .inl ⟨v', .cons (.dict (List.mem_append_right _ (List.mem_cons_self ..))) h, ha⟩
            · exact .inr ⟨k :: pre, suf, rfl, .entry (List.mem_append_right _ (List.mem_cons_self ..)) h1,
                .cons (.dict (List.mem_append_right _ (List.mem_cons_self ..))) h2, h3⟩
          · exact .inl ⟨v, .cons (.dict (List.mem_append_right _ (List.mem_cons_of_mem _ hm))) hw, .inl rfl⟩
  | @field c fs fs' ex set k y y' steps hy ih =>
    intro path v hw
    cases hw with
    | nil => exact .inl ⟨_, .nil, .inr ⟨_, _, .field hy⟩⟩
    | @cons _ k0 _ ks _ h hw =>
      cases h with
      | @root _ d _ _ hr hm =>
        obtain ⟨_, _, _, _, e, hr⟩ := hr
        cases e
        rcases hr with hr | ⟨hn, hr⟩
        · rcases List.mem_append.1 hr with hr | hr
          · exact .inl ⟨v, .cons (.root ⟨_, _, _, _, rfl, .inl (List.mem_append_left _ hr)⟩ hm) hw, .inl rfl⟩
          · rcases List.mem_cons.1 hr with hr | hr
            · cases hr
              obtain ⟨d', rfl⟩ := replaced_dict hx hy
              have hroot : TRoot (.inst c (fs ++ (p!"root", .dict d') :: fs') ex set) d' :=
                ⟨_, _, _, _, rfl, .inl (List.mem_append_right _ (List.mem_cons_self ..))⟩
              rcases ih _ v (.cons (.dict hm) hw) with ⟨v', h, ha⟩ | ⟨pre, suf, e, h1, h2, h3⟩
              · cases h with
                | cons h hw' =>
                  cases h with
                  | root h => obtain ⟨_, _, _, _, e, _⟩ := h; cases e
                  | dict hm' => exact .inl ⟨v', .cons (.root hroot hm') hw', ha⟩
              · refine .inr ⟨pre, suf, e, .root (List.mem_append_right _ (List.mem_cons_self ..)) h1, ?_, h3⟩
                cases h2 with
                | nil => obtain ⟨_, _, _, _, e⟩ := hx'; cases e
                | cons h hw' =>
                  cases h with
                  | root h => obtain ⟨_, _, _, _, e, _⟩ := h; cases e
                  | dict hm' => exact .cons (.root hroot hm') hw'
            · exact .inl ⟨v, .cons (.root ⟨_, _, _, _, rfl, .inl (List.mem_append_right _ (List.mem_cons_of_mem _ hr))⟩ hm) hw, .inl rfl⟩
        · refine .inl ⟨v, .cons (.root ⟨_, _, _, _, rfl, .inr ⟨fun w hw' => ?_, hr⟩⟩ hm) hw, .inl rfl⟩
          rcases List.mem_append.1 hw' with h | h
          · exact hn w (List.mem_append_left _ h)
          · rcases List.mem_cons.1 h with h | h
            · cases h; exact hn y (List.mem_append_right _ (List.mem_cons_self ..))
            · exact hn w (List.mem_append_right _ (List.mem_cons_of_mem _ h))
      | @field _ _ _ _ f _ w h0 hf hk hm hne =>
        have h0' : ∀ d, ¬ TRoot (.inst c (fs ++ (k, y') :: fs') ex set) d := no_root_changed hx' hy h0
        rcases List.mem_append.1 hm with hm | hm
        · exact .inl ⟨v, .cons (.field h0' hf hk (List.mem_append_left _ hm) hne) hw, .inl rfl⟩
        · rcases List.mem_cons.1 hm with hm | hm
          · obtain ⟨e1, e2⟩ := Prod.mk.inj hm
            subst e1 e2
            have hz : y' ≠ .none := replaced_not_none (by obtain ⟨_, _, _, _, rfl⟩ := hx'; simp) hy
            rcases ih _ v hw with ⟨v', h, ha⟩ | ⟨pre, suf, rfl, h1, h2, h3⟩
            · exact .inl ⟨v', .cons (.field h0' hf hk (List.mem_append_right _ (List.mem_cons_self ..)) hz) h, ha⟩
            · exact .inr ⟨k0 :: pre, suf, rfl, .field h0 hf hk (List.mem_append_right _ (List.mem_cons_self ..)) hne h1,
                .cons (.field h0' hf hk (List.mem_append_right _ (List.mem_cons_self ..)) hz) h2, h3⟩
          · exact .inl ⟨v, .cons (.field h0' hf hk (List.mem_append_right _ (List.mem_cons_of_mem _ hm)) hne) hw, .inl rfl⟩

theorem at_new {x x' : V} (hx' : x' ≠ .none) {doc steps doc'} (h : Replaced x x' doc steps doc') :
    Sound U limit doc → (∃ w, TAt doc steps w) → TAt doc' steps x' := by
  induction h with
  | here => exact fun _ _ => .nil
  | item _ ih =>
    rintro hs ⟨w, hat⟩
    cases hat with
    | cons h1 h2 =>
      cases h1 with
      | item hi =>
        rw [List.getElem?_append_right (Nat.le_refl _)] at hi
        simp only [Nat.sub_self, List.getElem?_cons_zero, Option.some.injEq] at hi
        subst hi
        cases hs with
        | list hl => exact .cons (.item (by rw [List.getElem?_append_right (Nat.le_refl _)]; simp)) (ih (hl _ (by simp)) ⟨w, h2⟩)
  | @entry d d' k y y' steps hy ih =>
    rintro hs ⟨w, hat⟩
    cases hat with
    | cons h1 h2 =>
      cases h1 with
      | entry hm =>
        cases hs with
        | dict hn hd =>
          have hmem : (k, y) ∈ d ++ (k, y) :: d' := List.mem_append_right _ (List.mem_cons_self ..)
          cases dict_unique hn hm hmem
          exact .cons (.entry (List.mem_append_right _ (List.mem_cons_self ..))) (ih (hd _ hmem) ⟨w, h2⟩)
  | @field c fs fs' ex set k y y' steps hy ih =>
    rintro hs ⟨w, hat⟩
    cases hat with
    | cons h1 h2 =>
      cases h1 with
      | @field _ _ _ _ f _ hf he hm hne =>
        have hmem : (f.name, y) ∈ fs ++ (f.name, y) :: fs' := List.mem_append_right _ (List.mem_cons_self ..)
        cases dict_unique (inst_nodup hs) hm hmem
        cases hs with
        | inst _ hl _ _ =>
          exact .cons (.field hf he (List.mem_append_right _ (List.mem_cons_self ..)) (replaced_not_none hx' hy))
            (ih (hl _ hmem) ⟨w, h2⟩)

/-- What stands in the new document stands in the old one, or in what was put in. -/
theorem at_changed {x x' : V} (hx : ∀ s, x' ≠ .str s) (hz : x ≠ .none) {doc steps doc'} (h : Replaced x x' doc steps doc') :
    ∀ {ss w s}, TAt doc' ss w → TRef w s → (∃ w, TAt doc ss w ∧ TRef w s) ∨ ∃ rest, ss = steps ++ rest ∧ TAt x' rest w := by
  induction h with
  | here => exact fun hat _ => .inr ⟨_, rfl, hat⟩
  | @item l l' y y' _ hy ih =>
    intro ss w s hat hr
    cases hat with
    | nil => obtain ⟨_, _, _, e, _⟩ := hr; cases e
    | cons h1 h2 =>
      cases h1 with
      | @item _ i _ hi =>
        rcases Nat.lt_trichotomy i l.length with hl | hl | hl
        · rw [List.getElem?_append_left hl] at hi
          exact .inl ⟨w, .cons (.item (by rw [List.getElem?_append_left hl]; exact hi)) h2, hr⟩
        · subst hl
          rw [List.getElem?_append_right (Nat.le_refl _)] at hi
          simp only [Nat.sub_self, List.getElem?_cons_zero, Option.some.injEq] at hi
          subst hi
          rcases ih h2 hr with ⟨w, ha, hr⟩ | ⟨rest, rfl, ha⟩
          · exact .inl ⟨w, .cons (.item (by rw [List.getElem?_append_right (Nat.le_refl _)]; simp)) ha, hr⟩
          · exact .inr ⟨rest, rfl, ha⟩
        · obtain ⟨n, rfl⟩ := Nat.exists_eq_add_of_lt hl
          have e : l.length + n + 1 - l.length = n + 1 := by omega
          rw [List.getElem?_append_right (by omega), e, List.getElem?_cons_succ] at hi
          exact .inl ⟨w, .cons (.item (by rw [List.getElem?_append_right (by omega), e, List.getElem?_cons_succ]; exact hi)) h2, hr⟩
  | @entry d d' k y y' _ hy ih =>
    intro ss w s hat hr
    cases hat with
    | nil => obtain ⟨_, _, _, e, _⟩ := hr; cases e
    | cons h1 h2 =>
      cases h1 with
      | entry hm =>
        rcases List.mem_append.1 hm with hm | hm
        · exact .inl ⟨w, .cons (.entry (List.mem_append_left _ hm)) h2, hr⟩
        · rcases List.mem_cons.1 hm with hm | hm
          · cases hm
            rcases ih h2 hr with ⟨w, ha, hr⟩ | ⟨rest, rfl, ha⟩
            · exact .inl ⟨w, .cons (.entry (List.mem_append_right _ (List.mem_cons_self ..))) ha, hr⟩
            · exact .inr ⟨rest, rfl, ha⟩
          · exact .inl ⟨w, .cons (.entry (List.mem_append_right _ (List.mem_cons_of_mem _ hm))) h2, hr⟩
  | @field c fs fs' ex set k y y' sub hy ih =>
    intro ss w s hat hr
    cases hat with
    | nil =>
      exact .inl ⟨_, .nil, alike_ref hx (.inr ⟨_, _, replaced_symm (.field hy)⟩) hr⟩
    | cons h1 h2 =>
      cases h1 with
      | field hf he hm hn =>
        rcases List.mem_append.1 hm with hm | hm
        · exact .inl ⟨w, .cons (.field hf he (List.mem_append_left _ hm) hn) h2, hr⟩
        · rcases List.mem_cons.1 hm with hm | hm
          · cases hm
            rcases ih h2 hr with ⟨w, ha, hr⟩ | ⟨rest, rfl, ha⟩
            · exact .inl ⟨w, .cons (.field hf he (List.mem_append_right _ (List.mem_cons_self ..))
                (replaced_not_none hz (replaced_symm hy))) ha, hr⟩
            · exact .inr ⟨rest, rfl, ha⟩
          · exact .inl ⟨w, .cons (.field hf he (List.mem_append_right _ (List.mem_cons_of_mem _ hm)) hn) h2, hr⟩

/-! ### Chains -/

section
variable {x x' doc doc' : V} {steps : List LocStep} {c : Cls} {r : Str}

/-- Nothing is below a Reference but its string. -/
theorem ref_walk {v : V} (hs : Sound U limit v) {s} (hr : TRef v s) {k ks w} (h : TWalk v (k :: ks) w) : w = .str s := by
  obtain ⟨fs, ex, set, rfl, hm⟩ := hr
  cases hs with
  | inst hv _ _ _ =>
    cases hv with
    | model hfs hty hcon =>
      have hn : (fs.map (·.1)).Nodup := hfs ▸ names_nodup _
      have hex : ex = [] := hcon.closed (.inl rfl)
      have hfs' : fs.map (·.1) = [p!"ref"] := hfs
      cases h with
      | cons h1 h2 =>
        cases h1 with
        | root hr =>
          obtain ⟨_, _, _, _, e, hr⟩ := hr
          cases e
          rcases hr with hr | ⟨-, hr⟩
          · have : p!"root" ∈ fs.map (·.1) := List.mem_map.2 ⟨_, hr, rfl⟩
            rw [hfs'] at this
            simp at this
          · rw [hex] at hr; cases hr
        | @field _ _ _ _ f _ u _ hf hk hu _ =>
          have hfn : f.name = p!"ref" := by
            have : f.name ∈ fs.map (·.1) := List.mem_map.2 ⟨_, hu, rfl⟩
            rw [hfs'] at this
            simpa using this
          rw [hfn] at hu
          cases dict_unique hn hu hm
          cases h2 with
          | nil => rfl
          | cons h _ => cases h with | root h => obtain ⟨_, _, _, _, e, _⟩ := h; cases e

/-- One hop, if it does not lead through the changed part. -/
theorem hop_changed (hx : ∃ c fs ex set, x = .inst c fs ex set) (hx' : ∃ c fs ex set, x' = .inst c fs ex set)
    (hn : ∀ s, ¬ TRef x s) (h : Replaced x x' doc steps doc') {a b : Str} (hh : THop doc a b)
    (hb : ¬ ∃ path k rest, Spells a (path ++ k :: rest) ∧ Leads x doc path steps) : THop doc' a b := by
  obtain ⟨v, ⟨he, segs, hsp, hw⟩, hr⟩ := hh
  rcases walk_changed hx hx' h segs v hw with ⟨v', hw', ha⟩ | ⟨pre, suf, rfl, h1, h2, h3⟩
  · exact ⟨v', ⟨he, segs, hsp, hw'⟩, alike_ref (by obtain ⟨_, _, _, _, rfl⟩ := hx; simp) ha hr⟩
  · cases suf with
    | nil => cases h3; exact absurd hr (hn b)
    | cons k rest => exact absurd ⟨pre, k, rest, hsp, h1⟩ hb

theorem hops_changed (hx : ∃ c fs ex set, x = .inst c fs ex set) (hx' : ∃ c fs ex set, x' = .inst c fs ex set)
    (hn : ∀ s, ¬ TRef x s) (h : Replaced x x' doc steps doc') {a z : Str} (hh : THops doc a z)
    (hb : ∀ y, THops doc a y → ¬ ∃ path k rest, Spells y (path ++ k :: rest) ∧ Leads x doc path steps) : THops doc' a z := by
  induction hh using Relation.ReflTransGen.head_induction_on with
  | refl => exact .refl
  | head h1 _ ih => exact .head (hop_changed hx hx' hn h h1 (hb _ .refl)) (ih fun y hy => hb y (.head h1 hy))

/-- Where the target of the new Reference leads. -/
theorem ends_changed (hx : ∃ c fs ex set, x = .inst c fs ex set) (hx' : ∃ c fs ex set, x' = .inst c fs ex set)
    (hn : ∀ s, ¬ TRef x s) (h : Replaced x x' doc steps doc') (he : EndsIn doc r c) (hi : ¬ Into doc r steps) : EndsIn doc' r c := by
  obtain ⟨hc, z, fs, ex, set, h1, h2, segs, hsp, hw⟩ := he
  have hb : ∀ y, THops doc r y → ¬ ∃ path k rest, Spells y (path ++ k :: rest) ∧ Leads x doc path steps :=
    fun y hy ⟨path, k, rest, h1, h2⟩ => hi ⟨y, path, k :: rest, x, hy, h1, h2⟩
  have h1' := hops_changed hx hx' hn h h1 hb
  rcases walk_changed hx hx' h segs _ hw with ⟨v', hw', ha⟩ | ⟨pre, suf, rfl, h3, -, -⟩
  · obtain ⟨fs', ex', set', rfl⟩ := alike_class ha rfl
    exact ⟨hc, z, fs', ex', set', h1', h2, segs, hsp, hw'⟩
  · exact absurd ⟨z, pre, suf, x, h1, hsp, h3⟩ hi

/-- A right reference stays right, if it does not lead below the replaced object. -/
theorem refOk_changed {fs ex set} (hx : x = .inst c fs ex set) (hc : c ≠ .Reference) (hr : TRef x' r)
    (h : Replaced x x' doc steps doc') (he : EndsIn doc' r c) {e s} (hok : TRefOk doc e s)
    (hb : ∀ y, THops doc s y → ¬ ∃ path k rest, Spells y (path ++ k :: rest) ∧ Leads x doc path steps) : TRefOk doc' e s := by
  have hx1 : ∃ c fs ex set, x = .inst c fs ex set := ⟨_, _, _, _, hx⟩
  have hx2 : ∃ c fs ex set, x' = .inst c fs ex set := by obtain ⟨_, _, _, e, _⟩ := hr; exact ⟨_, _, _, _, e⟩
  have hn : ∀ s, ¬ TRef x s := by
    rintro s ⟨_, _, _, e, _⟩
    rw [hx] at e
    cases e
    exact hc rfl
  rcases hok with ⟨z, h1, h2⟩ | ⟨z, c0, fs0, ex0, set0, cs, h1, ⟨h2, segs, hsp, hw⟩, h3, h4, h5⟩
  · exact .inl ⟨z, hops_changed hx1 hx2 hn h h1 hb, h2⟩
  · have h1' := hops_changed hx1 hx2 hn h h1 hb
    rcases walk_changed hx1 hx2 h segs _ hw with ⟨v', hw', ha⟩ | ⟨pre, suf, rfl, h6, h7, h8⟩
    · obtain ⟨fs', ex', set', rfl⟩ := alike_class ha rfl
      exact .inr ⟨z, c0, fs', ex', set', cs, h1', ⟨h2, segs, hsp, hw'⟩, h3, h4, h5⟩
    · cases suf with
      | cons k rest => exact absurd ⟨pre, k, rest, hsp, h6⟩ (hb z h1)
      | nil =>
        have e : x = .inst c0 fs0 ex0 set0 := by cases h8; rfl
        rw [hx] at e
        cases e
        obtain ⟨-, y, fs1, ex1, set1, h9, h10⟩ := he
        rw [List.append_nil] at hsp
        exact .inr ⟨y, c, fs1, ex1, set1, cs, h1'.trans (.head ⟨x', ⟨h2, pre, hsp, h7⟩, hr⟩ h9), h10, h3, h4, h5⟩

end

theorem leads_walk {x doc : V} (hx : ∃ c fs ex set, x = .inst c fs ex set) {path steps} (h : Leads x doc path steps) : TWalk doc path x := by
  induction h with
  | nil => exact .nil
  | entry hm _ ih => exact .cons (.dict hm) ih
  | root hm _ ih =>
    cases ih with
    | nil => obtain ⟨_, _, _, _, e⟩ := hx; cases e
    | cons h1 h2 =>
      cases h1 with
      | root h => obtain ⟨_, _, _, _, e, _⟩ := h; cases e
      | dict hm' => exact .cons (.root ⟨_, _, _, _, rfl, .inl hm⟩ hm') h2
  | field h0 hf hk hm hne _ ih => exact .cons (.field h0 hf hk hm hne) ih

theorem leads_replaced {x x' doc doc' : V} {steps} (h : Replaced x x' doc steps doc') : ∀ {x0 path}, Sound U limit doc →
    Leads x0 doc path steps → x0 = x := by
  induction h with
  | here => intro x0 path _ h; cases h; rfl
  | item _ _ => intro x0 path _ h; cases h
  | @entry d d' k y y' steps hy ih =>
    intro x0 path hs hl
    cases hl with
    | entry hm hl =>
      cases hs with
      | dict hn hd =>
        have hmem : (k, y) ∈ d ++ (k, y) :: d' := List.mem_append_right _ (List.mem_cons_self ..)
        cases dict_unique hn hm hmem
        exact ih (hd _ hmem) hl
  | @field c fs fs' ex set k y y' steps hy ih =>
    intro x0 path hs hl
    have hmem : (k, y) ∈ fs ++ (k, y) :: fs' := List.mem_append_right _ (List.mem_cons_self ..)
    have hn := inst_nodup hs
    cases hs with
    | inst _ hd _ _ =>
      cases hl with
      | root hm hl =>
        cases dict_unique hn hm hmem
        exact ih (hd _ hmem) hl
      | field _ _ _ hm _ hl =>
        cases dict_unique hn hm hmem
        exact ih (hd _ hmem) hl

theorem leads_new {x x' doc doc' : V} (hx' : ∃ c fs ex set, x' = .inst c fs ex set) (hx : ∃ c fs ex set, x = .inst c fs ex set)
    {steps} (h : Replaced x x' doc steps doc') : ∀ {x0 path}, Sound U limit doc → Leads x0 doc path steps → Leads x' doc' path steps := by
  induction h with
  | here => intro x0 path _ h; cases h; exact .nil
  | item _ _ => intro x0 path _ h; cases h
  | @entry d d' k y y' steps hy ih =>
    intro x0 path hs hl
    cases hl with
    | entry hm hl =>
      cases hs with
      | dict hn hd =>
        have hmem : (k, y) ∈ d ++ (k, y) :: d' := List.mem_append_right _ (List.mem_cons_self ..)
        cases dict_unique hn hm hmem
        exact .entry (List.mem_append_right _ (List.mem_cons_self ..)) (ih (hd _ hmem) hl)
  | @field c fs fs' ex set k y y' steps hy ih =>
    intro x0 path hs hl
    have hmem : (k, y) ∈ fs ++ (k, y) :: fs' := List.mem_append_right _ (List.mem_cons_self ..)
    have hn := inst_nodup hs
    cases hs with
    | inst _ hd _ _ =>
      cases hl with
      | root hm hl =>
        cases dict_unique hn hm hmem
        obtain ⟨d', rfl⟩ := replaced_dict hx hy
        exact .root (List.mem_append_right _ (List.mem_cons_self ..)) (ih (hd _ hmem) hl)
      | field h0 hf hk hm hne hl =>
        cases dict_unique hn hm hmem
        exact .field (no_root_changed hx' hy h0) hf hk (List.mem_append_right _ (List.mem_cons_self ..))
          (replaced_not_none (by obtain ⟨_, _, _, _, rfl⟩ := hx'; simp) hy) (ih (hd _ hmem) hl)

theorem refOk_along {doc : V} (hs : Sound U limit doc) {e a b} (hok : TRefOk doc e a) (hh : THops doc a b) : TRefOk doc e b := by
  induction hh with
  | refl => exact hok
  | tail _ hop ih =>
    obtain ⟨v, hd, hr⟩ := hop
    rcases ih with ⟨z, h1, h2⟩ | ⟨z, c, fs, ex, set, cs, h1, h2, h3, h4⟩
    · rcases Relation.ReflTransGen.cases_head h1 with rfl | ⟨y, hy, h1⟩
      · exact absurd h2 hd.1
      · cases thop_unique hs _ _ _ hy ⟨v, hd, hr⟩
        exact .inl ⟨z, h1, h2⟩
    · rcases Relation.ReflTransGen.cases_head h1 with rfl | ⟨y, hy, h1⟩
      · cases tdenotes_unique hs hd h2
        obtain ⟨_, _, _, e, _⟩ := hr
        cases e
        exact absurd rfl h3
      · cases thop_unique hs _ _ _ hy ⟨v, hd, hr⟩
        exact .inr ⟨z, c, fs, ex, set, cs, h1, h2, h3, h4⟩

/-- A right internal reference leads to an instance. -/
theorem refOk_inst {doc : V} {e s} (hok : TRefOk doc e s) (hi : ¬ External s) : ∃ c fs ex set, TDenotes doc s (.inst c fs ex set) := by
  have hop : ∀ y, THop doc s y → ∃ c fs ex set, TDenotes doc s (.inst c fs ex set) := by
    rintro y ⟨v, hd, _, _, _, rfl, _⟩
    exact ⟨_, _, _, _, hd⟩
  rcases hok with ⟨z, h1, h2⟩ | ⟨z, c, fs, ex, set, cs, h1, h2, -⟩
  · rcases Relation.ReflTransGen.cases_head h1 with rfl | ⟨y, hy, -⟩
    · exact absurd h2 hi
    · exact hop y hy
  · rcases Relation.ReflTransGen.cases_head h1 with rfl | ⟨y, hy, -⟩
    · exact ⟨_, _, _, _, h2⟩
    · exact hop y hy

/-- A reference that leads below the replaced object is wrong now. -/
theorem below_wrong {x x' doc doc' : V} {steps : List LocStep} {c : Cls} {r : Str} {fs ex set} (hx : x = .inst c fs ex set)
    (hc : c ≠ .Reference) (hr : TRef x' r) (h : Replaced x x' doc steps doc') (hs : Sound U limit doc) (hs' : Sound U limit doc')
    {e s} (hok : TRefOk doc' e s) : ¬ Below doc s steps := by
  have hx1 : ∃ c fs ex set, x = .inst c fs ex set := ⟨_, _, _, _, hx⟩
  have hx2 : ∃ c fs ex set, x' = .inst c fs ex set := by obtain ⟨_, _, _, e, _⟩ := hr; exact ⟨_, _, _, _, e⟩
  have hn : ∀ s, ¬ TRef x s := by
    rintro s ⟨_, _, _, e, _⟩
    rw [hx] at e
    cases e
    exact hc rfl
  rintro ⟨y, path, k, rest, x0, hh, hsp, hl⟩
  have key : ∃ y, THops doc' s y ∧ ∃ path k rest, Spells y (path ++ k :: rest) ∧ Leads x doc path steps := by
    induction hh using Relation.ReflTransGen.head_induction_on with
    | refl => exact ⟨y, .refl, path, k, rest, hsp, by rwa [← leads_replaced h hs hl]⟩
    | @head a b h1 _ ih =>
      by_cases hb : ∃ path k rest, Spells a (path ++ k :: rest) ∧ Leads x doc path steps
      · exact ⟨a, .refl, hb⟩
      · have hop := hop_changed hx1 hx2 hn h h1 hb
        obtain ⟨y, h2, h3⟩ := ih (refOk_along hs' hok (.single hop))
        exact ⟨y, .head hop h2, h3⟩
  obtain ⟨y, h1, path, k, rest, hsp, hl⟩ := key
  obtain ⟨c1, fs1, ex1, set1, hi, segs, hsp', hw⟩ := refOk_inst (refOk_along hs' hok h1) (Resolve.spells_not_external hsp)
  cases Resolve.spells_unique hsp hsp'
  obtain ⟨w, hw1, hw2⟩ := twalk_split hw
  have hw1' : TWalk doc' path x' := leads_walk hx2 (leads_new hx2 hx1 h hs hl)
  cases twalk_unique hs' hw1 hw1'
  cases ref_walk (sound_within hs' (twalk_within hw1)) hr hw2

theorem at_unique {v a b : V} {l} (h : TAt v l a) : Sound U limit v → TAt v l b → a = b := by
  induction h with
  | nil => intro _ h; cases h; rfl
  | @cons v st u ss w hch _ ih =>
    intro hs h
    cases h with
    | @cons _ _ u' _ _ hch' h' =>
      have e : u = u' ∧ Sound U limit u := by
        cases hch with
        | item hi =>
          cases hch' with
          | item hi' =>
            rw [hi] at hi'
            cases hi'
            cases hs with | list hl => exact ⟨rfl, hl _ (List.mem_of_getElem? hi)⟩
        | entry hm =>
          cases hch' with
          | entry hm' => cases hs with | dict hn hd => exact ⟨dict_unique hn hm hm', hd _ hm⟩
        | @field c fs ex set f w hf he hm hne =>
          generalize hn : LocStep.field f.name = stp at hch'
          cases hch' with
          | field hf' he' hm' hne' =>
            have hnn := inst_nodup hs
            have hn := LocStep.field.inj hn
            rw [hn] at hm
            cases hs with | inst _ hl _ _ => exact ⟨dict_unique hnn hm hm', hl _ hm⟩
          | _ => cases hn
      obtain ⟨rfl, hs'⟩ := e
      exact ih hs' h'

/-- Along the path of a reference the locations go down. -/
theorem leads_prefix {a v : V} (ha : ∃ c fs ex set, a = .inst c fs ex set) {path l} (h : Leads a v path l) :
    ∀ {b rest l'}, Sound U limit v → Leads b v (path ++ rest) l' → l <+: l' := by
  induction h with
  | nil => intro _ _ _ _ _; exact List.nil_prefix
  | @entry d k w path steps hm _ ih =>
    intro b rest l' hs h
    cases h with
    | entry hm' h' =>
      cases hs with
      | dict hn hd =>
        cases dict_unique hn hm hm'
        exact (List.prefix_cons_inj _).2 (ih (hd _ hm) h')
  | @root c fs ex set d path steps hm hl ih =>
    intro b rest l' hs h
    have hn := inst_nodup hs
    have hpath : path ≠ [] := by
      rintro rfl
      cases hl with | nil => obtain ⟨_, _, _, _, e⟩ := ha; cases e
    generalize hpr : path ++ rest = pr at h
    cases h with
    | nil => exact absurd (List.append_eq_nil_iff.1 hpr).1 hpath
    | root hm' h' =>
      cases dict_unique hn hm hm'
      subst hpr
      cases hs with | inst _ hd _ _ => exact (List.prefix_cons_inj _).2 (ih (hd _ hm) h')
    | field h0 => exact absurd ⟨_, _, _, _, rfl, .inl hm⟩ (h0 d)
  | @field c fs ex set f k w path steps h0 hf hk hm hne _ ih =>
    intro b rest l' hs h
    have hn := inst_nodup hs
    cases h with
    | root hm' => exact absurd ⟨_, _, _, _, rfl, .inl hm'⟩ (h0 _)
    | field _ hf' hk' hm' _ h' =>
      have e := same_field hf hf' hk hk'
      rw [e] at hm ⊢
      cases dict_unique hn hm hm'
      cases hs with | inst _ hd _ _ => exact (List.prefix_cons_inj _).2 (ih (hd _ hm) h')

/-- What does not stand below the replaced object still has its place. -/
theorem at_keeps {x x' : V} (hx' : x' ≠ .none) {doc steps doc'} (h : Replaced x x' doc steps doc') :
    ∀ {l w}, TAt doc l w → (∃ w', TAt doc' l w') ∨ (steps <+: l ∧ steps ≠ l) := by
  induction h with
  | here =>
    intro l w h
    cases l with
    | nil => exact .inl ⟨_, .nil⟩
    | cons => exact .inr ⟨List.nil_prefix, by simp⟩
  | @item l l' y y' _ hy ih =>
    intro ss w hat
    cases hat with
    | nil => exact .inl ⟨_, .nil⟩
    | cons h1 h2 =>
      cases h1 with
      | @item _ i _ hi =>
        rcases Nat.lt_trichotomy i l.length with hl | hl | hl
        · rw [List.getElem?_append_left hl] at hi
          exact .inl ⟨w, .cons (.item (by rw [List.getElem?_append_left hl]; exact hi)) h2⟩
        · subst hl
          rw [List.getElem?_append_right (Nat.le_refl _)] at hi
          simp only [Nat.sub_self, List.getElem?_cons_zero, Option.some.injEq] at hi
          subst hi
          rcases ih h2 with ⟨w, ha⟩ | ⟨h3, h4⟩
          · exact .inl ⟨w, .cons (.item (by rw [List.getElem?_append_right (Nat.le_refl _)]; simp)) ha⟩
          · exact .inr ⟨(List.prefix_cons_inj _).2 h3, by simpa using h4⟩
        · obtain ⟨n, rfl⟩ := Nat.exists_eq_add_of_lt hl
          have e : l.length + n + 1 - l.length = n + 1 := by omega
          rw [List.getElem?_append_right (by omega), e, List.getElem?_cons_succ] at hi
          exact .inl ⟨w, .cons (.item (by rw [List.getElem?_append_right (by omega), e, List.getElem?_cons_succ]; exact hi)) h2⟩
  | @entry d d' k y y' _ hy ih =>
    intro ss w hat
    cases hat with
    | nil => exact .inl ⟨_, .nil⟩
    | cons h1 h2 =>
      cases h1 with
      | entry hm =>
        rcases List.mem_append.1 hm with hm | hm
        · exact .inl ⟨w, .cons (.entry (List.mem_append_left _ hm)) h2⟩
        · rcases List.mem_cons.1 hm with hm | hm
          · cases hm
            rcases ih h2 with ⟨w, ha⟩ | ⟨h3, h4⟩
            · exact .inl ⟨w, .cons (.entry (List.mem_append_right _ (List.mem_cons_self ..))) ha⟩
            · exact .inr ⟨(List.prefix_cons_inj _).2 h3, by simpa using h4⟩
          · exact .inl ⟨w, .cons (.entry (List.mem_append_right _ (List.mem_cons_of_mem _ hm))) h2⟩
  | @field c fs fs' ex set k y y' sub hy ih =>
    intro ss w hat
    cases hat with
    | nil => exact .inl ⟨_, .nil⟩
    | cons h1 h2 =>
      cases h1 with
      | field hf he hm hn =>
        rcases List.mem_append.1 hm with hm | hm
        · exact .inl ⟨w, .cons (.field hf he (List.mem_append_left _ hm) hn) h2⟩
        · rcases List.mem_cons.1 hm with hm | hm
          · cases hm
            rcases ih h2 with ⟨w, ha⟩ | ⟨h3, h4⟩
            · exact .inl ⟨w, .cons (.field hf he (List.mem_append_right _ (List.mem_cons_self ..)) (replaced_not_none hx' hy)) ha⟩
            · exact .inr ⟨(List.prefix_cons_inj _).2 h3, by simpa using h4⟩
          · exact .inl ⟨w, .cons (.field hf he (List.mem_append_right _ (List.mem_cons_of_mem _ hm)) hn) h2⟩

end Verif.Pyd
