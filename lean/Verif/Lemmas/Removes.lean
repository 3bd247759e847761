import Verif.Spec.Removes
import Verif.Lemmas.Grows
import Verif.Lemmas.Complaint
/-! References in documents from which something was removed. -/
namespace Verif.Pyd
open Verif Verif.Gen Verif.Spec

variable {U : Uni} {limit : Option Nat}

/-- What has grown into a Reference was one. -/
theorem grows_ref_back {v w : V} (h : Grows v w) {s} (hr : TRef w s) : TRef v s := by
  obtain ⟨fs, ex, set, rfl, hm⟩ := hr
  cases h with
  | plain _ h => cases h
  | inst h0 => exact ⟨_, _, _, rfl, (h0 rfl s).2 hm⟩

/-- Chains of References in the smaller document end like in the larger one. -/
theorem chain_back {doc doc' : V} (h : Grows doc' doc) (hs : Sound U limit doc) (hs' : Sound U limit doc') {s r : Str}
    (hh : THops doc s r) (hf : StillThere doc doc' s) : THops doc' s r := by
  induction hh using Relation.ReflTransGen.head_induction_on with
  | refl => exact .refl
  | @head a b h1 h2 ih =>
    obtain ⟨v, hd, hr⟩ := h1
    obtain ⟨v', hd'⟩ := hf a .refl hd.1
    obtain ⟨w, hw, hg⟩ := grows_denotes h hd'
    cases tdenotes_unique hs hd hw
    have hr' := grows_ref_back hg hr
    exact .head ⟨v', hd', hr'⟩ (ih fun x hx => hf x (.head ⟨v, hd, hr⟩ hx))

/-- A reference that was right is right in the smaller document, if and only if nothing it leads to is missing. -/
theorem refOk_back {doc doc' : V} (h : Grows doc' doc) (hs : Sound U limit doc) (hs' : Sound U limit doc') {e} {s : Str}
    (hr : TRefOk doc e s) : TRefOk doc' e s ↔ StillThere doc doc' s := by
  constructor
  · intro hr' r hh hi
    obtain ⟨z, hz, hend⟩ : ∃ z, THops doc' s z ∧ (External z ∨ ∃ v, TDenotes doc' z v ∧ ∀ x, ¬ TRef v x) := by
      rcases hr' with ⟨z, h1, h2⟩ | ⟨z, c, fs, ex, set, cs, h1, h2, h3, -, -⟩
      · exact ⟨z, h1, .inl h2⟩
      · refine ⟨z, h1, .inr ⟨_, h2, ?_⟩⟩
        rintro x ⟨_, _, _, e, _⟩
        cases e
        exact h3 rfl
    clear hr hr'
    induction hz using Relation.ReflTransGen.head_induction_on with
    | refl =>
      rcases Relation.ReflTransGen.cases_head hh with rfl | ⟨x, ⟨v, hd, hx⟩, -⟩
      · rcases hend with he | ⟨v, hv, -⟩
        · exact absurd he hi
        · exact ⟨v, hv⟩
      · rcases hend with he | ⟨v', hv, hn⟩
        · exact absurd he hd.1
        · obtain ⟨w, hw, hg⟩ := grows_denotes h hv
          cases tdenotes_unique hs hd hw
          exact absurd (grows_ref_back hg hx) (hn x)
    | head h1 _ ih =>
      rcases Relation.ReflTransGen.cases_head hh with rfl | ⟨x, hx, hh'⟩
      · obtain ⟨v, hd, -⟩ := h1
        exact ⟨v, hd⟩
      · obtain ⟨v, hd, hr⟩ := h1
        obtain ⟨w, hw, hg⟩ := grows_denotes h hd
        cases thop_unique hs _ _ _ hx ⟨w, hw, grows_ref hg hr⟩
        exact ih hh'
  · intro hf
    rcases hr with ⟨z, h1, h2⟩ | ⟨z, c, fs, ex, set, cs, h1, h2, h3, h4, h5⟩
    · exact .inl ⟨z, chain_back h hs hs' h1 hf, h2⟩
    · obtain ⟨v', hd⟩ := hf z h1 h2.1
      obtain ⟨w, hw, hg⟩ := grows_denotes h hd
      cases tdenotes_unique hs h2 hw
      obtain ⟨fs', ex', set', rfl⟩ : ∃ fs' ex' set', v' = .inst c fs' ex' set' := by
        cases hg with
        | plain _ h => cases h
        | inst => exact ⟨_, _, _, rfl⟩
      exact .inr ⟨z, c, fs', ex', set', cs, chain_back h hs hs' h1 hf, hd, h3, h4, h5⟩

theorem deleted_unique {pre : Str} (hp : pre ≠ []) {s r r'} (h : Deleted pre s r) (h' : Deleted pre s r') : r = r' := by
  induction h generalizing r' with
  | nil =>
    generalize e : ([] : Str) = x at h'
    cases h' with
    | nil => rfl
    | hit => simp [hp] at e
    | miss => cases e
  | @hit s r _ ih =>
    generalize e : pre ++ s = x at h'
    cases h' with
    | nil => simp [hp] at e
    | hit h' => exact ih (by rw [List.append_cancel_left e]; exact h')
    | miss hn => exact absurd ⟨s, e⟩ hn
  | @miss c s r hn _ ih =>
    generalize e : c :: s = x at h'
    cases h' with
    | nil => cases e
    | hit h' => exact absurd ⟨_, e.symm⟩ hn
    | miss _ h' => cases e; rw [ih h']

theorem checked_back {doc doc' : V} {F pre s : Str} (hp : pre ≠ []) (hc : TChecked doc F pre s) :
    TChecked doc' F pre s ↔ KeyThere doc' F pre s := by
  constructor
  · rintro (h | ⟨rest, key, rfl, h2, h3⟩)
    · exact .inl h
    · refine .inr fun rest' key' e hd => ?_
      cases List.append_cancel_left e
      cases deleted_unique hp h2 hd
      exact h3
  · rintro (h | h)
    · exact .inl h
    · rcases hc with hc | ⟨rest, key, e, h2, -⟩
      · exact .inl hc
      · exact .inr ⟨rest, key, e, h2, h rest key e h2⟩

theorem replaced_symm {u u' doc doc' : V} {steps} (h : Replaced u u' doc steps doc') : Replaced u' u doc' steps doc := by
  induction h with
  | here => exact .here
  | item _ ih => exact .item ih
  | entry _ ih => exact .entry ih
  | field _ ih => exact .field ih

/-- A path in the document that does not lead through the part that was replaced leads somewhere in the new document. -/
theorem walk_replaced {u u' : V} (hu : Grows u' u) (hp : ¬ IsPlain u') (Hit : List Str → Prop)
    (hhit : ∀ segs v, TWalk u segs v → (∃ v', TWalk u' segs v') ∨ Hit segs) {doc steps doc'} (h : Replaced u u' doc steps doc') :
    ∀ segs v, TWalk doc segs v → (∃ v', TWalk doc' segs v') ∨ ∃ pre suf, segs = pre ++ suf ∧ Leads u doc pre steps ∧ Hit suf := by
  induction h with
  | here =>
    intro segs v hw
    rcases hhit segs v hw with h | h
    · exact .inl h
    · exact .inr ⟨[], segs, rfl, .nil, h⟩
  | item _ _ =>
    intro segs v hw
    cases hw with
    | nil => exact .inl ⟨_, .nil⟩
    | cons h _ =>
      cases h with
      | root h => obtain ⟨_, _, _, _, e, _⟩ := h; cases e
  | @entry d d' k x x' steps hx ih =>
    intro segs v hw
    cases hw with
    | nil => exact .inl ⟨_, .nil⟩
    | cons h hw =>
      cases h with
      | root h => obtain ⟨_, _, _, _, e, _⟩ := h; cases e
      | dict hm =>
        rcases List.mem_append.1 hm with hm | hm
        · exact .inl ⟨v, .cons (.dict (List.mem_append_left _ hm)) hw⟩
        · rcases List.mem_cons.1 hm with hm | hm
          · cases hm
            rcases ih _ v hw with ⟨v', h⟩ | ⟨pre, suf, rfl, h1, h2⟩
            · exact .inl ⟨v', .cons (.dict (List.mem_append_right _ (List.mem_cons_self ..))) h⟩
            · exact .inr ⟨k :: pre, suf, rfl, .entry (List.mem_append_right _ (List.mem_cons_self ..)) h1, h2⟩
          · exact .inl ⟨v, .cons (.dict (List.mem_append_right _ (List.mem_cons_of_mem _ hm))) hw⟩
  | @field c fs fs' ex set k x x' steps hx ih =>
    intro segs v hw
    have hg : Grows x' x := grows_replaced hu (replaced_symm hx) fun h => absurd h hp
    have hgi := grows_replaced hu (replaced_symm (Replaced.field (c := c) (fs := fs) (fs' := fs') (ex := ex) (set := set) (k := k) hx)) fun h => absurd h hp
    cases hw with
    | nil => exact .inl ⟨_, .nil⟩
    | @cons _ k0 _ ks _ h hw =>
      cases h with
      | @root _ d _ _ hr hm =>
        obtain ⟨_, _, _, _, e, hr⟩ := hr
        cases e
        rcases hr with hr | ⟨hn, hr⟩
        · rcases List.mem_append.1 hr with hr | hr
          · exact .inl ⟨v, .cons (.root ⟨_, _, _, _, rfl, .inl (List.mem_append_left _ hr)⟩ hm) hw⟩
          · rcases List.mem_cons.1 hr with hr | hr
            · cases hr
              obtain ⟨d', rfl, -⟩ := grows_of_dict hg
              rcases ih _ v (.cons (.dict hm) hw) with ⟨v', h⟩ | ⟨pre, suf, e, h1, h2⟩
              · cases h with
                | cons h hw' =>
                  cases h with
                  | root h => obtain ⟨_, _, _, _, e, _⟩ := h; cases e
                  | dict hm' =>
                    exact .inl ⟨v', .cons (.root ⟨_, _, _, _, rfl, .inl (List.mem_append_right _ (List.mem_cons_self ..))⟩ hm') hw'⟩
              · exact .inr ⟨pre, suf, e, .root (List.mem_append_right _ (List.mem_cons_self ..)) h1, h2⟩
            · exact .inl ⟨v, .cons (.root ⟨_, _, _, _, rfl, .inl (List.mem_append_right _ (List.mem_cons_of_mem _ hr))⟩ hm) hw⟩
        · refine .inl ⟨v, .cons (.root ⟨_, _, _, _, rfl, .inr ⟨fun w hw' => ?_, hr⟩⟩ hm) hw⟩
          rcases List.mem_append.1 hw' with h | h
          · exact hn w (List.mem_append_left _ h)
          · rcases List.mem_cons.1 h with h | h
            · cases h; exact hn x (List.mem_append_right _ (List.mem_cons_self ..))
            · exact hn w (List.mem_append_right _ (List.mem_cons_of_mem _ h))
      | @field _ _ _ _ f _ w h0 hf hk hm hne =>
        have h0' : ∀ d, ¬ TRoot (.inst c (fs ++ (k, x') :: fs') ex set) d := by
          intro d hd
          obtain ⟨d', hd', -⟩ := grows_root hgi hd
          exact h0 d' hd'
        rcases List.mem_append.1 hm with hm | hm
        · exact .inl ⟨v, .cons (.field h0' hf hk (List.mem_append_left _ hm) hne) hw⟩
        · rcases List.mem_cons.1 hm with hm | hm
          · obtain ⟨e1, e2⟩ := Prod.mk.inj hm
            subst e1 e2
            rcases ih _ v hw with ⟨v', h⟩ | ⟨pre, suf, rfl, h1, h2⟩
            · by_cases hz : x' = .none
              · subst hz
                exfalso
                cases hg with
                | plain h => cases h
                | none => exact hne rfl
              · exact .inl ⟨v', .cons (.field h0' hf hk (List.mem_append_right _ (List.mem_cons_self ..)) hz) h⟩
            · exact .inr ⟨k0 :: pre, suf, rfl, .field h0 hf hk (List.mem_append_right _ (List.mem_cons_self ..)) hne h1, h2⟩
          · exact .inl ⟨v, .cons (.field h0' hf hk (List.mem_append_right _ (List.mem_cons_of_mem _ hm)) hne) hw⟩

theorem leads_append {x y v : V} {p p' l l'} (h : Leads x v p l) (h' : Leads y x p' l') : Leads y v (p ++ p') (l ++ l') := by
  induction h with
  | nil => exact h'
  | entry hm _ ih => exact .entry hm ih
  | root hm _ ih => exact .root hm ih
  | field h0 hf hk hm hne _ ih => exact .field h0 hf hk hm hne ih

/-- What stands in the document, but not in the part that was replaced, stands in the new document. -/
theorem at_kept {u u' : V} (hu : Grows u' u) (hp : ¬ IsPlain u') (Hit : List LocStep → Prop)
    (hhit : ∀ ss w, TAt u ss w → (∀ i, LocStep.index i ∉ ss) → (∃ w', TAt u' ss w') ∨ Hit ss) {doc steps doc'}
    (h : Replaced u u' doc steps doc') : ∀ ss w, TAt doc ss w → (∀ i, LocStep.index i ∉ ss) →
      (∃ w', TAt doc' ss w') ∨ ∃ suf, ss = steps ++ suf ∧ Hit suf := by
  induction h with
  | here =>
    intro ss w hat hi
    rcases hhit ss w hat hi with h | h
    · exact .inl h
    · exact .inr ⟨ss, rfl, h⟩
  | item _ _ =>
    intro ss w hat hi
    cases hat with
    | nil => exact .inl ⟨_, .nil⟩
    | cons h1 _ => cases h1 with | item => exact absurd (List.mem_cons_self ..) (hi _)
  | @entry d d' k x x' steps hx ih =>
    intro ss w hat hi
    cases hat with
    | nil => exact .inl ⟨_, .nil⟩
    | cons h1 h2 =>
      cases h1 with
      | entry hm =>
        rcases List.mem_append.1 hm with hm | hm
        · exact .inl ⟨w, .cons (.entry (List.mem_append_left _ hm)) h2⟩
        · rcases List.mem_cons.1 hm with hm | hm
          · cases hm
            rcases ih _ w h2 fun i hm => hi i (List.mem_cons_of_mem _ hm) with ⟨w', h⟩ | ⟨suf, rfl, h⟩
            · exact .inl ⟨w', .cons (.entry (List.mem_append_right _ (List.mem_cons_self ..))) h⟩
            · exact .inr ⟨suf, rfl, h⟩
          · exact .inl ⟨w, .cons (.entry (List.mem_append_right _ (List.mem_cons_of_mem _ hm))) h2⟩
  | @field c fs fs' ex set k x x' steps hx ih =>
    intro ss w hat hi
    have hg : Grows x' x := grows_replaced hu (replaced_symm hx) fun h => absurd h hp
    cases hat with
    | nil => exact .inl ⟨_, .nil⟩
    | cons h1 h2 =>
      cases h1 with
      | field hf he hm hne =>
        rcases List.mem_append.1 hm with hm | hm
        · exact .inl ⟨w, .cons (.field hf he (List.mem_append_left _ hm) hne) h2⟩
        · rcases List.mem_cons.1 hm with hm | hm
          · obtain ⟨e1, e2⟩ := Prod.mk.inj hm
            subst e1 e2
            rcases ih _ w h2 fun i hm => hi i (List.mem_cons_of_mem _ hm) with ⟨w', h⟩ | ⟨suf, rfl, h⟩
            · have hz : x' ≠ .none := by
                rintro rfl
                cases hg with
                | plain h => cases h
                | none => exact hne rfl
              exact .inl ⟨w', .cons (.field hf he (List.mem_append_right _ (List.mem_cons_self ..)) hz) h⟩
            · exact .inr ⟨suf, rfl, h⟩
          · exact .inl ⟨w, .cons (.field hf he (List.mem_append_right _ (List.mem_cons_of_mem _ hm)) hne) h2⟩

end Verif.Pyd
