import Verif.Props.Validators
import Verif.Props.Mutate
/-! What an assignment leaves as it is. -/
namespace Verif.Props
open Verif Verif.Gen Verif.Spec Verif.Pyd Verif.Mutate Verif.Document

theorem after_same {E : Env} (hc : OnlyChecks E.call) {c : Cls} {i j : V} (h : after E c i = some j) : j = i := by
  by_cases he : c = .AsyncAPI3
  · subst he
    have h' : (if baseCheck E .AsyncAPI3 i && modelCheck .AsyncAPI3 i then (runProcessors E i).2 else none) = some j := h
    split at h'
    · unfold runProcessors at h'
      cases hr1 : callAll E (processorsOf (i.attr p!"extra_converters")) i with
      | mk l o =>
        rw [hr1] at h'
        cases o with
        | none => cases h'
        | some mid =>
          obtain ⟨e1, -⟩ := callAll_checks hc (doc' := mid) (show (callAll E _ i).2 = some mid by rw [hr1])
          subst e1
          exact (callAll_checks hc (doc' := j) h').1
    · cases h'
  · have hafter : after E c i = if baseCheck E c i && modelCheck c i then some i else none := by
      cases c <;> first | rfl | exact absurd rfl he
    rw [hafter] at h
    split at h
    · exact (Option.some.inj h).symm
    · cases h

theorem mem_dictSet {d : List (Str × V)} {k j : Str} {x v : V} (h : j ≠ k) : (j, v) ∈ dictSet d k x ↔ (j, v) ∈ d := by
  induction d with
  | nil => simp [dictSet, h]
  | cons e d ih =>
    simp only [dictSet]
    split
    · rename_i he
      obtain ⟨e1, e2⟩ := e
      simp only at he
      simp [List.mem_cons, h, he]
    · simp [List.mem_cons, ih]

/-- An assignment changes only the field, and keeps an extra field `root`. -/
theorem assign_keeps {E : Env} (hc : OnlyChecks E.call) {rb : Bool} {c : Cls} {i : V}
    (hi : Valid E.U E.digits i (.model c)) (hsep : Separate i) {name : Str} {x j : V} (hroot : name ≠ p!"root")
    (h : assign E rb i name x = .done j) : ∃ fs ex set fs' ex' set', i = .inst c fs ex set ∧ j = .inst c fs' ex' set' ∧
      (∀ k w, (k, w) ∈ fs → ∃ f ∈ (classDef c).fields, f.name = k) ∧
      (∀ k w, (k, w) ∈ fs' → ∃ f ∈ (classDef c).fields, f.name = k) ∧
      (∀ k w, (k, w) ∈ fs → lookup k fs = some w) ∧ (∀ k w, (k, w) ∈ fs' → lookup k fs' = some w) ∧
      (∀ k w, k ≠ name → ((k, w) ∈ fs ↔ (k, w) ∈ fs')) ∧ (∀ k, (∃ w, (k, w) ∈ fs) ↔ ∃ w, (k, w) ∈ fs') ∧
      (∀ w, (p!"root", w) ∈ ex' ↔ (p!"root", w) ∈ ex) := by
  obtain ⟨fs, ex, set, rfl⟩ : ∃ fs ex set, i = .inst c fs ex set := by
    cases hi with | model _ _ _ => exact ⟨_, _, _, rfl⟩
  rcases assign_cases E rb c fs ex set name x with hr | ⟨v, hv, hk, hr⟩
  · rw [hr] at h; cases h
  · rw [hr] at h
    unfold finish at h
    cases ha : after E c (rebuild c (dictSet (update fs ex) name v) (addSet set name)) with
    | none => rw [ha] at h; cases h
    | some j' =>
      rw [ha] at h
      cases h
      rw [after_same hc ha]
      cases hi with
      | model hfs hty hcon =>
        have hnd : (fs.map (·.1)).Nodup := hfs ▸ names_nodup c
        have hval : ∀ k w, (k, w) ∈ fs → lookup k fs = some w := by
          intro k w hw
          have := lookup_named (·.1) (·.2) hnd hw
          simpa using this
        have hnone : ∀ f ∈ (classDef c).fields, lookup f.name ex = none := by
          intro f hf
          rw [lookup_none]
          intro v hv
          exact hsep c fs ex set rfl _ hv f hf rfl
        -- the value of a field of the new instance
        have hnew : ∀ f ∈ (classDef c).fields, f.name ≠ name →
            lookup f.name (dictSet (update fs ex) name v) = lookup f.name fs := by
          intro f hf hn
          rw [lookup_dictSet, if_neg hn, lookup_update, hnone f hf]; rfl
        have hfield : ∀ k w, (k, w) ∈ fs → ∃ f ∈ (classDef c).fields, f.name = k := by
          intro k w hw
          have : k ∈ fs.map (·.1) := List.mem_map.2 ⟨_, hw, rfl⟩
          rw [hfs] at this
          obtain ⟨f, hf, e⟩ := List.mem_map.1 this
          exact ⟨f, hf, e⟩
        have hold : ∀ f ∈ (classDef c).fields, ∃ w, (f.name, w) ∈ fs := by
          intro f hf
          have : f.name ∈ fs.map (·.1) := hfs ▸ List.mem_map.2 ⟨f, hf, rfl⟩
          obtain ⟨⟨k, w⟩, hw, e⟩ := List.mem_map.1 this
          cases e
          exact ⟨w, hw⟩
        refine ⟨fs, ex, set, _, _, _, rfl, rfl, hfield, fun k w hw => ?_, hval, fun k w hw => ?_, fun k w hk => ⟨fun hw => ?_, fun hw => ?_⟩,
          fun k => ⟨fun ⟨w, hw⟩ => ?_, fun ⟨w, hw⟩ => ?_⟩, fun w => ⟨fun hw => ?_, fun hw => ?_⟩⟩
        · obtain ⟨f, hf, e⟩ := List.mem_map.1 hw
          exact ⟨f, hf, (Prod.mk.inj e).1⟩
        · have := lookup_named (·.1) (·.2) (by rw [List.map_map]; exact names_nodup c) hw
          rw [List.map_map] at this
          exact this
        · obtain ⟨f, hf, rfl⟩ := hfield k w hw
          exact List.mem_map.2 ⟨f, hf, by rw [hnew f hf hk, hval _ _ hw]; rfl⟩
        · obtain ⟨f, hf, e⟩ := List.mem_map.1 hw
          obtain ⟨rfl, rfl⟩ := Prod.mk.inj e
          obtain ⟨w, hw⟩ := hold f hf
          rw [hnew f hf hk, hval _ _ hw]
          exact hw
        · obtain ⟨f, hf, rfl⟩ := hfield k w hw
          exact ⟨_, List.mem_map.2 ⟨f, hf, rfl⟩⟩
        · obtain ⟨f, hf, e⟩ := List.mem_map.1 hw
          obtain ⟨rfl, rfl⟩ := Prod.mk.inj e
          exact hold f hf
        · obtain ⟨h1, h2⟩ := List.mem_filter.1 hw
          rw [mem_dictSet (Ne.symm hroot)] at h1
          unfold update at h1
          rcases List.mem_append.1 h1 with h1 | h1
          · obtain ⟨⟨k, w0⟩, hm, e⟩ := List.mem_map.1 h1
            obtain ⟨f, hf, hn⟩ := hfield _ _ hm
            simp only [Prod.mk.injEq] at e
            simp only [Option.isNone_iff_eq_none] at h2
            exact absurd (e.1.symm.trans hn.symm) (fieldOf_none h2 f hf)
          · exact (List.mem_filter.1 h1).1
        · have hnf : fieldOf c p!"root" = none := by
            cases hq : fieldOf c p!"root" with
            | none => rfl
            | some f =>
              obtain ⟨hf, hn⟩ := fieldOf_some hq
              exact absurd hn.symm (hsep c fs ex set rfl _ hw f hf)
          refine List.mem_filter.2 ⟨(mem_dictSet (Ne.symm hroot)).2 ?_, by simp [hnf]⟩
          unfold update
          refine List.mem_append_right _ (List.mem_filter.2 ⟨hw, ?_⟩)
          have : lookup p!"root" fs = none := by
            rw [lookup_none]
            intro v hv
            obtain ⟨f, hf, hn⟩ := hfield _ _ hv
            exact fieldOf_none hnf f hf hn.symm
          simp [this]

end Verif.Props
