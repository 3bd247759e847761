import Verif.Lemmas.Equal
import Verif.Props.Reorder
/-! Equal values are written as equal values. -/
namespace Verif.Pyd
open Verif Verif.Gen Verif.Spec Verif.Props

theorem mem_dumpDict {d : List (Str × V)} {k x} : (k, x) ∈ dumpDict d ↔ ∃ v, (k, v) ∈ d ∧ x = dump v := by
  induction d with
  | nil => simp [dumpDict]
  | cons a d ih =>
    obtain ⟨k', v'⟩ := a
    rw [dumpDict, List.mem_cons, ih]
    constructor
    · rintro (h | ⟨v, h, rfl⟩)
      · cases h; exact ⟨v', List.mem_cons_self, rfl⟩
      · exact ⟨v, List.mem_cons_of_mem _ h, rfl⟩
    · rintro ⟨v, h, rfl⟩
      rcases List.mem_cons.1 h with h | h
      · cases h; exact .inl rfl
      · exact .inr ⟨v, h, rfl⟩

/-- Equal values are written as equal values, if what is written has no key twice. -/
theorem equal_dump {v w : V} (h : Equal v w) : Keyed v → Keyed w → Keyed (dump v) → Keyed (dump w) → Equal (dump v) (dump w) := by
  -- entries of dicts that correspond to each other
  have flip : ∀ {d e : List (Str × V)}, (∀ k x, (k, x) ∈ d → ∃ y, (k, y) ∈ e ∧ Equal x y) →
      (∀ k y, (k, y) ∈ e → ∃ x, (k, x) ∈ d ∧ Equal x y) → (e.map (·.1)).Nodup → Equal (.dict d) (.dict e) := by
    intro d e h1 h2 hn
    refine .dict (fun k => ?_) fun k v w hv hw => ?_
    · rw [mem_key, mem_key]
      exact ⟨fun ⟨x, hx⟩ => let ⟨y, hy, _⟩ := h1 k x hx; ⟨y, hy⟩, fun ⟨x, hx⟩ => let ⟨y, hy, _⟩ := h2 k x hx; ⟨y, hy⟩⟩
    · obtain ⟨y, hy, heq⟩ := h1 k v hv
      rwa [nodup_unique hn hw hy]
  induction h with
  | none => intros; exact .none
  | @number v w n h h' =>
    intros
    have hd : ∀ v : V, ∀ n, number v = some n → dump v = v := by intro v n h; cases v <;> simp [number] at h <;> rfl
    rw [hd _ _ h, hd _ _ h']; exact .number h h'
  | float => intros; exact .float
  | str => intros; exact .str
  | url => intros; exact .str
  | proc => intros; exact .proc
  | @list l l' hl _ ih =>
    intro kv kw kd kd'
    cases kv with | list kv =>
    cases kw with | list kw =>
    simp only [dump, dumpList_map] at kd kd' ⊢
    cases kd with | list kd =>
    cases kd' with | list kd' =>
    refine .list (by simp [hl]) fun i v w hv hw => ?_
    rw [List.getElem?_map, Option.map_eq_some_iff] at hv hw
    obtain ⟨x, hx, rfl⟩ := hv
    obtain ⟨y, hy, rfl⟩ := hw
    exact ih i x y hx hy (kv _ (List.mem_of_getElem? hx)) (kw _ (List.mem_of_getElem? hy))
      (kd _ (List.mem_map.2 ⟨x, List.mem_of_getElem? hx, rfl⟩)) (kd' _ (List.mem_map.2 ⟨y, List.mem_of_getElem? hy, rfl⟩))
  | @dict d d' hk _ ih =>
    intro kv kw kd kd'
    cases kv with | dict _ kv =>
    cases kw with | dict _ kw =>
    rw [dump] at kd kd' ⊢
    cases kd with | dict _ kd =>
    cases kd' with | dict kn' kd' =>
    have pair : ∀ {k x y}, (k, x) ∈ d → (k, y) ∈ d' → Equal (dump x) (dump y) := fun {k x y} hx hy =>
      ih k x y hx hy (kv _ hx) (kw _ hy) (kd _ (mem_dumpDict.2 ⟨x, hx, rfl⟩)) (kd' _ (mem_dumpDict.2 ⟨y, hy, rfl⟩))
    refine flip (fun k x hx => ?_) (fun k y hy => ?_) kn'
    · obtain ⟨v, hv, rfl⟩ := mem_dumpDict.1 hx
      obtain ⟨w, hw⟩ := mem_key.1 ((hk k).1 (mem_key.2 ⟨v, hv⟩))
      exact ⟨dump w, mem_dumpDict.2 ⟨w, hw, rfl⟩, pair hv hw⟩
    · obtain ⟨w, hw, rfl⟩ := mem_dumpDict.1 hy
      obtain ⟨v, hv⟩ := mem_key.1 ((hk k).2 (mem_key.2 ⟨w, hw⟩))
      exact ⟨dump v, mem_dumpDict.2 ⟨v, hv, rfl⟩, pair hv hw⟩
  | @inst c fs fs' ex ex' set set' hk hfs hkx hex ih ihx =>
    intro kv kw kd kd'
    cases kv with | inst n1 k1 n2 k2 =>
    cases kw with | inst n1' k1' n2' k2' =>
    by_cases hp : (classDef c).kind = .patterned
    · -- a patterned object is written as its root
      simp only [dump, hp] at kd kd' ⊢
      have key : ∀ {fs : List (Str × V)}, (fs.map (·.1)).Nodup →
          ((∀ v, (p!"root", v) ∉ fs) ∧ lookup p!"root" (dumpDict fs) = none) ∨
          ∃ v, (p!"root", v) ∈ fs ∧ lookup p!"root" (dumpDict fs) = some (dump v) := by
        intro fs hn
        have hn' : ((dumpDict fs).map (·.1)).Nodup := by rw [dumpDict_map, List.map_map]; exact hn
        by_cases h : ∃ v, (p!"root", v) ∈ fs
        · obtain ⟨v, hv⟩ := h
          exact .inr ⟨v, hv, (lookup_iff hn').2 (mem_dumpDict.2 ⟨v, hv, rfl⟩)⟩
        · refine .inl ⟨fun v hv => h ⟨v, hv⟩, ?_⟩
          cases hl : lookup p!"root" (dumpDict fs) with
          | none => rfl
          | some x =>
            obtain ⟨v, hv, _⟩ := mem_dumpDict.1 ((lookup_iff hn').1 hl)
            exact absurd ⟨v, hv⟩ h
      rcases key n1 with ⟨h0, e0⟩ | ⟨v, hv, e0⟩ <;> rcases key n1' with ⟨h1, e1⟩ | ⟨w, hw, e1⟩ <;> simp only [e0, e1] at kd kd' ⊢
      · exact .none
      · obtain ⟨v, hv⟩ := mem_key.1 ((hk _).2 (mem_key.2 ⟨w, hw⟩)); exact absurd hv (h0 v)
      · obtain ⟨w, hw⟩ := mem_key.1 ((hk _).1 (mem_key.2 ⟨v, hv⟩)); exact absurd hw (h1 w)
      · exact ih _ v w hv hw (k1 _ hv) (k1' _ hw) kd kd'
    · have hd : ∀ (fs ex : List (Str × V)) (set : List Str), dump (.inst c fs ex set) = .dict (dumpFields c fs ++ dumpDict ex) := by
        intro fs ex set
        cases hc : (classDef c).kind <;> first | exact absurd hc hp | simp only [dump, hc]
      rw [hd, hd] at *
      cases kd with | dict _ kd =>
      cases kd' with | dict kn' kd' =>
      refine flip (fun k x hx => ?_) (fun k y hy => ?_) kn'
      · rcases List.mem_append.1 hx with hx' | hx'
        · obtain ⟨n, v, f, hv, hf, he, hn, rfl, rfl⟩ := mem_dumpFields.1 hx'
          obtain ⟨w, hw⟩ := mem_key.1 ((hk n).1 (mem_key.2 ⟨v, hv⟩))
          have heq := hfs n v w hv hw
          have hy := List.mem_append_left (dumpDict ex') (mem_dumpFields.2 ⟨n, w, f, hw, hf, he, by rwa [← equal_isNone heq], rfl, rfl⟩)
          exact ⟨_, hy, ih n v w hv hw (k1 _ hv) (k1' _ hw) (kd _ hx) (kd' _ hy)⟩
        · obtain ⟨v, hv, rfl⟩ := mem_dumpDict.1 hx'
          obtain ⟨w, hw⟩ := mem_key.1 ((hkx k).1 (mem_key.2 ⟨v, hv⟩))
          have hy := List.mem_append_right (dumpFields c fs') (mem_dumpDict.2 ⟨w, hw, rfl⟩)
          exact ⟨_, hy, ihx k v w hv hw (k2 _ hv) (k2' _ hw) (kd _ hx) (kd' _ hy)⟩
      · rcases List.mem_append.1 hy with hy' | hy'
        · obtain ⟨n, w, f, hw, hf, he, hn, rfl, rfl⟩ := mem_dumpFields.1 hy'
          obtain ⟨v, hv⟩ := mem_key.1 ((hk n).2 (mem_key.2 ⟨w, hw⟩))
          have heq := hfs n v w hv hw
          have hx := List.mem_append_left (dumpDict ex) (mem_dumpFields.2 ⟨n, v, f, hv, hf, he, by rwa [equal_isNone heq], rfl, rfl⟩)
          exact ⟨_, hx, ih n v w hv hw (k1 _ hv) (k1' _ hw) (kd _ hx) (kd' _ hy)⟩
        · obtain ⟨w, hw, rfl⟩ := mem_dumpDict.1 hy'
          obtain ⟨v, hv⟩ := mem_key.1 ((hkx k).2 (mem_key.2 ⟨w, hw⟩))
          have hx := List.mem_append_right (dumpFields c fs) (mem_dumpDict.2 ⟨v, hv, rfl⟩)
          exact ⟨_, hx, ihx k v w hv hw (k2 _ hv) (k2' _ hw) (kd _ hx) (kd' _ hy)⟩

end Verif.Pyd
