import Verif.Lemmas.Bisim
import Verif.Props.Unified
/-! Navigation in an object graph and in the tree it holds agree. -/
namespace Verif
open Verif.Gen Verif.Spec Verif.Pyd Verif.Props

variable {n : Nat} {D : Doc Cls n} {U : Uni} {limit : Option Nat}

theorem mem_table {c : Cls} {f : FieldInfo} :
    f ∈ table.fields c ↔ ∃ g ∈ (classDef c).fields, f = ⟨g.name, g.alias, g.exclude⟩ := by
  simp only [table, List.mem_map]
  constructor
  · rintro ⟨g, hg, rfl⟩; exact ⟨g, hg, rfl⟩
  · rintro ⟨g, hg, rfl⟩; exact ⟨g, hg, rfl⟩

theorem table_sub {c : Cls} : table.sub c table.reference = true ↔ c = .Reference := by
  simp [table]

/-! ### Children -/

theorem child_down {a : Fin n} {w : V} (h : Rep D (.ptr a) w) {s x} (hc : Child table D a s x) :
    ∃ u, TChild w s u ∧ Rep D x u := by
  cases hc with
  | @item xs i v ha hi =>
    obtain ⟨l, rfl, hlen, hx⟩ := rep_of_list h ha
    have hlt := (List.getElem?_eq_some_iff.1 hi).1
    obtain ⟨u, hu⟩ : ∃ u, l[i]? = some u := ⟨_, List.getElem?_eq_getElem (by omega)⟩
    exact ⟨u, .item hu, hx i _ u hi hu⟩
  | entry ha hk =>
    obtain ⟨d, rfl, hp⟩ := rep_of_dict h ha
    obtain ⟨u, hu, hr⟩ := hp.down hk
    exact ⟨u, .entry hu, hr⟩
  | @field c gs hs f v ha hf he hk hne =>
    obtain ⟨fs, ex, set, rfl, hp, -⟩ := rep_of_model h ha
    obtain ⟨g, hg, rfl⟩ := mem_table.1 hf
    obtain ⟨u, hu, hr⟩ := hp.down hk
    refine ⟨u, .field hg he hu ?_, hr⟩
    rintro rfl
    exact hne (rep_none.1 hr)

theorem child_up {a : Fin n} {w : V} (h : Rep D (.ptr a) w) {s u} (hc : TChild w s u) :
    ∃ x, Child table D a s x ∧ Rep D x u := by
  cases hc with
  | @item l i v hi =>
    obtain ⟨a', xs, ha', ha, hlen, hx⟩ := rep_list h
    cases ha'
    have hlt := (List.getElem?_eq_some_iff.1 hi).1
    obtain ⟨x, hx'⟩ : ∃ x, xs[i]? = some x := ⟨_, List.getElem?_eq_getElem (by omega)⟩
    exact ⟨x, .item ha hx', hx i x _ hx' hi⟩
  | entry hk =>
    obtain ⟨a', kvs, ha', ha, hp⟩ := rep_dict h
    cases ha'
    obtain ⟨x, hx, hr⟩ := hp.up hk
    exact ⟨x, .entry ha hx, hr⟩
  | @field c fs ex set f v hf he hk hne =>
    obtain ⟨a', gs, hs, ha', ha, hp, -⟩ := rep_inst h
    cases ha'
    obtain ⟨x, hx, hr⟩ := hp.up hk
    refine ⟨x, .field ha (mem_table.2 ⟨f, hf, rfl⟩) he hx ?_, hr⟩
    rintro rfl
    exact hne (rep_of_none hr)

/-! ### Steps of reference paths -/

theorem root_down {a : Fin n} {w : V} (h : Rep D (.ptr a) w) {kvs} (hc : RootDict D a kvs) :
    ∃ d, TRoot w d ∧ Pairs D kvs d := by
  obtain ⟨c, gs, hs, b, ha, hb, hx⟩ := hc
  obtain ⟨fs, ex, set, rfl, hp, hq⟩ := rep_of_model h ha
  rcases hx with hx | ⟨hno, hx⟩
  · obtain ⟨u, hu, hr⟩ := hp.down hx
    obtain ⟨d, rfl, hd⟩ := rep_of_dict hr hb
    exact ⟨d, ⟨c, fs, ex, set, rfl, .inl hu⟩, hd⟩
  · obtain ⟨u, hu, hr⟩ := hq.down hx
    obtain ⟨d, rfl, hd⟩ := rep_of_dict hr hb
    refine ⟨d, ⟨c, fs, ex, set, rfl, .inr ⟨fun v hv => ?_, hu⟩⟩, hd⟩
    obtain ⟨x, hx, -⟩ := hp.up hv
    exact hno x hx

theorem root_up {a : Fin n} {w : V} (h : Rep D (.ptr a) w) {d} (hc : TRoot w d) :
    ∃ kvs, RootDict D a kvs ∧ Pairs D kvs d := by
  obtain ⟨c, fs, ex, set, rfl, hx⟩ := hc
  obtain ⟨a', gs, hs, ha', ha, hp, hq⟩ := rep_inst h
  cases ha'
  rcases hx with hx | ⟨hno, hx⟩
  · obtain ⟨x, hx', hr⟩ := hp.up hx
    obtain ⟨b, kvs, rfl, hb, hd⟩ := rep_dict hr
    exact ⟨kvs, ⟨c, gs, hs, b, ha, hb, .inl hx'⟩, hd⟩
  · obtain ⟨x, hx', hr⟩ := hq.up hx
    obtain ⟨b, kvs, rfl, hb, hd⟩ := rep_dict hr
    refine ⟨kvs, ⟨c, gs, hs, b, ha, hb, .inr ⟨fun v hv => ?_, hx'⟩⟩, hd⟩
    obtain ⟨x, hx, -⟩ := hp.down hv
    exact hno x hx

theorem step_down {a : Fin n} {w : V} (h : Rep D (.ptr a) w) {k x} (hc : Step table D a k x) :
    ∃ u, TStep w k u ∧ Rep D x u := by
  cases hc with
  | root hr hk =>
    obtain ⟨d, hd, hp⟩ := root_down h hr
    obtain ⟨u, hu, hr⟩ := hp.down hk
    exact ⟨u, .root hd hu, hr⟩
  | dict ha hk =>
    obtain ⟨d, rfl, hp⟩ := rep_of_dict h ha
    obtain ⟨u, hu, hr⟩ := hp.down hk
    exact ⟨u, .dict hu, hr⟩
  | @field c gs hs f v ha hno hf hn hk hne =>
    have hno' : ∀ d, ¬ TRoot w d := fun d hd => by
      obtain ⟨kvs, hk, -⟩ := root_up h hd
      exact hno kvs hk
    obtain ⟨fs, ex, set, rfl, hp, -⟩ := rep_of_model h ha
    obtain ⟨g, hg, rfl⟩ := mem_table.1 hf
    obtain ⟨u, hu, hr⟩ := hp.down hk
    refine ⟨u, .field hno' hg hn hu ?_, hr⟩
    rintro rfl
    exact hne (rep_none.1 hr)

theorem step_up {a : Fin n} {w : V} (h : Rep D (.ptr a) w) {k u} (hc : TStep w k u) :
    ∃ x, Step table D a k x ∧ Rep D x u := by
  cases hc with
  | root hr hk =>
    obtain ⟨kvs, hd, hp⟩ := root_up h hr
    obtain ⟨x, hx, hr⟩ := hp.up hk
    exact ⟨x, .root hd hx, hr⟩
  | dict hk =>
    obtain ⟨a', kvs, ha', ha, hp⟩ := rep_dict h
    cases ha'
    obtain ⟨x, hx, hr⟩ := hp.up hk
    exact ⟨x, .dict ha hx, hr⟩
  | @field c fs ex set f k w hno hf hn hk hne =>
    have hno' : ∀ kvs, ¬ RootDict D a kvs := fun kvs hd => by
      obtain ⟨d, hk, -⟩ := root_down h hd
      exact hno d hk
    obtain ⟨a', gs, hs, ha', ha, hp, -⟩ := rep_inst h
    cases ha'
    obtain ⟨x, hx, hr⟩ := hp.up hk
    refine ⟨x, .field ha hno' (mem_table.2 ⟨f, hf, rfl⟩) hn hx ?_, hr⟩
    rintro rfl
    exact hne (rep_of_none hr)

theorem walk_down {x y : Val n} {ks} (hc : Walk table D x ks y) : ∀ {w : V}, Rep D x w → ∃ u, TWalk w ks u ∧ Rep D y u := by
  induction hc with
  | nil => exact fun h => ⟨_, .nil, h⟩
  | cons hs _ ih =>
    intro w h
    obtain ⟨u, hu, hr⟩ := step_down h hs
    obtain ⟨v, hv, hr⟩ := ih hr
    exact ⟨v, .cons hu hv, hr⟩

/-- Values a step can be made from are objects. -/
theorem step_ptr {x : Val n} {w : V} (h : Rep D x w) {k u} (hc : TStep w k u) : ∃ a, x = .ptr a := by
  cases hc with
  | root hr _ => obtain ⟨c, fs, ex, set, rfl, -⟩ := hr; obtain ⟨a, _, _, rfl, -⟩ := rep_inst h; exact ⟨a, rfl⟩
  | dict _ => obtain ⟨a, _, rfl, -⟩ := rep_dict h; exact ⟨a, rfl⟩
  | field => obtain ⟨a, _, _, rfl, -⟩ := rep_inst h; exact ⟨a, rfl⟩

theorem walk_up {w u : V} {ks} (hc : TWalk w ks u) : ∀ {x : Val n}, Rep D x w → ∃ y, Walk table D x ks y ∧ Rep D y u := by
  induction hc with
  | nil => exact fun h => ⟨_, .nil, h⟩
  | cons hs _ ih =>
    intro x h
    obtain ⟨a, rfl⟩ := step_ptr h hs
    obtain ⟨y, hy, hr⟩ := step_up h hs
    obtain ⟨z, hz, hr⟩ := ih hr
    exact ⟨z, .cons hy hz, hr⟩

/-! ### References -/

theorem reference_iff {x : Val n} {w : V} (h : Rep D x w) {s : Str} : IsReference table D x s ↔ TRef w s := by
  constructor
  · rintro ⟨a, c, gs, hs, rfl, ha, hc, hm⟩
    rw [table_sub] at hc
    subst hc
    obtain ⟨fs, ex, set, rfl, hp, -⟩ := rep_of_model h ha
    obtain ⟨u, hu, hr⟩ := hp.down hm
    rw [rep_of_str hr] at hu
    exact ⟨fs, ex, set, rfl, hu⟩
  · rintro ⟨fs, ex, set, rfl, hm⟩
    obtain ⟨a, gs, hs, rfl, ha, hp, -⟩ := rep_inst h
    obtain ⟨x, hx, hr⟩ := hp.up hm
    rw [rep_str hr] at hx
    exact ⟨a, _, gs, hs, rfl, ha, table_sub.2 rfl, hx⟩

variable {doc : V}

theorem denotes_down (h : Depicts D doc) {ref x} (hd : Denotes table D ref x) : ∃ u, TDenotes doc ref u ∧ Rep D x u := by
  obtain ⟨hx, segs, hs, hw⟩ := hd
  obtain ⟨u, hu, hr⟩ := walk_down hw h.1
  exact ⟨u, ⟨hx, segs, hs, hu⟩, hr⟩

theorem denotes_up (h : Depicts D doc) {ref u} (hd : TDenotes doc ref u) : ∃ x, Denotes table D ref x ∧ Rep D x u := by
  obtain ⟨hx, segs, hs, hw⟩ := hd
  obtain ⟨x, hx', hr⟩ := walk_up hw h.1
  exact ⟨x, ⟨hx, segs, hs, hx'⟩, hr⟩

theorem hop_iff (h : Depicts D doc) {r r' : Str} : Hop table D r r' ↔ THop doc r r' := by
  constructor
  · rintro ⟨x, hd, hr⟩
    obtain ⟨u, hu, hx⟩ := denotes_down h hd
    exact ⟨u, hu, (reference_iff hx).1 hr⟩
  · rintro ⟨u, hd, hr⟩
    obtain ⟨x, hx, hu⟩ := denotes_up h hd
    exact ⟨x, hx, (reference_iff hu).2 hr⟩

theorem hop_eq (h : Depicts D doc) : Hop table D = THop doc := by
  funext r r'; exact propext (hop_iff h)

theorem refOk_iff (h : Depicts D doc) (hs : Sound U limit doc) {expected : Option (List Cls)} {s : Str} :
    RefOk table D expected s ↔ TRefOk doc expected s := by
  have W := represents_wf h hs
  unfold RefOk TRefOk Hops THops
  rw [hop_eq h]
  refine or_congr Iff.rfl ⟨?_, ?_⟩
  · rintro ⟨r, x, cs, hr, ⟨hd, hn⟩, he, c, hty, d, hd', hcd⟩
    obtain ⟨u, hu, hx⟩ := denotes_down h hd
    cases x with
    | ptr a =>
      cases ha : D.node a with
      | model c' gs hs' =>
        simp only [Doc.typeOf, ha, PyType.cls.injEq] at hty
        subst hty
        obtain ⟨fs, ex, set, rfl, -, -⟩ := rep_of_model hx ha
        have hcd : c' = d := by simpa [table] using hcd
        subst hcd
        refine ⟨r, c', fs, ex, set, cs, hr, hu, ?_, he, hd'⟩
        rintro rfl
        obtain ⟨s', hs'⟩ := W.refField a _ _ _ ha (table_sub.2 rfl)
        exact hn s' ⟨a, _, _, _, rfl, ha, table_sub.2 rfl, hs'⟩
      | list l => simp [Doc.typeOf, ha] at hty
      | dict l => simp [Doc.typeOf, ha] at hty
    | _ => simp [Doc.typeOf] at hty
  · rintro ⟨r, c, fs, ex, set, cs, hr, hd, hne, he, hc⟩
    obtain ⟨x, hx, hu⟩ := denotes_up h hd
    refine ⟨r, x, cs, hr, ⟨hx, fun s' hs' => ?_⟩, he, c, ?_, c, hc, .inl rfl⟩
    · obtain ⟨fs', ex', set', e, -⟩ := (reference_iff hu).1 hs'
      cases e
      exact hne rfl
    · obtain ⟨a, gs, hs', rfl, ha, -, -⟩ := rep_inst hu
      simp [Doc.typeOf, ha]

/-! ### Locations -/

theorem tchild_lt {w u : V} {s} (h : TChild w s u) : sizeOf u < sizeOf w := by
  cases h with
  | item hi =>
    have := List.sizeOf_lt_of_mem (List.mem_of_getElem? hi)
    simp only [V.list.sizeOf_spec]; omega
  | entry hk =>
    have := List.sizeOf_lt_of_mem hk
    simp only [Prod.mk.sizeOf_spec] at this
    simp only [V.dict.sizeOf_spec]; omega
  | field _ _ hk _ =>
    have := List.sizeOf_lt_of_mem hk
    simp only [Prod.mk.sizeOf_spec] at this
    simp only [V.inst.sizeOf_spec]; omega

theorem descends_smaller {a b : Fin n} {steps} (h : Descends table D a steps b) :
    ∀ {w : V}, Rep D (.ptr a) w → ∃ u, TAt w steps u ∧ Rep D (.ptr b) u ∧ (steps ≠ [] → sizeOf u < sizeOf w) := by
  induction h with
  | nil => exact fun h => ⟨_, .nil, h, fun e => absurd rfl e⟩
  | @cons a s c ss b _ hc _ ih =>
    intro w h
    obtain ⟨u, hu, hr⟩ := child_down h hc
    obtain ⟨v, hv, hr, hlt⟩ := ih hr
    refine ⟨v, .cons hu hv, hr, fun _ => ?_⟩
    have h1 := tchild_lt hu
    by_cases hss : ss = []
    · subst hss; cases hv; exact h1
    · exact Nat.lt_trans (hlt hss) h1

/-- No object of the graph of a document contains itself. -/
theorem represents_acyclic (h : Depicts D doc) : ∀ a st ss, ¬ Descends table D a (st :: ss) a := by
  intro a st ss hd
  have : ∀ m (w : V), sizeOf w ≤ m → ¬ Rep D (.ptr a) w := by
    intro m
    induction m with
    | zero =>
      intro w hm hr
      obtain ⟨u, -, -, hlt⟩ := descends_smaller hd hr
      have := hlt (by simp)
      omega
    | succ m ih =>
      intro w hm hr
      obtain ⟨u, -, hr', hlt⟩ := descends_smaller hd hr
      have := hlt (by simp)
      exact ih u (by omega) hr'
  obtain ⟨w, -, hr⟩ := h.2 a
  exact this _ w (Nat.le_refl _) hr

/-- Below a Reference there is only its string. -/
theorem reference_leaf {w u v : V} {st ss} (hs : Sound U limit w) (hw : ∃ fs ex set, w = .inst .Reference fs ex set)
    (hc : TChild w st u) (ha : TAt u ss v) : ∃ s, v = .str s := by
  obtain ⟨fs, ex, set, rfl⟩ := hw
  cases hc with
  | @field _ _ _ _ f _ hf he hk hne =>
    have hv := valid_field (sound_inst hs) hf hk
    have : f = defReference.fields[0] := by
      have : f ∈ [defReference.fields[0]] := hf
      simpa using this
    subst this
    change Valid U limit u .str at hv
    cases hv
    cases ha with
    | nil => exact ⟨_, rfl⟩
    | cons h _ => cases h

/-- A list, dict or instance. -/
def IsObject : V → Prop
  | .list _ | .dict _ | .inst _ _ _ _ => True
  | _ => False

theorem object_ptr {x : Val n} {w : V} (h : Rep D x w) (ho : IsObject w) : ∃ a, x = .ptr a := by
  cases h <;> first | exact ⟨_, rfl⟩ | cases ho

theorem parent_object {w u : V} {s} (h : TChild w s u) : IsObject w := by
  cases h <;> trivial

theorem tchild_within {w u : V} {s} (h : TChild w s u) : Within u w := by
  cases h with
  | item hi => exact .item (List.mem_of_getElem? hi) .refl
  | entry hk => exact .entry hk .refl
  | field _ _ hk _ => exact .field hk .refl

theorem descends_up {w v : V} {steps} (hat : TAt w steps v) : ∀ {a : Fin n}, Rep D (.ptr a) w → Sound U limit w →
    IsObject v → ∃ b, Descends table D a steps b ∧ Rep D (.ptr b) v := by
  induction hat with
  | nil => exact fun h _ _ => ⟨_, .nil, h⟩
  | @cons w s u ss v hc ha ih =>
    intro a h hs hr
    obtain ⟨x, hx, hu⟩ := child_up h hc
    have hptr : ∃ c, x = .ptr c := by
      cases ha with
      | nil => exact object_ptr hu hr
      | cons hc' _ => exact object_ptr hu (parent_object hc')
    obtain ⟨c, rfl⟩ := hptr
    obtain ⟨b, hb, hrb⟩ := ih hu (sound_within hs (tchild_within hc)) hr
    refine ⟨b, .cons (fun r' hr' => ?_) hx hb, hrb⟩
    obtain ⟨fs, ex, set, e, -⟩ := (reference_iff h).1 hr'
    obtain ⟨s, rfl⟩ := reference_leaf hs ⟨fs, ex, set, e⟩ hc ha
    exact hr

theorem descends_iff (h : Depicts D doc) (hs : Sound U limit doc) {steps s} :
    (∃ b, Descends table D D.spec steps b ∧ IsReference table D (.ptr b) s) ↔ ∃ w, TAt doc steps w ∧ TRef w s := by
  constructor
  · rintro ⟨b, hd, hb⟩
    obtain ⟨u, hu, hr, -⟩ := descends_smaller hd h.1
    exact ⟨u, hu, (reference_iff hr).1 hb⟩
  · rintro ⟨w, hat, hr⟩
    have ho : IsObject w := by obtain ⟨_, _, _, rfl, -⟩ := hr; trivial
    obtain ⟨b, hb, hrb⟩ := descends_up hat h.1 hs ho
    exact ⟨b, hb, (reference_iff hrb).2 hr⟩

/-- The locations at which the validator finds References are those of the tree. -/
theorem occurs_iff (h : Depicts D doc) (hs : Sound U limit doc) {steps s} :
    Occurs table D steps s ↔ ∃ w, TAt doc steps w ∧ TRef w s := by
  rw [C10_shared_checked_everywhere (represents_acyclic h), descends_iff h hs]

theorem tat_append {v u w : V} {l m} (h : TAt v l u) (h' : TAt u m w) : TAt v (l ++ m) w := by
  induction h with
  | nil => exact h'
  | cons h1 _ ih => exact .cons h1 (ih h')

theorem tat_split {v w : V} {l m} (h : TAt v (l ++ m) w) : ∃ u, TAt v l u ∧ TAt u m w := by
  induction l generalizing v with
  | nil => exact ⟨v, .nil, h⟩
  | cons s l ih =>
    cases h with
    | cons h1 h2 => obtain ⟨u, hu, hw⟩ := ih h2; exact ⟨u, .cons h1 hu, hw⟩

theorem componentKey_iff (h : Depicts D doc) (hs : Sound U limit doc) {F key : Str} :
    ComponentKey D F key ↔ TComponentKey doc F key := by
  constructor
  · rintro ⟨x, b, hd, hc⟩
    obtain ⟨u, hu, hr, -⟩ := descends_smaller hd h.1
    obtain ⟨w, hw, -⟩ := child_down hr hc
    exact ⟨w, tat_append hu (.cons hw .nil)⟩
  · rintro ⟨w, hat⟩
    obtain ⟨u, hu, hw⟩ := tat_split (l := [.field p!"components", .field F, .field p!"root"]) hat
    cases hw with
    | cons hc hn =>
      cases hn
      obtain ⟨b, hb, hrb⟩ := descends_up hu h.1 hs (parent_object hc)
      obtain ⟨x, hx, -⟩ := child_up hrb hc
      exact ⟨x, b, hb, hx⟩

end Verif
