import Verif.Spec.Grows
import Verif.Lemmas.Valid
import Verif.Lemmas.Place
/-! References in documents that grow. -/
namespace Verif.Pyd
open Verif Verif.Gen Verif.Spec

/-- Growth of lists, dicts and instances without naming what corresponds to what. -/
theorem _root_.Verif.Spec.Grows.ofItems {l l' : List V} (h : ∀ v ∈ l, ∃ v' ∈ l', Grows v v') : Grows (.list l) (.list l') := by
  classical
  have h' : ∀ (i : Nat) v, l[i]? = some v → ∃ (j : Nat) (v' : V), l'[j]? = some v' ∧ Grows v v' := by
    intro i v hv
    obtain ⟨v', h1, h2⟩ := h v (List.mem_of_getElem? hv)
    obtain ⟨j, hj⟩ := List.getElem?_of_mem h1
    exact ⟨j, v', hj, h2⟩
  have h'' : ∀ i : Nat, ∃ j : Nat, ∀ v, l[i]? = some v → ∃ v', l'[j]? = some v' ∧ Grows v v' := by
    intro i
    cases hi : l[i]? with
    | none => exact ⟨0, by simp⟩
    | some v =>
      obtain ⟨j, hj⟩ := h' i v hi
      exact ⟨j, fun w hw => by cases hw; exact hj⟩
  refine .list (f := fun i => (h'' i).choose) (g := fun i => (l'[(h'' i).choose]?).getD .none) (fun i v hv => ?_) fun i v hv => ?_ <;>
    obtain ⟨v', h1, h2⟩ := (h'' i).choose_spec v hv <;> simp [h1, h2]

theorem _root_.Verif.Spec.Grows.ofList {l l' : List V} (h : ∀ (i : Nat) v, l[i]? = some v → ∃ v', l'[i]? = some v' ∧ Grows v v') :
    Grows (.list l) (.list l') := by
  refine .ofItems fun v hv => ?_
  obtain ⟨i, hi⟩ := List.getElem?_of_mem hv
  obtain ⟨v', h1, h2⟩ := h i v hi
  exact ⟨v', List.mem_of_getElem? h1, h2⟩

theorem _root_.Verif.Spec.Grows.ofDict {d d' : List (Str × V)} (h : ∀ k v, (k, v) ∈ d → ∃ v', (k, v') ∈ d' ∧ Grows v v') :
    Grows (.dict d) (.dict d') := by
  classical
  refine .dict (g := fun k v => if h' : (k, v) ∈ d then (h k v h').choose else v) (fun k v hv => ?_) fun k v hv => ?_ <;>
    simp only [hv, dif_pos]
  · exact (h k v hv).choose_spec.1
  · exact (h k v hv).choose_spec.2

theorem _root_.Verif.Spec.Grows.ofInst {c fs fs' ex ex' set set'}
    (h0 : c = .Reference → ∀ s, (p!"ref", .str s) ∈ fs ↔ (p!"ref", .str s) ∈ fs')
    (h1 : ∀ k v, (k, v) ∈ fs → ∃ v', (k, v') ∈ fs' ∧ ((v = .none ∧ k ≠ p!"root") ∨ Grows v v'))
    (h2 : ∀ k v', (k, v') ∈ fs' → ∃ v, (k, v) ∈ fs ∧ ((v = .none ∧ k ≠ p!"root") ∨ Grows v v'))
    (h3 : ∀ v, (p!"root", v) ∈ ex → ∃ v', (p!"root", v') ∈ ex' ∧ Grows v v')
    (h4 : ∀ v', (p!"root", v') ∈ ex' → ∃ v, (p!"root", v) ∈ ex ∧ Grows v v') :
    Grows (.inst c fs ex set) (.inst c fs' ex' set') := by
  classical
  have key : ∀ {v w : V} {k : Str}, (v = .none ∧ k ≠ p!"root") ∨ Grows v w → v ≠ .none ∨ k = p!"root" → Grows v w := by
    rintro v w k (⟨h1, h2⟩ | h) h'
    · rcases h' with h' | h'
      · exact absurd h1 h'
      · exact absurd h' h2
    · exact h
  refine .inst (g := fun k v => if h' : (k, v) ∈ fs then (h1 k v h').choose else v)
    (h := fun k v => if h' : (k, v) ∈ fs' then (h2 k v h').choose else v)
    (r := fun v => if h' : (p!"root", v) ∈ ex then (h3 v h').choose else v)
    (r' := fun v => if h' : (p!"root", v) ∈ ex' then (h4 v h').choose else v) h0 ?_ ?_ ?_ ?_ ?_ ?_ ?_ ?_
  · intro k v hv; simp only [hv, dif_pos]; exact (h1 k v hv).choose_spec.1
  · intro k v hv; simp only [hv, dif_pos]; exact key (h1 k v hv).choose_spec.2
  · intro k v hv; simp only [hv, dif_pos]; exact (h2 k v hv).choose_spec.1
  · intro k v hv; simp only [hv, dif_pos]; exact key (h2 k v hv).choose_spec.2
  · intro v hv; simp only [hv, dif_pos]; exact (h3 v hv).choose_spec.1
  · intro v hv; simp only [hv, dif_pos]; exact (h3 v hv).choose_spec.2
  · intro v hv; simp only [hv, dif_pos]; exact (h4 v hv).choose_spec.1
  · intro v hv; simp only [hv, dif_pos]; exact (h4 v hv).choose_spec.2

theorem grows_fields {c fs ex set} {w : V} (h : Grows (.inst c fs ex set) w) : ∃ fs' ex' set', w = .inst c fs' ex' set' ∧
    (∀ k v, (k, v) ∈ fs → ∃ v', (k, v') ∈ fs' ∧ ((v = .none ∧ k ≠ p!"root") ∨ Grows v v')) ∧
    (∀ k v', (k, v') ∈ fs' → ∃ v, (k, v) ∈ fs ∧ ((v = .none ∧ k ≠ p!"root") ∨ Grows v v')) ∧
    (∀ v, (p!"root", v) ∈ ex → ∃ v', (p!"root", v') ∈ ex' ∧ Grows v v') ∧
    (∀ v', (p!"root", v') ∈ ex' → ∃ v, (p!"root", v) ∈ ex ∧ Grows v v') := by
  cases h with
  | plain h _ => cases h
  | @inst c fs fs' ex ex' set set' g h r r' a0 a1 a2 b1 b2 c1 c2 d1 d2 =>
  have key : ∀ {v w : V} {k : Str}, (v ≠ .none ∨ k = p!"root" → Grows v w) → (v = .none ∧ k ≠ p!"root") ∨ Grows v w := by
    intro v w k h
    by_cases hv : v = .none
    · by_cases hk : k = p!"root"
      · exact .inr (h (.inr hk))
      · exact .inl ⟨hv, hk⟩
    · exact .inr (h (.inl hv))
  exact ⟨_, _, _, rfl, fun k v hv => ⟨_, a1 k v hv, key (a2 k v hv)⟩, fun k v hv => ⟨_, b1 k v hv, key (b2 k v hv)⟩,
    fun v hv => ⟨_, c1 v hv, c2 v hv⟩, fun v hv => ⟨_, d1 v hv, d2 v hv⟩⟩

theorem grows_dict {d : List (Str × V)} {w : V} (h : Grows (.dict d) w) :
    ∃ d', w = .dict d' ∧ ∀ k v, (k, v) ∈ d → ∃ v', (k, v') ∈ d' ∧ Grows v v' := by
  cases h with
  | plain h _ => cases h
  | dict h1 h2 => exact ⟨_, rfl, fun k v hv => ⟨_, h1 k v hv, h2 k v hv⟩⟩

theorem grows_of_dict {v : V} {d' : List (Str × V)} (h : Grows v (.dict d')) :
    ∃ d, v = .dict d ∧ ∀ k v, (k, v) ∈ d → ∃ v', (k, v') ∈ d' ∧ Grows v v' := by
  cases h with
  | plain _ h => cases h
  | dict h1 h2 => exact ⟨_, rfl, fun k v hv => ⟨_, h1 k v hv, h2 k v hv⟩⟩

theorem grows_not_none {v w : V} (h : Grows v w) (hv : v ≠ .none) : w ≠ .none := by
  cases h with
  | plain _ h => cases h <;> simp
  | none => exact hv
  | _ => simp

theorem grows_root {v w : V} (h : Grows v w) {d} (hr : TRoot v d) :
    ∃ d', TRoot w d' ∧ ∀ k x, (k, x) ∈ d → ∃ x', (k, x') ∈ d' ∧ Grows x x' := by
  obtain ⟨c, fs, ex, set, rfl, hr⟩ := hr
  obtain ⟨_, _, _, h0, h1, h2, h3, h4⟩ := grows_fields h
  subst h0
  rcases hr with hr | ⟨hn, hr⟩
  · obtain ⟨v', hm, ⟨e, -⟩ | hg⟩ := h1 _ _ hr
    · cases e
    · obtain ⟨d', rfl, hd⟩ := grows_dict hg
      exact ⟨d', ⟨_, _, _, _, rfl, .inl hm⟩, hd⟩
  · obtain ⟨v', hm, hg⟩ := h3 _ hr
    obtain ⟨d', rfl, hd⟩ := grows_dict hg
    refine ⟨d', ⟨_, _, _, _, rfl, .inr ⟨fun w hw => ?_, hm⟩⟩, hd⟩
    obtain ⟨x, hx, -⟩ := h2 _ _ hw
    exact hn x hx

theorem grows_no_root {v w : V} (h : Grows v w) (hr : ∀ d, ¬ TRoot v d) : ∀ d', ¬ TRoot w d' := by
  rintro d' ⟨c, fs', ex', set', rfl, hd⟩
  have : ∃ fs ex set, v = .inst c fs ex set := by
    cases h with
    | plain _ h => cases h
    | inst => exact ⟨_, _, _, rfl⟩
  obtain ⟨fs, ex, set, rfl⟩ := this
  obtain ⟨_, _, _, h0, h1, h2, h3, h4⟩ := grows_fields h
  cases h0
  rcases hd with hd | ⟨hn, hd⟩
  · obtain ⟨x, hx, ⟨-, e⟩ | hg⟩ := h2 _ _ hd
    · exact e rfl
    · obtain ⟨d, rfl, -⟩ := grows_of_dict hg
      exact hr d ⟨_, _, _, _, rfl, .inl hx⟩
  · obtain ⟨x, hx, hg⟩ := h4 _ hd
    obtain ⟨d, rfl, -⟩ := grows_of_dict hg
    refine hr d ⟨_, _, _, _, rfl, .inr ⟨fun w hw => ?_, hx⟩⟩
    obtain ⟨y, hy, -⟩ := h1 _ _ hw
    exact hn y hy

theorem grows_step {v w : V} (h : Grows v w) {k u} (hs : TStep v k u) : ∃ u', TStep w k u' ∧ Grows u u' := by
  cases hs with
  | root hr hm =>
    obtain ⟨d', hr', hd⟩ := grows_root h hr
    obtain ⟨u', hu, hg⟩ := hd _ _ hm
    exact ⟨u', .root hr' hu, hg⟩
  | dict hm =>
    obtain ⟨d', rfl, hd⟩ := grows_dict h
    obtain ⟨u', hu, hg⟩ := hd _ _ hm
    exact ⟨u', .dict hu, hg⟩
  | field hr hf hn hm hne =>
    have hr' := grows_no_root h hr
    obtain ⟨_, _, _, h0, h1, h2, h3, h4⟩ := grows_fields h
    subst h0
    obtain ⟨u', hu, ⟨e, -⟩ | hg⟩ := h1 _ _ hm
    · exact absurd e hne
    · exact ⟨u', .field hr' hf hn hu (grows_not_none hg hne), hg⟩

theorem grows_walk {v : V} {ks u} (hs : TWalk v ks u) : ∀ {w}, Grows v w → ∃ u', TWalk w ks u' ∧ Grows u u' := by
  induction hs with
  | nil => exact fun h => ⟨_, .nil, h⟩
  | cons h1 _ ih =>
    intro w h
    obtain ⟨x, hx, hg⟩ := grows_step h h1
    obtain ⟨u', hu, hg'⟩ := ih hg
    exact ⟨u', .cons hx hu, hg'⟩

theorem grows_child {v w : V} (h : Grows v w) {s u} (hs : TChild v s u) : ∃ s' u', SameStep s s' ∧ TChild w s' u' ∧ Grows u u' := by
  cases hs with
  | item hi =>
    cases h with
    | plain h _ => cases h
    | list h h' => exact ⟨_, _, .index, .item (h _ _ hi), h' _ _ hi⟩
  | entry hm =>
    obtain ⟨d', rfl, hd⟩ := grows_dict h
    obtain ⟨u', hu, hg⟩ := hd _ _ hm
    exact ⟨_, u', .refl, .entry hu, hg⟩
  | field hf he hm hne =>
    obtain ⟨_, _, _, h0, h1, h2, h3, h4⟩ := grows_fields h
    subst h0
    obtain ⟨u', hu, ⟨e, -⟩ | hg⟩ := h1 _ _ hm
    · exact absurd e hne
    · exact ⟨_, u', .refl, .field hf he hu (grows_not_none hg hne), hg⟩

theorem grows_at {v : V} {ss u} (hs : TAt v ss u) : ∀ {w}, Grows v w → ∃ ss' u', SamePlace ss ss' ∧ TAt w ss' u' ∧ Grows u u' := by
  induction hs with
  | nil => exact fun h => ⟨_, _, .nil, .nil, h⟩
  | cons h1 _ ih =>
    intro w h
    obtain ⟨s', x, hs, hx, hg⟩ := grows_child h h1
    obtain ⟨ss', u', hss, hu, hg'⟩ := ih hg
    exact ⟨_, u', .cons hs hss, .cons hx hu, hg'⟩

theorem grows_ref {v w : V} (h : Grows v w) {s} (hr : TRef v s) : TRef w s := by
  obtain ⟨fs, ex, set, rfl, hm⟩ := hr
  cases h with
  | plain h _ => cases h
  | inst h0 => exact ⟨_, _, _, rfl, (h0 rfl s).1 hm⟩

theorem grows_denotes {doc doc' : V} (h : Grows doc doc') {r v} (hd : TDenotes doc r v) : ∃ v', TDenotes doc' r v' ∧ Grows v v' := by
  obtain ⟨he, segs, hs, hw⟩ := hd
  obtain ⟨v', hw', hg⟩ := grows_walk hw h
  exact ⟨v', ⟨he, segs, hs, hw'⟩, hg⟩

theorem grows_hops {doc doc' : V} (h : Grows doc doc') {r r'} (hh : THops doc r r') : THops doc' r r' := by
  induction hh with
  | refl => exact .refl
  | tail _ h2 ih =>
    obtain ⟨v, hd, hr⟩ := h2
    obtain ⟨v', hd', hg⟩ := grows_denotes h hd
    exact .tail ih ⟨v', hd', grows_ref hg hr⟩

theorem grows_refOk {doc doc' : V} (h : Grows doc doc') {e s} (hr : TRefOk doc e s) : TRefOk doc' e s := by
  rcases hr with ⟨r, h1, h2⟩ | ⟨r, c, fs, ex, set, cs, h1, h2, h3, h4, h5⟩
  · exact .inl ⟨r, grows_hops h h1, h2⟩
  · obtain ⟨v', hd, hg⟩ := grows_denotes h h2
    cases hg with
    | plain h _ => cases h
    | inst => exact .inr ⟨r, c, _, _, _, cs, grows_hops h h1, hd, h3, h4, h5⟩

theorem grows_key {doc doc' : V} (h : Grows doc doc') {F key} (hk : TComponentKey doc F key) : TComponentKey doc' F key := by
  obtain ⟨w, hw⟩ := hk
  obtain ⟨ss', w', hss, hw', -⟩ := grows_at hw h
  have e : ss' = [.field p!"components", .field F, .field p!"root", .key key] := by
    cases hss with | cons h1 hss => cases hss with | cons h2 hss => cases hss with | cons h3 hss => cases hss with | cons h4 hss =>
      cases hss; cases h1; cases h2; cases h3; cases h4; rfl
  exact ⟨w', e ▸ hw'⟩

theorem grows_checked {doc doc' : V} (h : Grows doc doc') {F pre s} (hc : TChecked doc F pre s) : TChecked doc' F pre s := by
  rcases hc with hc | ⟨rest, key, h1, h2, h3⟩
  · exact .inl hc
  · exact .inr ⟨rest, key, h1, h2, grows_key h h3⟩

theorem grows_refl : ∀ v : V, Grows v v := by
  apply V.ind
  · exact fun l ih => .ofList fun i v hv => ⟨v, hv, ih v (List.mem_of_getElem? hv)⟩
  · exact fun d ih => .ofDict fun k v hv => ⟨v, hv, ih (k, v) hv⟩
  · exact fun c fs ex set h1 h2 => .ofInst (fun _ _ => Iff.rfl) (fun k v hv => ⟨v, hv, .inr (h1 (k, v) hv)⟩) (fun k v hv => ⟨v, hv, .inr (h1 (k, v) hv)⟩)
      (fun v hv => ⟨v, hv, h2 _ hv⟩) (fun v hv => ⟨v, hv, h2 _ hv⟩)
  · exact .none
  · exact fun _ => .plain .bool .bool
  · exact fun _ => .plain .int .int
  · exact fun _ => .plain .float .float
  · exact fun _ => .plain .str .str
  · exact fun _ _ => .plain .url .url
  · exact fun _ => .plain .proc .proc

theorem last_cons {s : LocStep} {steps : List LocStep} {k : Str} (h : (s :: steps).getLast? ≠ some (.field k)) :
    steps.getLast? ≠ some (.field k) := by
  cases steps with
  | nil => simp
  | cons t ts => simpa using h

theorem grows_replaced {u u' : V} (hu : Grows u u') {doc steps doc'} (h : Replaced u u' doc steps doc') :
    (IsPlain u → steps.getLast? ≠ some (.field p!"ref")) → Grows doc doc' := by
  induction h with
  | here => exact fun _ => hu
  | @item l l' x x' _ _ ih =>
    intro hp
    have ih := ih fun h => last_cons (hp h)
    refine .ofList fun i v hv => ?_
    rcases Nat.lt_trichotomy i l.length with hi | hi | hi
    · rw [List.getElem?_append_left hi] at hv
      exact ⟨v, by rw [List.getElem?_append_left hi]; exact hv, grows_refl v⟩
    · subst hi
      rw [List.getElem?_append_right (Nat.le_refl _)] at hv
      simp only [Nat.sub_self, List.getElem?_cons_zero, Option.some.injEq] at hv
      subst hv
      exact ⟨x', by rw [List.getElem?_append_right (Nat.le_refl _)]; simp, ih⟩
    · obtain ⟨n, rfl⟩ := Nat.exists_eq_add_of_lt hi
      have e : l.length + n + 1 - l.length = n + 1 := by omega
      rw [List.getElem?_append_right (by omega), e, List.getElem?_cons_succ] at hv
      exact ⟨v, by rw [List.getElem?_append_right (by omega), e, List.getElem?_cons_succ]; exact hv, grows_refl v⟩
  | @entry d d' k x x' _ _ ih =>
    intro hp
    have ih := ih fun h => last_cons (hp h)
    refine .ofDict fun j v hv => ?_
    rcases List.mem_append.1 hv with hv | hv
    · exact ⟨v, List.mem_append_left _ hv, grows_refl v⟩
    · rcases List.mem_cons.1 hv with hv | hv
      · cases hv; exact ⟨x', List.mem_append_right _ (List.mem_cons_self ..), ih⟩
      · exact ⟨v, List.mem_append_right _ (List.mem_cons_of_mem _ hv), grows_refl v⟩
  | @field c fs fs' ex set k x x' steps hx ih =>
    intro hp
    have ih := ih fun h => last_cons (hp h)
    have hstr : ∀ s, k = p!"ref" → x ≠ .str s ∧ x' ≠ .str s := by
      rintro s rfl
      cases hx with
      | here =>
        have hn : ¬ IsPlain u := fun h => by simpa using hp h
        constructor
        · rintro rfl; exact hn .str
        · rintro rfl
          cases hu with
          | plain h _ => exact hn h
      | _ => simp
    refine .ofInst (fun _ s => ?_) (fun j v hv => ?_) (fun j v hv => ?_) (fun v hv => ⟨v, hv, grows_refl v⟩) (fun v hv => ⟨v, hv, grows_refl v⟩)
    · simp only [List.mem_append, List.mem_cons, Prod.mk.injEq]
      constructor
      · rintro (h | ⟨rfl, rfl⟩ | h)
        · exact .inl h
        · exact absurd rfl (hstr s rfl).1
        · exact .inr (.inr h)
      · rintro (h | ⟨rfl, rfl⟩ | h)
        · exact .inl h
        · exact absurd rfl (hstr s rfl).2
        · exact .inr (.inr h)
    all_goals
      rcases List.mem_append.1 hv with hv | hv
      · exact ⟨v, List.mem_append_left _ hv, .inr (grows_refl v)⟩
      · rcases List.mem_cons.1 hv with hv | hv
        · cases hv; exact ⟨_, List.mem_append_right _ (List.mem_cons_self ..), .inr ih⟩
        · exact ⟨v, List.mem_append_right _ (List.mem_cons_of_mem _ hv), .inr (grows_refl v)⟩

theorem at_none {ss w} (h : TAt .none ss w) : w = .none := by
  cases h with
  | nil => rfl
  | cons h _ => cases h

/-- What stands in the changed document stands in the old one, or in the part that was replaced. -/
theorem at_replaced {u u' : V} (hu : Grows u u') {doc steps doc'} (h : Replaced u u' doc steps doc') :
    (IsPlain u → steps.getLast? ≠ some (.field p!"ref")) → ∀ {ss w s}, TAt doc' ss w → TRef w s →
    (∃ w, TAt doc ss w ∧ TRef w s) ∨ ∃ rest, ss = steps ++ rest ∧ TAt u' rest w ∧
      ∀ r w, TAt u r w → w ≠ .none → TAt doc (steps ++ r) w := by
  induction h with
  | here => exact fun _ _ _ _ hat _ => .inr ⟨_, rfl, hat, fun _ _ h _ => h⟩
  | @item l l' x x' _ _ ih =>
    intro hp ss w s hat hr
    have ih := @ih fun h => last_cons (hp h)
    cases hat with
    | nil => obtain ⟨_, _, _, e, _⟩ := hr; cases e
    | cons h1 h2 =>
      cases h1 with
      | @item _ i _ hi =>
        rcases Nat.lt_trichotomy i l.length with hl | hl | hl
        · rw [List.getElem?_append_left hl] at hi
          exact .inl ⟨w, .cons (.item (by rw [List.getElem?_append_left hl]; exact hi)) h2, hr⟩
        · subst hl
          rw [List.getElem?_append_right (Nat.le_refl _)] at hi
          simp only [Nat.sub_self, List.getElem?_cons_zero, Option.some.injEq] at hi
          subst hi
          rcases ih h2 hr with ⟨w, ha, hr⟩ | ⟨rest, rfl, ha, hb⟩
          · exact .inl ⟨w, .cons (.item (by rw [List.getElem?_append_right (Nat.le_refl _)]; simp)) ha, hr⟩
          · exact .inr ⟨rest, rfl, ha, fun r w h1 h2 => .cons (.item (by simp)) (hb r w h1 h2)⟩
        · obtain ⟨n, rfl⟩ := Nat.exists_eq_add_of_lt hl
          have e : l.length + n + 1 - l.length = n + 1 := by omega
          rw [List.getElem?_append_right (by omega), e, List.getElem?_cons_succ] at hi
          exact .inl ⟨w, .cons (.item (by rw [List.getElem?_append_right (by omega), e, List.getElem?_cons_succ]; exact hi)) h2, hr⟩
  | @entry d d' k x x' _ _ ih =>
    intro hp ss w s hat hr
    have ih := @ih fun h => last_cons (hp h)
    cases hat with
    | nil => obtain ⟨_, _, _, e, _⟩ := hr; cases e
    | cons h1 h2 =>
      cases h1 with
      | entry hm =>
        rcases List.mem_append.1 hm with hm | hm
        · exact .inl ⟨w, .cons (.entry (List.mem_append_left _ hm)) h2, hr⟩
        · rcases List.mem_cons.1 hm with hm | hm
          · cases hm
            rcases ih h2 hr with ⟨w, ha, hr⟩ | ⟨rest, rfl, ha, hb⟩
            · exact .inl ⟨w, .cons (.entry (List.mem_append_right _ (List.mem_cons_self ..))) ha, hr⟩
            · exact .inr ⟨rest, rfl, ha, fun r w h1 h2 =>
                .cons (.entry (List.mem_append_right _ (List.mem_cons_self ..))) (hb r w h1 h2)⟩
          · exact .inl ⟨w, .cons (.entry (List.mem_append_right _ (List.mem_cons_of_mem _ hm))) h2, hr⟩
  | @field c fs fs' ex set k x x' steps hx ih =>
    intro hp ss w s hat hr
    have ih := @ih fun h => last_cons (hp h)
    cases hat with
    | nil =>
      obtain ⟨_, _, _, e, hm⟩ := hr
      cases e
      rcases List.mem_append.1 hm with hm | hm
      · exact .inl ⟨_, .nil, _, _, _, rfl, List.mem_append_left _ hm⟩
      · rcases List.mem_cons.1 hm with hm | hm
        · cases hm
          cases hx with
          | here =>
            have hn : ¬ IsPlain u := fun h => by simpa using hp h
            cases hu with
            | plain h _ => exact absurd h hn
        · exact .inl ⟨_, .nil, _, _, _, rfl, List.mem_append_right _ (List.mem_cons_of_mem _ hm)⟩
    | cons h1 h2 =>
      cases h1 with
      | field hf he hm hn =>
        rcases List.mem_append.1 hm with hm | hm
        · exact .inl ⟨w, .cons (.field hf he (List.mem_append_left _ hm) hn) h2, hr⟩
        · rcases List.mem_cons.1 hm with hm | hm
          · cases hm
            rcases ih h2 hr with ⟨w, ha, hr⟩ | ⟨rest, rfl, ha, hb⟩
            · refine .inl ⟨w, .cons (.field hf he (List.mem_append_right _ (List.mem_cons_self ..)) ?_) ha, hr⟩
              rintro rfl
              cases ha with
              | nil => obtain ⟨_, _, _, e, _⟩ := hr; cases e
              | cons h _ => cases h
            · refine .inr ⟨rest, rfl, ha, fun r w h1 h2 =>
                .cons (.field hf he (List.mem_append_right _ (List.mem_cons_self ..)) ?_) (hb r w h1 h2)⟩
              have := hb r w h1 h2
              rintro rfl
              exact h2 (at_none this)
          · exact .inl ⟨w, .cons (.field hf he (List.mem_append_right _ (List.mem_cons_of_mem _ hm)) hn) h2, hr⟩

end Verif.Pyd
