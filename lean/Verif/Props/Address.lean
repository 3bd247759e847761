import Verif.Spec.Address
import Verif.Props.Extract
import Verif.Props.Factory
import Verif.Props.Complain
/-!
# C63: which parts of a document can be referred to
-/
namespace Verif.Props
open Verif Verif.Gen Verif.Spec Verif.Pyd Verif.Mutate Verif.Document Verif.Resolve

variable {U : Uni} {limit : Option Nat} {n : Nat}

/-! ### Lemmas -/

/-- The names of fields can be written in references. -/
theorem names_plain : Cls.all.all (fun c => (classDef c).fields.all fun f =>
    decide (f.name ≠ []) && !f.name.contains '/' && (f.alias.all fun a => decide (a ≠ []) && !a.contains '/')) = true := by
  decide +kernel

theorem name_plain {c : Cls} {f : FieldDef Cls} (hf : f ∈ (classDef c).fields) :
    f.alias.getD f.name ≠ [] ∧ '/' ∉ f.alias.getD f.name := by
  have h := List.all_eq_true.1 (List.all_eq_true.1 names_plain c (Cls.mem_all c)) f hf
  simp only [Bool.and_eq_true, decide_eq_true_eq, Bool.not_eq_true', List.contains_eq_mem, decide_eq_false_iff_not] at h
  cases ha : f.alias with
  | none => exact h.1
  | some a =>
    have := h.2
    rw [ha] at this
    simpa using this

/-- An object with another declared field than `root` has no declared field `root`. -/
theorem not_rooted {c : Cls} {f : FieldDef Cls} (hf : f ∈ (classDef c).fields) (hn : f.name ≠ p!"root") :
    p!"root" ∉ (classDef c).fields.map (·.name) := by
  intro h
  obtain ⟨g, hg, he⟩ := List.mem_map.1 h
  have h := List.all_eq_true.1 (List.all_eq_true.1 root_patterned c (Cls.mem_all c)) g hg
  simp only [Bool.or_eq_true, decide_eq_true_eq] at h
  rcases h with h | h
  · exact h he
  · obtain ⟨t, ht⟩ := patterned_root c h
    rw [ht] at hf
    simp only [List.mem_singleton] at hf
    subst hf
    exact hn rfl

/-- The field `root` holds a dict, whose keys have the form of keys. -/
theorem root_dict {c fs ex set w} (hs : Sound U limit (.inst c fs ex set)) (h : (p!"root", w) ∈ fs) :
    ∃ d, w = .dict d ∧ ∀ e ∈ d, OrNewline KeyForm e.1 := by
  cases hs with
  | inst hv _ _ _ =>
    have hn := valid_names hv
    have hmem : p!"root" ∈ (classDef c).fields.map (·.name) := hn ▸ List.mem_map.2 ⟨_, h, rfl⟩
    obtain ⟨g, hg, he⟩ := List.mem_map.1 hmem
    have hp := List.all_eq_true.1 (List.all_eq_true.1 root_patterned c (Cls.mem_all c)) g hg
    simp only [Bool.or_eq_true, decide_eq_true_eq] at hp
    have hp := hp.resolve_left (fun h => h he)
    obtain ⟨t, ht⟩ := patterned_root c hp
    have hf : (⟨p!"root", none, .dict t, .required, false, false, none⟩ : FieldDef Cls) ∈ (classDef c).fields := by rw [ht]; simp
    have hw := valid_field hv hf h
    have hd : ∃ d, w = .dict d := by
      cases hw with
      | dict => exact ⟨_, rfl⟩
    obtain ⟨d, rfl⟩ := hd
    refine ⟨d, rfl, ?_⟩
    cases hv with
    | model hfs _ hcon =>
      refine hcon.keys hp d ?_
      have : (fs.map (·.1)).Nodup := hfs ▸ names_nodup _
      simp [V.attr, (lookup_iff this).2 h]

theorem no_root {c fs ex set} (hs : Sound U limit (.inst c fs ex set)) (hn : p!"root" ∉ (classDef c).fields.map (·.name))
    (hr : ∀ d, (p!"root", .dict d) ∉ ex) (d : List (Str × V)) : ¬ TRoot (.inst c fs ex set) d := by
  rintro ⟨_, _, _, _, e, h⟩
  cases e
  rcases h with h | ⟨-, h⟩
  · exact hn (valid_names (sound_inst hs) ▸ List.mem_map.2 ⟨_, h, rfl⟩)
  · exact hr d h

theorem noExtraRoot_within {v w : V} (h : NoExtraRoot v) (hw : Within w v) : NoExtraRoot w := by
  intro c fs ex set hi
  refine h c fs ex set ?_
  clear h
  induction hw with
  | refl => exact hi
  | item hm _ ih => exact .item hm ih
  | entry hm _ ih => exact .entry hm ih
  | field hm _ ih => exact .field hm ih
  | extra hm _ ih => exact .extra hm ih

theorem addressable_cons {s : LocStep} {steps} (h : Addressable (s :: steps)) : (¬ LocStep.IsIndex s ∧ ¬ LocStep.BadKey s) ∧ Addressable steps :=
  ⟨h s (List.mem_cons_self ..), fun t ht => h t (List.mem_cons_of_mem _ ht)⟩

/-- The JSON names lead to the location. -/
theorem json_leads {doc x : V} {steps} (hat : TAt doc steps x) : ∀ {path}, Sound U limit doc → NoExtraRoot doc → JsonPath doc steps path →
    Leads x doc path steps := by
  induction hat with
  | nil => intro _ _ _ h; cases h; exact .nil
  | @cons v s u ss w hch _ ih =>
    intro path hs hn h
    have hw := tchild_within hch
    cases hch with
    | item hi => cases h
    | @entry d k _ hm =>
      cases h with
      | @entry _ _ u' _ _ hm' h =>
        cases hs with
        | dict hnd hd =>
          cases dict_unique hnd hm hm'
          exact .entry hm (ih (hd _ hm) (noExtraRoot_within hn hw) h)
    | @field c fs ex set f _ hf he hm hne =>
      have hsu := sound_within hs hw
      generalize hfn : f.name = fn at h
      cases h with
      | @root _ _ _ _ u' _ _ hm' h =>
        rw [hfn] at hm
        cases dict_unique (inst_nodup hs) hm hm'
        obtain ⟨d, rfl, -⟩ := root_dict hs hm
        exact .root hm (ih hsu (noExtraRoot_within hn hw) h)
      | @field _ _ _ _ g u' _ path hg hgn hm' h =>
        rw [hfn] at hm
        cases dict_unique (inst_nodup hs) hm hm'
        refine .field (no_root hs (not_rooted hg hgn) (hn _ _ _ _ .refl)) hg ?_ hm hne (ih hsu (noExtraRoot_within hn hw) h)
        cases g.alias with
        | none => exact .inl rfl
        | some a => exact .inr rfl

/-- Where a path leads, objects or not. -/
theorem leads_walk_any {x doc : V} {path steps} (h : Leads x doc path steps) : steps.getLast? ≠ some (.field p!"root") → TWalk doc path x := by
  induction h with
  | nil => exact fun _ => .nil
  | @entry d k w path steps hm _ ih =>
    intro hl
    refine .cons (.dict hm) (ih ?_)
    cases steps with
    | nil => simp
    | cons s ss => simpa using hl
  | @root c fs ex set d path steps hm h ih =>
    intro hl
    cases steps with
    | nil => simp at hl
    | cons s ss =>
      have hw := ih (by simpa using hl)
      cases hw with
      | nil => cases h
      | cons h1 h2 =>
        cases h1 with
        | root h => obtain ⟨_, _, _, _, e, _⟩ := h; cases e
        | dict hm' => exact .cons (.root ⟨_, _, _, _, rfl, .inl hm⟩ hm') h2
  | @field c fs ex set f k w path steps h0 hf hk hm hne _ ih =>
    intro hl
    refine .cons (.field h0 hf hk hm hne) (ih ?_)
    cases steps with
    | nil => simp
    | cons s ss => simpa using hl

/-- The pieces of the path can be written. -/
theorem json_plain {doc : V} {steps path} (h : JsonPath doc steps path) : Addressable steps → ∀ p ∈ path, p ≠ [] ∧ '/' ∉ p := by
  induction h with
  | nil => intro _ p hp; simp at hp
  | entry hm _ ih =>
    intro ha p hp
    obtain ⟨h1, h2⟩ := addressable_cons ha
    rcases List.mem_cons.1 hp with rfl | hp
    · have := h1.2
      simpa [LocStep.BadKey] using this
    · exact ih h2 p hp
  | root hm _ ih => exact fun ha => ih (addressable_cons ha).2
  | field hf _ hm _ ih =>
    intro ha p hp
    rcases List.mem_cons.1 hp with rfl | hp
    · exact name_plain hf
    · exact ih (addressable_cons ha).2 p hp

theorem json_nil {doc : V} {steps path} (h : JsonPath doc steps path) : steps ≠ [] → steps.getLast? ≠ some (.field p!"root") → path ≠ [] := by
  induction h with
  | nil => exact fun h => absurd rfl h
  | entry => exact fun _ _ => by simp
  | @root _ _ _ _ _ steps _ _ _ ih =>
    intro _ hl
    cases steps with
    | nil => simp at hl
    | cons s ss => exact ih (by simp) (by simpa using hl)
  | field => exact fun _ _ => by simp

theorem pointer_spells {path : List Str} (hne : path ≠ []) (h : ∀ p ∈ path, p ≠ [] ∧ '/' ∉ p) : Spells (pointer path) path := by
  refine ⟨[] :: path, ?_, ?_, ?_, hne⟩
  · rw [Str.join_cons _ _ hne]; rfl
  · intro p hp
    rcases List.mem_cons.1 hp with rfl | hp
    · simp
    · exact (h p hp).2
  · rw [List.filter_cons_of_neg (by simp)]
    exact (List.filter_eq_self.2 fun p hp => by simpa using (h p hp).1).symm

theorem spells_plain {r : Str} {path : List Str} (h : Spells r path) : path ≠ [] ∧ ∀ p ∈ path, p ≠ [] ∧ '/' ∉ p := by
  obtain ⟨ps, -, h1, rfl, h2⟩ := h
  refine ⟨h2, fun p hp => ?_⟩
  obtain ⟨h3, h4⟩ := List.mem_filter.1 hp
  exact ⟨by simpa using h4, h1 p h3⟩

/-- Paths lead to addressable locations only. -/
theorem leads_addressable {x doc : V} {path steps} (h : Leads x doc path steps) : (∀ p ∈ path, p ≠ [] ∧ '/' ∉ p) → Addressable steps := by
  induction h with
  | nil => intro _ s hs; simp at hs
  | entry hm _ ih =>
    intro hp s hs
    rcases List.mem_cons.1 hs with rfl | hs
    · have := hp _ (List.mem_cons_self ..)
      simpa [LocStep.IsIndex, LocStep.BadKey] using this
    · exact ih (fun p h => hp p (List.mem_cons_of_mem _ h)) s hs
  | root hm _ ih =>
    intro hp s hs
    rcases List.mem_cons.1 hs with rfl | hs
    · simp [LocStep.IsIndex, LocStep.BadKey]
    · exact ih hp s hs
  | field _ _ _ _ _ _ ih =>
    intro hp s hs
    rcases List.mem_cons.1 hs with rfl | hs
    · simp [LocStep.IsIndex, LocStep.BadKey]
    · exact ih (fun p h => hp p (List.mem_cons_of_mem _ h)) s hs

/-- Objects do not stand in the field `root` itself. -/
theorem object_not_root {doc x : V} (hx : ∃ c fs ex set, x = .inst c fs ex set) {steps} (hat : TAt doc steps x) :
    Sound U limit doc → steps.getLast? ≠ some (.field p!"root") := by
  induction hat with
  | nil => simp
  | @cons v s u ss w hch hat ih =>
    intro hs
    have hu := sound_within hs (tchild_within hch)
    cases ss with
    | cons t ts => simpa using ih hx hu
    | nil =>
      cases hat
      intro he
      simp only [List.getLast?_singleton, Option.some.injEq] at he
      cases hch with
      | item => cases he
      | entry => cases he
      | @field c fs ex set f _ hf _ hm _ =>
        simp only [LocStep.field.injEq] at he
        rw [he] at hm
        obtain ⟨d, e, -⟩ := root_dict hs hm
        obtain ⟨_, _, _, _, e'⟩ := hx
        rw [e] at e'
        cases e'

/-! ### Statement -/

/-- Every location outside of lists has a path of JSON names and keys. -/
theorem C63_has_path (doc x : V) (steps : List LocStep) (hat : TAt doc steps x) (hi : ∀ s ∈ steps, ¬ LocStep.IsIndex s) :
    ∃ path, JsonPath doc steps path := by
  induction hat with
  | nil => exact ⟨[], .nil⟩
  | @cons v s u ss w hch _ ih =>
    obtain ⟨path, h⟩ := ih fun s hs => hi s (List.mem_cons_of_mem _ hs)
    cases hch with
    | item => exact absurd trivial (hi _ (List.mem_cons_self ..))
    | entry hm => exact ⟨_, .entry hm h⟩
    | @field c fs ex set f _ hf _ hm _ =>
      by_cases hn : f.name = p!"root"
      · rw [hn] at hm ⊢; exact ⟨_, .root hm h⟩
      · exact ⟨_, .field hf hn hm h⟩

/-- **C63.** Whatever stands at an addressable location other than the document itself is what the reference
`#/a/b/c` of its JSON names and keys leads to. -/
theorem C63_pointer (U : Uni) (limit : Option Nat) (doc x : V) (steps : List LocStep) (path : List Str)
    (hs : Sound U limit doc) (hr : NoExtraRoot doc) (hat : TAt doc steps x) (hp : JsonPath doc steps path)
    (ha : Addressable steps) (hne : steps ≠ []) (hl : steps.getLast? ≠ some (.field p!"root")) : TDenotes doc (pointer path) x := by
  have hsp := pointer_spells (json_nil hp hne hl) (json_plain hp ha)
  exact ⟨spells_not_external hsp, _, hsp, leads_walk_any (json_leads hat hs hr hp) hl⟩

/-- **C63.** For objects: the resolution of the reference returns the object. -/
theorem C63_resolves (U : Uni) (limit : Option Nat) (doc : V) (D : Doc Cls n) (hD : Depicts D doc) (c : Cls) (fs ex : List (Str × V))
    (set : List Str) (steps : List LocStep) (path : List Str) (hs : Sound U limit doc) (hr : NoExtraRoot doc)
    (hat : TAt doc steps (.inst c fs ex set)) (hp : JsonPath doc steps path) (ha : Addressable steps) (hne : steps ≠ [])
    (hc : c ≠ .Reference) : ∃ v ty p, resolve table D (pointer path) = some (.ok (some ⟨v, ty, p⟩)) ∧ Rep D v (.inst c fs ex set) := by
  have hl := object_not_root ⟨_, _, _, _, rfl⟩ hat hs
  obtain ⟨v, h1, h2⟩ := denotes_up hD (C63_pointer U limit doc _ steps path hs hr hat hp ha hne hl)
  have hW := represents_wf hD hs
  obtain ⟨ty, p, h3⟩ := (C02_result_is_end_of_chain hW table_unambiguous (pointer path) v).2 ⟨_, .refl, h1, fun s h => by
    obtain ⟨_, _, _, e, _⟩ := (reference_iff h2).1 h
    cases e
    exact hc rfl⟩
  exact ⟨v, ty, p, h3, h2⟩

/-- **C63.** For References: the resolution goes on with the Reference. -/
theorem C63_follows (U : Uni) (limit : Option Nat) (doc : V) (D : Doc Cls n) (hD : Depicts D doc) (x : V) (s : Str)
    (steps : List LocStep) (path : List Str) (hs : Sound U limit doc) (hr : NoExtraRoot doc)
    (hat : TAt doc steps x) (hx : TRef x s) (hp : JsonPath doc steps path) (ha : Addressable steps) (hne : steps ≠ []) :
    SameOutcome table D (pointer path) s := by
  have hi : ∃ c fs ex set, x = .inst c fs ex set := by obtain ⟨_, _, _, e, _⟩ := hx; exact ⟨_, _, _, _, e⟩
  obtain ⟨v, h1, h2⟩ := denotes_up hD (C63_pointer U limit doc _ steps path hs hr hat hp ha hne (object_not_root hi hat hs))
  exact same_of_hop (represents_wf hD hs) ⟨v, h1, (reference_iff h2).2 hx⟩

/-- **C63.** An object in the document can be referred to if and only if its location is addressable, and it is not the
document itself. -/
theorem C63_exact (U : Uni) (limit : Option Nat) (doc x : V) (hx : ∃ c fs ex set, x = .inst c fs ex set) (steps : List LocStep)
    (hs : Sound U limit doc) (hr : NoExtraRoot doc) (hat : TAt doc steps x) :
    (∃ r path, Spells r path ∧ Leads x doc path steps) ↔ Addressable steps ∧ steps ≠ [] := by
  constructor
  · rintro ⟨r, path, h1, h2⟩
    obtain ⟨h3, h4⟩ := spells_plain h1
    refine ⟨leads_addressable h2 h4, ?_⟩
    rintro rfl
    cases h2
    exact h3 rfl
  · rintro ⟨ha, hne⟩
    obtain ⟨path, hp⟩ := C63_has_path doc x steps hat fun s h => (ha s h).1
    exact ⟨_, path, pointer_spells (json_nil hp hne (object_not_root hx hat hs)) (json_plain hp ha), json_leads hat hs hr hp⟩

theorem walk_leads {doc x : V} {path} (h : TWalk doc path x) : Sound U limit doc → NoExtraRoot doc → ∃ steps, Leads x doc path steps ∧ steps.getLast? ≠ some (.field p!"root") := by
  induction h with
  | nil => exact fun _ _ => ⟨[], .nil, by simp⟩
  | @cons v k u ks w hst _ ih =>
    intro hs hn
    have last : ∀ (a : LocStep) (l : List LocStep), (l = [] → a ≠ .field p!"root") → l.getLast? ≠ some (.field p!"root") →
        (a :: l).getLast? ≠ some (.field p!"root") := by
      intro a l h1 h2
      cases l with
      | nil => simpa using h1 rfl
      | cons b l => simpa using h2
    cases hst with
    | @root _ d _ _ hr hm =>
      obtain ⟨c, fs, ex, set, rfl, hr | ⟨-, hr⟩⟩ := hr
      · obtain ⟨steps, h, hl⟩ := ih (sound_within hs (.field hr (.entry hm .refl))) (noExtraRoot_within hn (.field hr (.entry hm .refl)))
        exact ⟨.field p!"root" :: .key k :: steps, .root hr (.entry hm h), last _ _ (by simp) (last _ _ (by simp) hl)⟩
      · exact absurd hr (hn _ _ _ _ .refl d)
    | @dict d _ _ hm =>
      obtain ⟨steps, h, hl⟩ := ih (sound_within hs (.entry hm .refl)) (noExtraRoot_within hn (.entry hm .refl))
      exact ⟨.key k :: steps, .entry hm h, last _ _ (by simp) hl⟩
    | @field c fs ex set f _ _ h0 hf hk hm hne =>
      obtain ⟨steps, h, hl⟩ := ih (sound_within hs (.field hm .refl)) (noExtraRoot_within hn (.field hm .refl))
      refine ⟨.field f.name :: steps, .field h0 hf hk hm hne h, last _ _ (fun _ => ?_) hl⟩
      intro he
      simp only [LocStep.field.injEq] at he
      rw [he] at hm
      obtain ⟨d, rfl, -⟩ := root_dict hs hm
      exact h0 d ⟨_, _, _, _, rfl, .inl hm⟩

/-- **C63.** Whatever the resolution of a reference returns stands at an addressable location: nothing inside a list, in an
extra field or below a key that cannot be written is ever found. -/
theorem C63_only (U : Uni) (limit : Option Nat) (doc : V) (D : Doc Cls n) (hD : Depicts D doc) (hs : Sound U limit doc)
    (hr : NoExtraRoot doc) (s : Str) (v : Val n) (ty : PyType Cls) (p : Str)
    (h : resolve table D s = some (.ok (some ⟨v, ty, p⟩))) :
    ∃ x path steps, Rep D v x ∧ Leads x doc path steps ∧ Addressable steps ∧ steps ≠ [] := by
  obtain ⟨r, -, ⟨hd, -⟩⟩ := (C02_result_is_end_of_chain (represents_wf hD hs) table_unambiguous s v).1 ⟨ty, p, h⟩
  obtain ⟨x, ⟨-, path, h1, h2⟩, h3⟩ := denotes_down hD hd
  obtain ⟨steps, h4, -⟩ := walk_leads h2 hs hr
  obtain ⟨h5, h6⟩ := spells_plain h1
  refine ⟨x, path, steps, h3, h4, leads_addressable h4 h6, ?_⟩
  rintro rfl
  cases h4
  exact h5 rfl

theorem keyForm_plain {k : Str} (h : OrNewline KeyForm k) : k ≠ [] ∧ '/' ∉ k := by
  have key : ∀ k, KeyForm k → k ≠ [] ∧ '/' ∉ k := by
    intro k ⟨h0, h⟩
    refine ⟨h0, fun hm => ?_⟩
    rcases h _ hm with h | h | h | h
    · simp [Letter] at h
    · simp [Digit] at h
    · simp at h
    · simp at h
  rcases h with h | ⟨t, rfl, h⟩
  · exact key _ h
  · refine ⟨by simp, ?_⟩
    intro hm
    rcases List.mem_append.1 hm with hm | hm
    · exact (key _ h).2 hm
    · simp at hm

/-- **C63.** The keys of collections can always be written: a location is addressable if it is not inside a list and each
key on the way to it is the key of a collection. -/
theorem C63_collections (U : Uni) (limit : Option Nat) (doc x : V) (steps : List LocStep) (hs : Sound U limit doc)
    (hat : TAt doc steps x) (hi : ∀ s ∈ steps, ¬ LocStep.IsIndex s)
    (hk : ∀ l k m, steps = l ++ .key k :: m → ∃ l', l = l' ++ [.field p!"root"]) : Addressable steps := by
  intro s hm
  refine ⟨hi s hm, ?_⟩
  cases s with
  | field => simp [LocStep.BadKey]
  | index => simp [LocStep.BadKey]
  | key k =>
    obtain ⟨l, m, rfl⟩ := List.append_of_mem hm
    obtain ⟨l', rfl⟩ := hk l k m rfl
    obtain ⟨u, h1, h2⟩ := tat_split hat
    obtain ⟨w, h3, h4⟩ := tat_split h1
    have hsw := sound_within hs (at_within h3)
    cases h4 with
    | cons hch h4 =>
      cases h4
      generalize hr : p!"root" = rt at hch
      cases hch with
      | @field c fs ex set f _ hf _ hm' _ =>
        rw [← hr] at hm'
        obtain ⟨d, rfl, hd⟩ := root_dict hsw hm'
        cases h2 with
        | cons hch' _ =>
          cases hch' with
          | entry hmem =>
            have := keyForm_plain (hd _ hmem)
            simpa [LocStep.BadKey] using this

/-- A reference that goes on where nothing is found is refused. -/
theorem refused {D : Doc Cls n} {doc : V} (hD : Depicts D doc) (hs : Sound U limit doc) {path rest : List Str} {k r : Str} {x : V}
    (hx : TWalk doc path x) (hk : ∀ w, ¬ TStep x k w) (hr : Spells r (path ++ k :: rest)) :
    ∃ m, resolve table D r = some (.error (.valueError m)) ∧ ∀ t, m ≠ .circular t := by
  refine ((C03_other_outcomes (represents_wf hD hs) table_unambiguous r).2).2 ⟨r, .refl, spells_not_external hr, ?_⟩
  intro v hv
  obtain ⟨w, ⟨-, segs, h1, h2⟩, -⟩ := denotes_down hD hv
  cases spells_unique hr h1
  obtain ⟨u, h3, h4⟩ := twalk_split h2
  cases twalk_unique hs hx h3
  cases h4 with
  | cons h _ => exact hk _ h

/-- **C63.** References into a JSON Schema are refused: what follows the path of a Schema object must be one of the three
fields declared for it, and so not `properties`, `items`, `definitions`, … -/
theorem C63_inside_schema (U : Uni) (limit : Option Nat) (doc : V) (D : Doc Cls n) (hD : Depicts D doc) (hs : Sound U limit doc)
    (hn : NoExtraRoot doc) (path rest : List Str) (k r : Str) (fs ex : List (Str × V)) (set : List Str)
    (hx : TWalk doc path (.inst .Schema fs ex set)) (hr : Spells r (path ++ k :: rest))
    (hk : k ∉ [p!"discriminator", p!"external_docs", p!"externalDocs", p!"deprecated"]) :
    ∃ m, resolve table D r = some (.error (.valueError m)) ∧ ∀ t, m ≠ .circular t := by
  refine refused hD hs hx ?_ hr
  have hw := twalk_within hx
  intro w hst
  cases hst with
  | root h _ => exact no_root (sound_within hs hw) (by decide) (hn _ _ _ _ hw) _ h
  | @field _ _ _ _ f _ _ _ hf hnm _ _ =>
    have hall : ∀ f ∈ (classDef .Schema).fields, ∀ k, (f.name = k ∨ f.alias = some k) →
        k ∈ [p!"discriminator", p!"external_docs", p!"externalDocs", p!"deprecated"] := by
      intro f hf k h
      simp only [classDef, defSchema, List.mem_cons, List.not_mem_nil, or_false] at hf
      rcases hf with rfl | rfl | rfl <;> simp only [Option.some.injEq, reduceCtorEq, or_false] at h <;>
        (first | (rcases h with rfl | rfl <;> simp) | (subst h; simp))
    exact hk (hall f hf k hnm)

/-- **C63.** References into a list are refused. -/
theorem C63_inside_list (U : Uni) (limit : Option Nat) (doc : V) (D : Doc Cls n) (hD : Depicts D doc) (hs : Sound U limit doc)
    (path rest : List Str) (k r : Str) (l : List V) (hx : TWalk doc path (.list l)) (hr : Spells r (path ++ k :: rest)) :
    ∃ m, resolve table D r = some (.error (.valueError m)) ∧ ∀ t, m ≠ .circular t := by
  refine refused hD hs hx ?_ hr
  intro w hst
  cases hst with
  | root h _ => obtain ⟨_, _, _, _, e, _⟩ := h; cases e

/-! ### A document that meets the assumptions -/

/-- A check of `NoExtraRoot`. -/
def noRoot : Nat → V → Bool
  | 0, _ => false
  | k + 1, .list l => l.all (noRoot k)
  | k + 1, .dict d => d.all fun e => noRoot k e.2
  | k + 1, .inst _ fs ex _ => (fs.all fun e => noRoot k e.2) && ex.all fun e => e.1 != p!"root" && noRoot k e.2
  | _ + 1, _ => true

theorem noRoot_sound {v : V} {k : Nat} (h : noRoot k v = true) : NoExtraRoot v := by
  intro c fs ex set hw d hd
  induction hw generalizing k with
  | refl =>
    cases k with
    | zero => cases h
    | succ k =>
      simp only [noRoot, Bool.and_eq_true, List.all_eq_true] at h
      have := (h.2 _ hd).1
      simp at this
  | item hm _ ih =>
    cases k with
    | zero => cases h
    | succ k => simp only [noRoot, List.all_eq_true] at h; exact ih (h _ hm)
  | entry hm _ ih =>
    cases k with
    | zero => cases h
    | succ k => simp only [noRoot, List.all_eq_true] at h; exact ih (h _ hm)
  | field hm _ ih =>
    cases k with
    | zero => cases h
    | succ k => simp only [noRoot, Bool.and_eq_true, List.all_eq_true] at h; exact ih (h.1 _ hm)
  | extra hm _ ih =>
    cases k with
    | zero => cases h
    | succ k => simp only [noRoot, Bool.and_eq_true, List.all_eq_true] at h; exact ih (h.2 _ hm).2

/-- A document with a schema, a list of tags and server variables. -/
def placesInput : List (Str × V) := [
  (p!"asyncapi", .str p!"3.0.0"),
  (p!"info", .dict [(p!"title", .str p!"t"), (p!"version", .str p!"1"), (p!"tags", .list [.dict [(p!"name", .str p!"a")]])]),
  (p!"servers", .dict [(p!"s", .dict [(p!"host", .str p!"h"), (p!"protocol", .str p!"kafka"),
    (p!"variables", .dict [(p!"v", .dict [(p!"default", .str p!"1")]), (p!"a/b", .dict [(p!"default", .str p!"2")])])])]),
  (p!"components", .dict [(p!"schemas", .dict [(p!"User", .dict [(p!"type", .str p!"object"),
    (p!"properties", .dict [(p!"id", .dict [(p!"type", .str p!"string")])]), (p!"externalDocs", .dict [(p!"url", .str p!"https://e.com")])])])])]

def places : V := (validate packageEnv .AsyncAPI3 (.dict placesInput)).getD .none

set_option maxRecDepth 20000

theorem places_made : validate packageEnv .AsyncAPI3 (.dict placesInput) = some places := sameResult_eq (by decide +kernel)

theorem places_sound : Sound .ascii packageEnv.digits places :=
  (C47_accepted packageEnv packageEnv_checks _ (plain_input rfl).2 places places_made).2.1

theorem places_valid : Valid .ascii packageEnv.digits places (.model .AsyncAPI3) :=
  (C47_accepted packageEnv packageEnv_checks _ (plain_input rfl).2 places places_made).1

theorem places_noRoot : NoExtraRoot places := noRoot_sound (k := 12) (by decide +kernel)

/-- What stands at a location. -/
def locate : V → List LocStep → Option V
  | v, [] => some v
  | .list l, .index i :: ss => match l[i]? with | some w => locate w ss | none => none
  | .dict d, .key k :: ss => match lookup k d with | some w => locate w ss | none => none
  | .inst c fs ex set, .field f :: ss =>
    if fieldAt (.inst c fs ex set) f then locate ((V.inst c fs ex set).attr f) ss else none
  | _, _ => none

theorem locate_at {v w : V} {steps} (h : locate v steps = some w) : TAt v steps w := by
  fun_induction locate v steps with
  | case1 => cases h; exact .nil
  | case2 l i ss u hi ih => exact .cons (.item hi) (ih h)
  | case4 d k ss u hk ih => exact .cons (.entry (lookup_some_mem hk)) (ih h)
  | case6 c fs ex set f ss hf ih => exact .cons (fieldAt_child hf) (ih h)
  | _ => cases h

/-- The JSON names on the way. -/
def names : V → List LocStep → Option (List Str)
  | _, [] => some []
  | .dict d, .key k :: ss => match lookup k d with | some w => (names w ss).map (k :: ·) | none => none
  | .inst c fs ex set, .field f :: ss =>
    if f = p!"root" then (match lookup f fs with | some w => names w ss | none => none)
    else match (classDef c).fields.find? (fun g => g.name == f), lookup f fs with
      | some g, some w => (names w ss).map (g.alias.getD g.name :: ·)
      | _, _ => none
  | _, _ => none

theorem names_path {v : V} {steps path} (h : names v steps = some path) : JsonPath v steps path := by
  fun_induction names v steps generalizing path with
  | case1 => cases h; exact .nil
  | case2 d k ss u hk ih =>
    obtain ⟨p, hp, rfl⟩ := Option.map_eq_some_iff.1 h
    exact .entry (lookup_some_mem hk) (ih hp)
  | case4 c fs ex set ss u hk ih => exact .root (lookup_some_mem hk) (ih h)
  | case6 c fs ex set f ss hf g w hl hg ih =>
    obtain ⟨p, hp, rfl⟩ := Option.map_eq_some_iff.1 h
    have h1 := List.find?_some hg
    simp only [beq_iff_eq] at h1
    subst h1
    exact .field (List.mem_of_find?_eq_some hg) hf (lookup_some_mem hl) (ih hp)
  | _ => cases h

/-- The location of the variable `v` of the server `s`. -/
def varAt (k : Str) : List LocStep := [.field p!"servers", .field p!"root", .key p!"s", .field p!"variables", .key k]

/-- The variable `v` is what `#/servers/s/variables/v` leads to. -/
example : ∃ c fs ex set, TAt places (varAt p!"v") (.inst c fs ex set) ∧ TDenotes places p!"#/servers/s/variables/v" (.inst c fs ex set) := by
  have h : (match locate places (varAt p!"v") with | some (.inst ..) => true | _ => false) = true := by decide +kernel
  split at h
  · rename_i c fs ex set e
    have hat := locate_at e
    refine ⟨c, fs, ex, set, hat, ?_⟩
    exact C63_pointer _ _ places _ _ [p!"servers", p!"s", p!"variables", p!"v"] places_sound places_noRoot hat
      (names_path (by decide +kernel)) (by simp [Addressable, varAt, LocStep.IsIndex, LocStep.BadKey]) (by simp [varAt]) (by simp [varAt])
  · cases h

/-- The variable `a/b` cannot be referred to. -/
example : ∃ c fs ex set, TAt places (varAt p!"a/b") (.inst c fs ex set) ∧
    ¬ ∃ r path, Spells r path ∧ Leads (.inst c fs ex set) places path (varAt p!"a/b") := by
  have h : (match locate places (varAt p!"a/b") with | some (.inst ..) => true | _ => false) = true := by decide +kernel
  split at h
  · rename_i c fs ex set e
    have hat := locate_at e
    refine ⟨c, fs, ex, set, hat, fun h => ?_⟩
    have := ((C63_exact _ _ places _ ⟨_, _, _, _, rfl⟩ _ places_sound places_noRoot hat).1 h).1 (.key p!"a/b") (by simp [varAt])
    exact this.2 (.inr (by decide))
  · cases h

/-- The first tag of `info` cannot be referred to. -/
example : ∃ c fs ex set, TAt places [.field p!"info", .field p!"tags", .index 0] (.inst c fs ex set) ∧
    ¬ ∃ r path, Spells r path ∧ Leads (.inst c fs ex set) places path [.field p!"info", .field p!"tags", .index 0] := by
  have h : (match locate places [.field p!"info", .field p!"tags", .index 0] with | some (.inst ..) => true | _ => false) = true := by decide +kernel
  split at h
  · rename_i c fs ex set e
    have hat := locate_at e
    refine ⟨c, fs, ex, set, hat, fun h => ?_⟩
    have := ((C63_exact _ _ places _ ⟨_, _, _, _, rfl⟩ _ places_sound places_noRoot hat).1 h).1 (.index 0) (by simp)
    exact this.1 trivial
  · cases h

/-- `#/components/schemas/User/properties/id` is refused, although the document has such a place in JSON. -/
example : ∃ m, resolve table (graphOf places) p!"#/components/schemas/User/properties/id" = some (.error (.valueError m)) ∧
    ∀ t, m ≠ .circular t := by
  have h : (match locate places [.field p!"components", .field p!"schemas", .field p!"root", .key p!"User"] with
      | some (.inst .Schema ..) => true | _ => false) = true := by decide +kernel
  split at h
  · rename_i fs ex set e
    have hat := locate_at e
    have hp : TDenotes places p!"#/components/schemas/User" _ :=
      C63_pointer _ _ places _ _ [p!"components", p!"schemas", p!"User"] places_sound places_noRoot hat
        (names_path (by decide +kernel)) (by simp [Addressable, LocStep.IsIndex, LocStep.BadKey]) (by simp) (by simp)
    obtain ⟨-, segs, h1, h2⟩ := hp
    have : Spells p!"#/components/schemas/User" [p!"components", p!"schemas", p!"User"] :=
      pointer_spells (path := [p!"components", p!"schemas", p!"User"]) (by simp) (by simp)
    cases spells_unique h1 this
    exact C63_inside_schema _ _ places _ (graphOf_valid places_valid) places_sound places_noRoot _ [p!"id"] p!"properties" _ _ _ _ h2
      (pointer_spells (path := [p!"components", p!"schemas", p!"User", p!"properties", p!"id"]) (by simp) (by simp)) (by decide)
  · cases h

/-- And `#/components/schemas/User` and `#/components/schemas/User/externalDocs` are found. -/
example : (∃ r, resolve table (graphOf places) p!"#/components/schemas/User" = some (.ok (some r))) ∧
    ∃ r, resolve table (graphOf places) p!"#/components/schemas/User/externalDocs" = some (.ok (some r)) := by
  constructor
  · have h : (match locate places [.field p!"components", .field p!"schemas", .field p!"root", .key p!"User"] with
        | some (.inst .Schema ..) => true | _ => false) = true := by decide +kernel
    split at h
    · rename_i fs ex set e
      obtain ⟨v, ty, p, h, -⟩ := C63_resolves _ _ places _ (graphOf_valid places_valid) _ _ _ _ _
        [p!"components", p!"schemas", p!"User"] places_sound places_noRoot (locate_at e)
        (names_path (by decide +kernel)) (by simp [Addressable, LocStep.IsIndex, LocStep.BadKey]) (by simp) (by simp)
      exact ⟨_, h⟩
    · cases h
  · have h : (match locate places [.field p!"components", .field p!"schemas", .field p!"root", .key p!"User", .field p!"external_docs"] with
        | some (.inst .ExternalDocumentation ..) => true | _ => false) = true := by decide +kernel
    split at h
    · rename_i fs ex set e
      obtain ⟨v, ty, p, h, -⟩ := C63_resolves _ _ places _ (graphOf_valid places_valid) _ _ _ _ _
        [p!"components", p!"schemas", p!"User", p!"externalDocs"] places_sound places_noRoot (locate_at e)
        (names_path (by decide +kernel)) (by simp [Addressable, LocStep.IsIndex, LocStep.BadKey]) (by simp) (by simp)
      exact ⟨_, h⟩
    · cases h

/-- In the document of C53, `#/components/messages/n` goes on as `#/components/messages/o`. -/
example : SameOutcome table (graphOf small) p!"#/components/messages/n" p!"#/components/messages/o" := by
  have hsm := C47_accepted packageEnv packageEnv_checks _ (plain_input rfl).2 small small_made
  have h : (match locate small [.field p!"components", .field p!"messages", .field p!"root", .key p!"n"] with
      | some (.inst .Reference [(k, .str s)] _ _) => k == p!"ref" && s == p!"#/components/messages/o" | _ => false) = true := by decide +kernel
  split at h
  · rename_i k s ex set e
    simp only [Bool.and_eq_true, beq_iff_eq] at h
    obtain ⟨rfl, rfl⟩ := h
    have hat := locate_at e
    refine C63_follows _ _ small _ (graphOf_valid hsm.1) _ _ _ [p!"components", p!"messages", p!"n"] hsm.2.1
      (noRoot_sound (k := 12) (by decide +kernel)) hat ⟨_, _, _, rfl, List.mem_singleton_self _⟩ (names_path (by decide +kernel)) ?_ (by simp)
    refine C63_collections _ _ small _ _ hsm.2.1 hat (by simp [LocStep.IsIndex]) ?_
    intro l k m e
    refine ⟨[.field p!"components", .field p!"messages"], ?_⟩
    match l, e with
    | [], e => simp at e
    | [a], e => simp at e
    | [a, b], e => simp at e
    | [a, b, c], e => simp only [List.cons_append, List.nil_append, List.cons.injEq] at e; simp [← e.1, ← e.2.1, ← e.2.2.1]
    | a :: b :: c :: d :: l, e => cases l <;> simp at e
  · cases h

end Verif.Props
