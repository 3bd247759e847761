import Verif.Lemmas.Extract
import Verif.Props.Removes
import Verif.Props.Slots
/-!
# C61: replacing an object by a Reference

Moving an object to the components and putting a Reference in its place ("move duplicate objects to components, and
replace them with references", protocols.py) keeps a document accepted, unless a Reference leads below the object.
-/
namespace Verif.Props
open Verif Verif.Gen Verif.Spec Verif.Pyd Verif.Mutate Verif.Document

/-! ### Statement -/

theorem below_into {doc : V} {s : Str} {loc : List LocStep} (h : Below doc s loc) : Into doc s loc := by
  obtain ⟨r, path, k, rest, x, h1, h2, h3⟩ := h
  exact ⟨r, path, k :: rest, x, h1, h2, h3⟩

/-- Nothing stands below a Reference but strings. -/
theorem ref_at {U : Uni} {limit : Option Nat} {v : V} (hs : Sound U limit v) {s} (hr : TRef v s) {st ss w}
    (h : TAt v (st :: ss) w) : w = .str s := by
  obtain ⟨fs, ex, set, rfl, hm⟩ := hr
  cases hs with
  | inst hv _ _ _ =>
    cases hv with
    | model hfs hty hcon =>
      have hn : (fs.map (·.1)).Nodup := hfs ▸ names_nodup _
      have hfs' : fs.map (·.1) = [p!"ref"] := hfs
      cases h with
      | cons h1 h2 =>
        cases h1 with
        | @field _ _ _ _ f u hf he hu _ =>
          have hfn : f.name = p!"ref" := by
            have : f.name ∈ fs.map (·.1) := List.mem_map.2 ⟨_, hu, rfl⟩
            rw [hfs'] at this
            simpa using this
          rw [hfn] at hu
          cases dict_unique hn hu hm
          cases h2 with
          | nil => rfl
          | cons h _ => cases h

/-- A reference that leads to an instance of class `c` is right exactly where that class is expected. -/
theorem ends_right {U : Uni} {limit : Option Nat} {doc : V} (hs : Sound U limit doc) {r c} (he : EndsIn doc r c) {e} :
    TRefOk doc e r ↔ ∃ cs, e = some cs ∧ c ∈ cs := by
  obtain ⟨hc, z, fs, ex, set, h1, h2⟩ := he
  constructor
  · intro hok
    rcases refOk_along hs hok h1 with ⟨y, h3, h4⟩ | ⟨y, c', fs', ex', set', cs, h3, h4, h5, h6, h7⟩
    all_goals rcases Relation.ReflTransGen.cases_head h3 with rfl | ⟨u, ⟨v, hv, hr⟩, -⟩
    · exact absurd h4 h2.1
    · cases tdenotes_unique hs hv h2
      obtain ⟨_, _, _, e, _⟩ := hr
      cases e
      exact absurd rfl hc
    · cases tdenotes_unique hs h2 h4
      exact ⟨cs, h6, h7⟩
    · cases tdenotes_unique hs hv h2
      obtain ⟨_, _, _, e, _⟩ := hr
      cases e
      exact absurd rfl hc
  · rintro ⟨cs, h6, h7⟩
    exact .inr ⟨z, c, fs, ex, set, cs, h1, h2, hc, h6, h7⟩

/-- **C61.** In an accepted document an object of class `c` is replaced by a Reference that leads to another object of that
class. The new document is accepted if and only if a Reference to class `c` is expected there, and no Reference leads to
something below the object. (References to the object itself are right still: they lead to the Reference, and on.) -/
theorem C61_exact (U : Uni) (limit : Option Nat) (doc doc' x' : V) (steps : List LocStep) (c : Cls) (fs ex : List (Str × V))
    (set : List Str) (r : Str) (hc : c ≠ .Reference) (hat : TAt doc steps (.inst c fs ex set)) (hr : TRef x' r)
    (h : Replaced (.inst c fs ex set) x' doc steps doc') (he : EndsIn doc r c) (hi : ¬ Into doc r steps)
    (hv : Valid U limit doc (.model .AsyncAPI3)) (hs : Sound U limit doc) (hcl : Clean doc (.model .AsyncAPI3))
    (hv' : Valid U limit doc' (.model .AsyncAPI3)) (hs' : Sound U limit doc') (hcl' : Clean doc' (.model .AsyncAPI3))
    (hp : Validator.unified.run U doc = some doc) :
    Validator.unified.run U doc' = some doc' ↔
      (∃ cs, Expects U mappings (render steps) cs ∧ c ∈ cs) ∧
      ∀ ss w s, TAt doc' ss w → TRef w s → ¬ Below doc s steps := by
  have hx1 : ∃ c0 fs0 ex0 set0, V.inst c fs ex set = .inst c0 fs0 ex0 set0 := ⟨_, _, _, _, rfl⟩
  have hx2 : ∃ c fs ex set, x' = .inst c fs ex set := by obtain ⟨_, _, _, e, _⟩ := hr; exact ⟨_, _, _, _, e⟩
  have hn : ∀ s, ¬ TRef (.inst c fs ex set) s := by
    rintro s ⟨_, _, _, e, _⟩
    cases e
    exact hc rfl
  have he' : EndsIn doc' r c := ends_changed hx1 hx2 hn h he hi
  have hnew : TAt doc' steps x' := at_new (by obtain ⟨_, _, _, _, rfl⟩ := hx2; simp) h hs ⟨_, hat⟩
  rw [run_iff hv' hs' hcl', demands_iff]
  simp only [← C14_exact]
  have hd := demands_iff.1 ((run_iff hv hs hcl .unified doc).1 hp).2
  constructor
  · rintro ⟨-, h1⟩
    exact ⟨(ends_right hs' he').1 (rightAt_iff.1 (h1 steps x' r hnew hr)),
      fun ss w s ha hw => below_wrong rfl hc hr h hs hs' (rightAt_iff.1 (h1 ss w s ha hw))⟩
  · rintro ⟨h1, h2⟩
    refine ⟨trivial, fun ss w s ha hw => ?_⟩
    rcases at_changed (by obtain ⟨_, _, _, _, rfl⟩ := hx2; simp) (by simp) h ha hw with ⟨w0, ha0, hw0⟩ | ⟨rest, rfl, hx⟩
    · exact rightAt_iff.2 <| refOk_changed rfl hc hr h he' (rightAt_iff.1 (hd ss w0 s ha0 hw0))
        fun y hy ⟨path, k, rest, h3, h4⟩ => h2 ss w s ha hw ⟨y, path, k, rest, _, hy, h3, h4⟩
    · cases rest with
      | nil =>
        cases hx
        have e : s = r := tref_unique (sound_within hs' (at_within hnew)) hw hr
        subst e
        rw [List.append_nil]
        exact rightAt_iff.2 ((ends_right hs' he').2 h1)
      | cons st rest =>
        cases ref_at (sound_within hs' (at_within hnew)) hr hx
        obtain ⟨_, _, _, e, _⟩ := hw
        cases e

/-! ### Places above the entries of the components -/

theorem declared_field {l : List LocStep} {n : Str} {o t} (h : Declared (l ++ [.field n]) o t) :
    ∃ o0 t0 c f, Declared l o0 t0 ∧ Ty.model c ∈ members t0 ∧ f ∈ (classDef c).fields ∧ f.exclude = false ∧ f.name = n ∧ t = f.ty ∧
      o = (c, n) := by
  generalize hl : l ++ [LocStep.field n] = ll at h
  cases h with
  | spec => simp at hl
  | item _ _ => obtain ⟨-, e⟩ := List.append_inj' hl rfl; cases e
  | entry _ _ => obtain ⟨-, e⟩ := List.append_inj' hl rfl; cases e
  | field h1 h2 h3 h4 =>
    obtain ⟨rfl, e⟩ := List.append_inj' hl rfl
    cases e
    exact ⟨_, _, _, _, h1, h2, h3, h4, rfl, rfl, rfl⟩

theorem declared_nil {o t} (h : Declared [] o t) : t = .model .AsyncAPI3 := by
  generalize hl : ([] : List LocStep) = ll at h
  cases h with
  | spec => rfl
  | _ => simp at hl

/-- The model classes among the alternatives. -/
def modelsOf (t : Ty Cls) : List Cls := (members t).filterMap fun | .model c => some c | _ => none

theorem mem_modelsOf {t : Ty Cls} {c : Cls} : c ∈ modelsOf t ↔ Ty.model c ∈ members t := by
  unfold modelsOf
  rw [List.mem_filterMap]
  constructor
  · rintro ⟨m, hm, he⟩
    split at he <;> cases he
    exact hm
  · exact fun h => ⟨_, h, rfl⟩

theorem declared_components {o t} (h : Declared [.field p!"components"] o t) : modelsOf t = [.Components] := by
  obtain ⟨o0, t0, c, f, h1, h2, h3, -, h5, rfl, -⟩ := declared_field (l := []) h
  rw [declared_nil h1, ← mem_modelsOf] at h2
  have e : c = .AsyncAPI3 := List.mem_singleton.1 h2
  subst e
  have key : ∀ f ∈ (classDef .AsyncAPI3).fields, f.name = p!"components" → modelsOf f.ty = [.Components] := by decide
  exact key f h3 h5

/-- A class of the entries of `components.F`. -/
def ComponentClass (F : Str) (c : Cls) : Prop :=
  ∃ f ∈ (classDef .Components).fields, f.name = F ∧ ∃ C, Ty.model C ∈ members f.ty ∧
    ∃ g ∈ (classDef C).fields, g.name = p!"root" ∧ ∃ t, g.ty = .dict t ∧ Ty.model c ∈ members t

theorem components_shape : ∀ f ∈ (classDef .Components).fields, .Reference ∉ modelsOf f.ty ∧
    ∀ c ∈ modelsOf f.ty, ∀ g ∈ (classDef c).fields, g.name = p!"root" → .Reference ∉ modelsOf g.ty := by
  decide +kernel

/-- No Reference can stand above the entries of the components. -/
theorem no_slot_above {F k : Str} {steps : List LocStep} {o cs} (h : Slot steps o cs)
    (hp : steps <+: [.field p!"components", .field F, .field p!"root", .key k]) :
    steps = [.field p!"components", .field F, .field p!"root", .key k] := by
  obtain ⟨t, hd, hr, -⟩ := h
  have hF : ∀ {o t}, Declared [.field p!"components", .field F] o t → ∃ f ∈ (classDef .Components).fields, t = f.ty := by
    intro o t h
    obtain ⟨o0, t0, c, f, h1, h2, h3, -, h5, rfl, -⟩ := declared_field (l := [.field p!"components"]) h
    rw [← mem_modelsOf, declared_components h1, List.mem_singleton] at h2
    subst h2
    exact ⟨f, h3, rfl⟩
  rcases steps with _ | ⟨a, _ | ⟨b, _ | ⟨c, _ | ⟨d, rest⟩⟩⟩⟩
  · rw [declared_nil hd] at hr
    simp [members] at hr
  · obtain ⟨tail, e⟩ := hp
    simp only [List.cons_append, List.cons.injEq] at e
    obtain ⟨rfl, -⟩ := e
    rw [← mem_modelsOf, declared_components hd] at hr
    simp at hr
  · obtain ⟨tail, e⟩ := hp
    simp only [List.cons_append, List.cons.injEq] at e
    obtain ⟨rfl, rfl, -⟩ := e
    obtain ⟨f, hf, rfl⟩ := hF hd
    exact absurd (mem_modelsOf.2 hr) (components_shape f hf).1
  · obtain ⟨tail, e⟩ := hp
    simp only [List.cons_append, List.cons.injEq] at e
    obtain ⟨rfl, rfl, rfl, -⟩ := e
    obtain ⟨o0, t0, c, g, h1, h2, h3, -, h5, rfl, -⟩ := declared_field (l := [.field p!"components", .field F]) hd
    obtain ⟨f, hf, rfl⟩ := hF h1
    exact absurd (mem_modelsOf.2 hr) ((components_shape f hf).2 c (mem_modelsOf.2 h2) g h3 h5)
  · obtain ⟨tail, e⟩ := hp
    simp only [List.cons_append, List.cons.injEq, List.append_eq_nil_iff] at e
    obtain ⟨rfl, rfl, rfl, rfl, rfl, -⟩ := e
    rfl

/-- **C61.** The other validators only want of the new Reference what they want of any: that it is right where it stands. -/
theorem C61_others (U : Uni) (limit : Option Nat) (doc doc' x x' : V) (steps : List LocStep) (r : Str) (hx : x ≠ .none)
    (hat : TAt doc steps x) (hr : TRef x' r) (h : Replaced x x' doc steps doc')
    (hv : Valid U limit doc (.model .AsyncAPI3)) (hs : Sound U limit doc) (hcl : Clean doc (.model .AsyncAPI3))
    (hv' : Valid U limit doc' (.model .AsyncAPI3)) (hs' : Sound U limit doc') (hcl' : Clean doc' (.model .AsyncAPI3))
    (p : Validator) (hnot : p ≠ .unified) (hp : p.run U doc = some doc) :
    p.run U doc' = some doc' ↔ DemandsOf U doc' steps r p := by
  have hx2 : ∃ c fs ex set, x' = .inst c fs ex set := by obtain ⟨_, _, _, e, _⟩ := hr; exact ⟨_, _, _, _, e⟩
  have hz : x' ≠ .none := by obtain ⟨_, _, _, _, rfl⟩ := hx2; simp
  have hnew : TAt doc' steps x' := at_new hz h hs ⟨_, hat⟩
  obtain ⟨o, cs, hslot⟩ := C47_slots hcl' hnew hr
  have hkey : ∀ {F pre s}, TChecked doc F pre s → TChecked doc' F pre s := by
    rintro F pre s (h1 | ⟨rest, key, h1, h2, w, h3⟩)
    · exact .inl h1
    · rcases at_keeps hz h h3 with h4 | ⟨h4, h5⟩
      · exact .inr ⟨rest, key, h1, h2, h4⟩
      · exact absurd (no_slot_above hslot h4) h5
  rw [run_iff hv' hs' hcl', demands_iff]
  have hd := demands_iff.1 ((run_iff hv hs hcl p doc).1 hp).2
  constructor
  · exact fun h1 => h1.2 steps x' r hnew hr
  · refine fun h1 => ⟨rfl, fun ss w s ha hw => ?_⟩
    rcases at_changed (by obtain ⟨_, _, _, _, rfl⟩ := hx2; simp) hx h ha hw with ⟨w0, ha0, hw0⟩ | ⟨rest, rfl, hxr⟩
    · have := hd ss w0 s ha0 hw0
      cases p
      case unified => exact absurd rfl hnot
      case tags => exact fun hpl => hkey (this hpl)
      case externalDocs => exact fun hpl => hkey (this hpl)
      all_goals trivial
    · cases rest with
      | nil =>
        cases hxr
        have e : s = r := tref_unique (sound_within hs' (at_within hnew)) hw hr
        subst e
        rw [List.append_nil]
        exact h1
      | cons st rest =>
        cases ref_at (sound_within hs' (at_within hnew)) hr hxr
        obtain ⟨_, _, _, e, _⟩ := hw
        cases e

/-! ### Moving an object to the components -/

theorem rootless_class {U : Uni} {limit : Option Nat} {c : Cls} (hk : (classDef c).kind = .extendable)
    (hn : p!"root" ∉ (classDef c).fields.map (·.name)) {fs ex set} (h : Valid U limit (.inst c fs ex set) (.model c)) :
    ∀ d, ¬ TRoot (.inst c fs ex set) d := by
  rintro d ⟨_, _, _, _, e, hr⟩
  cases e
  cases h with
  | model hfs hty hcon =>
    rcases hr with hr | ⟨-, hr⟩
    · exact hn (hfs ▸ List.mem_map.2 ⟨_, hr, rfl⟩)
    · obtain ⟨r, hr⟩ := extension_start (hcon.extensions hk _ hr)
      cases hr

/-- All alternatives are model classes, or null. -/
def onlyModels (t : Ty Cls) : Bool := (members t).all fun | .model _ => true | .none => true | _ => false

theorem valid_model {U : Uni} {limit : Option Nat} {v : V} {t : Ty Cls} (h : Valid U limit v t) (ht : onlyModels t = true)
    (hv : v ≠ .none) : ∃ c ∈ modelsOf t, Valid U limit v (.model c) := by
  have key : ∀ m ∈ members t, Valid U limit v m → ∃ c ∈ modelsOf t, Valid U limit v (.model c) := by
    intro m hm hvm
    have := List.all_eq_true.1 ht m hm
    split at this
    · exact ⟨_, mem_modelsOf.2 hm, hvm⟩
    · cases hvm; exact absurd rfl hv
    · cases this
  cases h with
  | union hm h => exact key _ hm h
  | model h1 h2 h3 => exact key _ (List.mem_singleton_self _) (.model h1 h2 h3)
  | none => exact absurd rfl hv
  | _ => simp [onlyModels, members] at ht

theorem at_field {v w : V} {n : Str} {ss : List LocStep} (h : TAt v (.field n :: ss) w) :
    ∃ c fs ex set f u, v = .inst c fs ex set ∧ f ∈ (classDef c).fields ∧ f.name = n ∧ (n, u) ∈ fs ∧ u ≠ .none ∧ TAt u ss w := by
  cases h with
  | cons h1 h2 =>
    generalize hs : LocStep.field n = s at h1
    cases h1 with
    | field hf he hm hne => cases hs; exact ⟨_, _, _, _, _, _, rfl, hf, rfl, hm, hne, h2⟩
    | _ => cases hs

/-- The paths of the entries of the components. -/
theorem component_leads {U : Uni} {limit : Option Nat} {doc : V} (hv : Valid U limit doc (.model .AsyncAPI3)) (hs : Sound U limit doc)
    {F k : Str} {x : V} (h : TAt doc [.field p!"components", .field F, .field p!"root", .key k] x) :
    ∃ f ∈ (classDef .Components).fields, f.name = F ∧ ∀ seg, F = seg ∨ f.alias = some seg →
      Leads x doc [p!"components", seg, k] [.field p!"components", .field F, .field p!"root", .key k] := by
  obtain ⟨fs, ex, set, rfl⟩ := valid_inst hv
  obtain ⟨_, _, _, _, f, w, e, hf, hn, hm, hne, h⟩ := at_field h
  cases e
  have key : ∀ f ∈ (classDef .AsyncAPI3).fields, f.name = p!"components" → modelsOf f.ty = [.Components] ∧ onlyModels f.ty = true := by
    decide
  have hrl := rootless_class (by decide) (by decide) hv
  have hv1 := valid_field hv hf (by rwa [hn])
  obtain ⟨c1, hc1, hv1⟩ := valid_model hv1 (key f hf hn).2 hne
  rw [(key f hf hn).1, List.mem_singleton] at hc1
  subst hc1
  obtain ⟨fs1, ex1, set1, rfl⟩ := valid_inst hv1
  have hrl1 := rootless_class (by decide) (by decide) hv1
  obtain ⟨_, _, _, _, f1, w1, e, hf1, hn1, hm1, hne1, h⟩ := at_field h
  cases e
  refine ⟨f1, hf1, hn1, fun seg hseg => ?_⟩
  obtain ⟨_, _, _, _, f2, w2, e, hf2, hn2, hm2, hne2, h3⟩ := at_field h
  subst e
  cases h3 with
  | cons h1 h2 =>
    cases h2
    cases h1 with
    | entry hk =>
      have := Leads.field hrl hf (.inl hn) (by rwa [hn]) hne (Leads.field hrl1 hf1 (k := seg) (by rwa [hn1]) (by rwa [hn1]) hne1
        (.root hm2 (.entry hk .nil)))
      rwa [hn, hn1] at this

theorem clean_uniform {v w : V} {steps} (h : TAt v steps w) : ∀ {l0 o t}, Declared l0 o t → Clean v t → ¬ Data w →
    ∃ o' t', (∀ l, Declared l o t → Declared (l ++ steps) o' t') ∧ Clean w t' := by
  induction h with
  | nil => intro l o t hd hc _; exact ⟨o, t, fun l h => by rwa [List.append_nil], hc⟩
  | @cons v s u ss w hch hat ih =>
    intro l0 o t hd hc hw
    rcases clean_member hc (declared_flat hd) with hda | ⟨m, hm, hcm, hnu⟩
    · exact absurd (data_at (.cons hch hat) hda) hw
    · have step : ∀ {o' u'}, (∀ l, Declared l o t → Declared (l ++ [s]) o' u') → Clean u u' →
          ∃ o'' t'', (∀ l, Declared l o t → Declared (l ++ s :: ss) o'' t'') ∧ Clean w t'' := by
        intro o' u' hd' hc'
        obtain ⟨o'', t'', h1, h2⟩ := ih (hd' _ hd) hc' hw
        refine ⟨o'', t'', fun l hl => ?_, h2⟩
        have := h1 _ (hd' l hl)
        rwa [List.append_assoc, List.singleton_append] at this
      cases hcm with
      | data h => exact absurd (data_at (.cons hch hat) h) hw
      | list h => cases hch with | item hi => exact step (fun _ hd => .item hd hm) (h _ (List.mem_of_getElem? hi))
      | dict h => cases hch with | entry hk => exact step (fun _ hd => .entry hd hm) (h _ hk)
      | union => exact absurd rfl (hnu _)
      | model h _ => cases hch with | field hf he hk _ => exact step (fun _ hd => .field hd hm hf he) (h _ hf _ hk)

/-- What is declared inside an object does not depend on where it stands. -/
theorem clean_inside {c : Cls} {fs ex set} {w : V} {rest : List LocStep} (h : TAt (.inst c fs ex set) rest w) (hc : Clean (.inst c fs ex set) (.model c))
    {l0 o0 t0} (hd : Declared l0 o0 t0) (hm : Ty.model c ∈ members t0) (hw : ¬ Data w) (hr : rest ≠ []) :
    ∃ o' t', (∀ l o t, Declared l o t → Ty.model c ∈ members t → Declared (l ++ rest) o' t') ∧ Clean w t' := by
  cases h with
  | nil => exact absurd rfl hr
  | cons hch hat =>
    cases hch with
    | field hf he hk hne =>
      have hcl : ∀ {f : FieldDef Cls} {u}, f ∈ (classDef c).fields → (f.name, u) ∈ fs → Clean u f.ty := by
        intro f u hf hk
        cases hc with
        | data h => cases h
        | model h _ => exact h f hf _ hk
      have hcu := hcl hf hk
      obtain ⟨o', t', h1, h2⟩ := clean_uniform hat (.field hd hm hf he) hcu hw
      refine ⟨o', t', fun l o t hd hm => ?_, h2⟩
      have := h1 _ (.field hd hm hf he)
      rwa [List.append_assoc, List.singleton_append] at this

theorem component_declared {F k : Str} {c : Cls} (h : ComponentClass F c) :
    ∃ o t, Declared [.field p!"components", .field F, .field p!"root", .key k] o t ∧ Ty.model c ∈ members t := by
  obtain ⟨f, hf, rfl, C, hC, g, hg, hgn, t, hgt, hc⟩ := h
  obtain ⟨f0, hf0, hn0, he0, hm0⟩ : ∃ f0 ∈ (classDef .AsyncAPI3).fields, f0.name = p!"components" ∧ f0.exclude = false ∧
      .Components ∈ modelsOf f0.ty := by decide
  have hf1 : ∀ f ∈ (classDef .Components).fields, f.exclude = false ∧ ∀ C ∈ modelsOf f.ty, ∀ g ∈ (classDef C).fields, g.exclude = false := by
    decide
  have h1 := Declared.field .spec (List.mem_singleton_self _) hf0 he0
  have h2 := Declared.field h1 (mem_modelsOf.1 hm0) hf (hf1 f hf).1
  have h3 := Declared.field h2 hC hg ((hf1 f hf).2 C (mem_modelsOf.2 hC) g hg)
  rw [hn0, hgn] at h3
  rw [hgt] at h3
  exact ⟨_, t, Declared.entry (k := k) h3 (List.mem_singleton_self _), hc⟩

theorem root_shown : ∀ c ∈ Cls.all, ∀ f ∈ (classDef c).fields, f.name = p!"root" → f.exclude = false := by decide +kernel

theorem mem_dictSet_new {d : List (Str × V)} {k : Str} {v : V} (h : k ∉ d.map (·.1)) : (k, v) ∈ dictSet d k v := by
  rw [dictSet_fresh h]; simp

theorem same_slot {l l' : List LocStep} {o t} (h : Declared l o t) (h' : Declared l' o t) (hr : Ty.model .Reference ∈ members t) :
    ∃ cs, Slot l o cs ∧ Slot l' o cs := ⟨_, ⟨t, h, hr, rfl⟩, ⟨t, h', hr, rfl⟩⟩

/-- What is demanded where the class declarations allow a Reference. -/
theorem demands_slot {U : Uni} {doc : V} {s : Str} {l : List LocStep} {o cs} (h : Slot l o cs) (hk : OrdinaryKeys l) (hi : ¬ InlineTraitField l o) :
    DemandsOf U doc l s .unified ↔ TRefOk doc (some cs) s := by
  rw [DemandsOf, rightAt_iff, C15_expected_is_declared_partial U h hk hi]

/-- **C61.** An object of class `c` is put under a new key into the collection of the components for its class, and in its
old place a Reference to there. Provided that an accepted document is given, that the names on the way are ordinary (C16)
and the place is none where a wrong type is expected (C15), the new document is accepted if and only if no Reference leads to something below the
old place. -/
theorem C61_extract (U : Uni) (limit : Option Nat) (doc doc1 doc2 x' : V) (C : Cls) (d exC : List (Str × V)) (setC : List Str)
    (F seg k r : Str) (steps : List LocStep) (owner : Cls × Str) (cs : List Cls) (c : Cls) (fs ex : List (Str × V)) (set : List Str)
    -- the object, and the Reference that may stand in its place
    (hc : c ≠ .Reference) (hat : TAt doc steps (.inst c fs ex set)) (hslot : Slot steps owner cs) (hcs : c ∈ cs)
    (hsteps : OrdinaryKeys steps) (hk : Ordinary k) (hi : ¬ InlineTraitField steps owner)
    (hin : ∀ rest w s o cs, TAt (.inst c fs ex set) rest w → TRef w s → Slot (steps ++ rest) o cs →
      OrdinaryKeys rest ∧ ¬ InlineTraitField (steps ++ rest) o)
    -- it is put into the collection `components.F` under the new key `k`
    (hF : ComponentClass F c) (hcol : TAt doc [.field p!"components", .field F] (.inst C [(p!"root", .dict d)] exC setC)) (hnew : k ∉ d.map (·.1))
    (h1 : Replaced (.inst C [(p!"root", .dict d)] exC setC)
      (stepInst (.inst C [(p!"root", .dict d)] exC setC) (.set k (.inst c fs ex set))).1 doc [.field p!"components", .field F] doc1)
    -- and replaced by a Reference `#/components/F/k`
    (hat1 : TAt doc1 steps (.inst c fs ex set)) (h2 : Replaced (.inst c fs ex set) x' doc1 steps doc2) (hr : TRef x' r)
    (hspell : Spells r [p!"components", seg, k])
    (hseg : ∀ f ∈ (classDef .Components).fields, f.name = F → F = seg ∨ f.alias = some seg)
    (hv : Valid U limit doc (.model .AsyncAPI3)) (hs : Sound U limit doc) (hcl : Clean doc (.model .AsyncAPI3))
    (hv1 : Valid U limit doc1 (.model .AsyncAPI3)) (hs1 : Sound U limit doc1) (hcl1 : Clean doc1 (.model .AsyncAPI3))
    (hv2 : Valid U limit doc2 (.model .AsyncAPI3)) (hs2 : Sound U limit doc2) (hcl2 : Clean doc2 (.model .AsyncAPI3))
    (hp : Validator.unified.run U doc = some doc) :
    Validator.unified.run U doc2 = some doc2 ↔ ∀ ss w s, TAt doc2 ss w → TRef w s → ¬ Below doc1 s steps := by
  have hnd : ¬ Data (V.inst c fs ex set) := by intro h; cases h
  -- the new entry
  have hcol1 := at_new (by simp [stepInst, step]) h1 hs ⟨_, hcol⟩
  have hentry : TAt doc1 [.field p!"components", .field F, .field p!"root", .key k] (.inst c fs ex set) := by
    have hv0 := sound_inst (sound_within hs (at_within hcol))
    obtain ⟨f, hf, hfn⟩ : ∃ f ∈ (classDef C).fields, f.name = p!"root" := by
      have : p!"root" ∈ (classDef C).fields.map (·.name) := by rw [← valid_names hv0]; simp
      obtain ⟨f, hf, e⟩ := List.mem_map.1 this
      exact ⟨f, hf, e⟩
    have : TAt (stepInst (.inst C [(p!"root", .dict d)] exC setC) (.set k (.inst c fs ex set))).1 [.field p!"root", .key k] (.inst c fs ex set) := by
      simp only [stepInst, step]
      rw [← hfn]
      exact .cons (.field hf (root_shown C (Cls.mem_all C) f hf hfn) (List.mem_singleton_self _) (by simp))
        (.cons (.entry (mem_dictSet_new hnew)) .nil)
    exact tat_append hcol1 this
  -- the object, declared in both places
  obtain ⟨oE, tE, hdE, hmE⟩ := component_declared (k := k) hF
  obtain ⟨o0, t0, hd0, hcx⟩ := clean_at hat .spec hcl hnd
  rw [List.nil_append] at hd0
  have hm0 : Ty.model c ∈ members t0 ∧ Clean (.inst c fs ex set) (.model c) := by
    rcases clean_member hcx (declared_flat hd0) with h | ⟨m, hm, hcm, hnu⟩
    · exact absurd h hnd
    · cases hcm with
      | data h => exact absurd h hnd
      | union => exact absurd rfl (hnu _)
      | model a b => exact ⟨hm, .model a b⟩
  -- the document with the new entry is accepted
  have hp1 : Validator.unified.run U doc1 = some doc1 := by
    refine C53_add U limit doc doc1 C d exC setC _ k (.inst c fs ex set) hnew h1 hv hs hcl hv1 hs1 hcl1 .unified hp fun rest w s ha hw => ?_
    have hrest : rest ≠ [] := by
      rintro rfl
      cases ha
      obtain ⟨_, _, _, e, _⟩ := hw
      cases e
      exact hc rfl
    have hwd : ¬ Data w := by
      obtain ⟨_, _, _, rfl, _⟩ := hw
      intro h; cases h
    obtain ⟨o, t, hd, hcw⟩ := clean_inside ha hm0.2 hd0 hm0.1 hwd hrest
    have hdA := hd _ _ _ hd0 hm0.1
    have hdB := hd _ _ _ hdE hmE
    have href : Ty.model .Reference ∈ members t := by
      obtain ⟨_, _, _, rfl, _⟩ := hw
      rcases clean_member hcw (declared_flat hdA) with h | ⟨m, hm, hcm, hnu⟩
      · exact absurd h hwd
      · cases hcm with
        | data h => exact absurd h hwd
        | union => exact absurd rfl (hnu _)
        | model a b => exact hm
    obtain ⟨cs', hsA, hsB⟩ := same_slot hdA hdB href
    obtain ⟨hor, hnin⟩ := hin rest w s o cs' ha hw hsA
    have hokA : DemandsOf U doc (steps ++ rest) s .unified :=
      demands_iff.1 ((run_iff hv hs hcl .unified doc).1 hp).2 _ w s (tat_append hat ha) hw
    have hok1 := C53_stays_right U doc doc1 (grows_replaced (C53_new_entry C d exC setC k (.inst c fs ex set) hnew) h1 nofun) .unified _ s hokA
    have hkA : OrdinaryKeys (steps ++ rest) := by
      intro j hj
      rcases List.mem_append.1 hj with hj | hj
      · exact hsteps j hj
      · exact hor j hj
    have hkB : OrdinaryKeys ([.field p!"components", .field F, .field p!"root", .key k] ++ rest) := by
      intro j hj
      rcases List.mem_append.1 hj with hj | hj
      · simp only [List.mem_cons, List.not_mem_nil, or_false, reduceCtorEq, false_or, LocStep.key.injEq] at hj
        rw [hj]; exact hk
      · exact hor j hj
    have hnB : ¬ InlineTraitField ([.field p!"components", .field F, .field p!"root", .key k] ++ rest) o := by
      rintro ⟨ht, ho⟩
      refine hnin ⟨?_, ho⟩
      rcases List.mem_append.1 ht with ht | ht
      · exfalso
        simp only [List.mem_cons, List.not_mem_nil, or_false, reduceCtorEq, LocStep.field.injEq] at ht
        obtain ⟨f, hf, rfl, -⟩ := hF
        have : ∀ f ∈ (classDef .Components).fields, f.name ≠ p!"traits" := by decide
        rcases ht with ht | ht | ht
        · exact absurd ht (by decide)
        · exact this f hf ht.symm
        · exact absurd ht (by decide)
      · exact List.mem_append_right _ ht
    exact (demands_slot hsB hkB hnB).2 ((demands_slot hsA hkA hnin).1 hok1)
  -- where the new Reference leads
  obtain ⟨f, hf, hfn, hl⟩ := component_leads hv1 hs1 hentry
  have hden : TDenotes doc1 r (.inst c fs ex set) := ⟨Resolve.spells_not_external hspell, _, hspell, leads_walk ⟨_, _, _, _, rfl⟩ (hl seg (hseg f hf hfn))⟩
  have hends : EndsIn doc1 r c := ⟨hc, r, fs, ex, set, .refl, hden⟩
  have hnot : ¬ Into doc1 r steps := by
    rintro ⟨y, path, rest, x0, hy, hsp, hlx⟩
    have e : y = r := by
      rcases Relation.ReflTransGen.cases_head hy with e | ⟨u, ⟨v, hv, hr⟩, -⟩
      · exact e.symm
      · cases tdenotes_unique hs1 hv hden
        obtain ⟨_, _, _, e, _⟩ := hr
        cases e
        exact absurd rfl hc
    subst e
    have hpre := Resolve.spells_unique hspell hsp
    have hx0 := leads_replaced h2 hs1 hlx
    have hp := leads_prefix ⟨_, _, _, _, hx0⟩ hlx hs1 (hpre ▸ hl seg (hseg f hf hfn))
    rw [no_slot_above hslot hp] at hat
    obtain ⟨u, hu1, hu2⟩ := tat_split (l := [.field p!"components", .field F]) hat
    cases at_unique hu1 hs hcol
    obtain ⟨_, _, _, _, g, w, e, _, _, hm, _, h3⟩ := at_field hu2
    cases e
    rw [List.mem_singleton] at hm
    cases hm
    cases h3 with
    | cons h4 _ => cases h4 with | entry h5 => exact hnew (List.mem_map.2 ⟨_, h5, rfl⟩)
  rw [C61_exact U limit doc1 doc2 x' steps c fs ex set r hc hat1 hr h2 hends hnot hv1 hs1 hcl1 hv2 hs2 hcl2 hp1]
  exact ⟨fun h => h.2, fun h => ⟨⟨cs, (C14_exact U mappings _ _).1 (C15_expected_is_declared_partial U hslot hsteps hi), hcs⟩, h⟩⟩

/-- **C61.** In particular, no Reference leads below an entry with key `k`, if no Reference of the document goes on after
`k`. -/
theorem C61_unmentioned (doc doc' : V) (k : Str) (loc : List LocStep) (hk : .key k ∈ loc)
    (hno : ∀ w s path j rest, Within w doc ∨ Within w doc' → TRef w s → Spells s (path ++ j :: rest) → k ∉ path) :
    ∀ ss w s, TAt doc' ss w → TRef w s → ¬ Below doc s loc := by
  rintro ss w s hat hr ⟨r, path, j, rest, x, hh, hsp, hl⟩
  have hw : ∃ w, (Within w doc ∨ Within w doc') ∧ TRef w r := by
    rcases Relation.ReflTransGen.cases_tail hh with rfl | ⟨b, _, v, hd, hr'⟩
    · exact ⟨w, .inr (at_within hat), hr⟩
    · exact ⟨v, .inl (tdenotes_within hd), hr'⟩
  obtain ⟨w', hw', hr'⟩ := hw
  exact hno w' r path j rest hw' hr' hsp (leads_key hl hk)

/-! ### Examples -/

/-- A document with the message `m` of channel `c`, more messages in the components, and a schema. -/
def shelf (m : V) (more : List (Str × V)) (schema : V) : List (Str × V) := [
  (p!"asyncapi", .str p!"3.0.0"),
  (p!"info", .dict [(p!"title", .str p!"t"), (p!"version", .str p!"1")]),
  (p!"channels", .dict [(p!"c", .dict [(p!"address", .str p!"x"), (p!"messages", .dict [(p!"m", m)])])]),
  (p!"operations", .dict [(p!"o", .dict [(p!"action", .str p!"send"), (p!"channel", .dict [(p!"$ref", .str p!"#/channels/c")]),
    (p!"messages", .list [.dict [(p!"$ref", .str p!"#/channels/c/messages/m")]])])]),
  (p!"components", .dict [(p!"messages", .dict ((p!"n", .dict [(p!"name", .str p!"hi")]) :: more)),
    (p!"schemas", .dict [(p!"s", schema)]), (p!"tags", .dict [(p!"a", .dict [(p!"name", .str p!"a")])])])]

/-- The message, with a Reference in it. -/
def message : V := .dict [(p!"name", .str p!"hello"), (p!"payload", .dict [(p!"type", .str p!"string")]),
  (p!"tags", .list [.dict [(p!"$ref", .str p!"#/components/tags/a")]])]

def refTo (s : Str) : V := .dict [(p!"$ref", .str s)]

def plainSchema : V := .dict [(p!"type", .str p!"string")]

/-- The document the input is read as. -/
def readAs (d : List (Str × V)) : V := (validate packageEnv .AsyncAPI3 (.dict d)).getD .none

/-- The document, the document with the entry `new`, and the document in which the message is replaced. -/
def before : V := readAs (shelf message [] plainSchema)
def between : V := readAs (shelf message [(p!"new", message)] plainSchema)
def after : V := readAs (shelf (refTo p!"#/components/messages/new") [(p!"new", message)] plainSchema)

mutual
/-- The keys and the names of fields that are not null, at any depth. -/
def namesIn : V → List LocStep
  | .list l => namesOf l
  | .dict d => namesUnder .key d
  | .inst _ fs _ _ => namesUnder .field fs
  | _ => []

def namesOf : List V → List LocStep
  | [] => []
  | v :: l => namesIn v ++ namesOf l

def namesUnder (f : Str → LocStep) : List (Str × V) → List LocStep
  | [] => []
  | (_, .none) :: d => namesUnder f d
  | (k, v) :: d => f k :: namesIn v ++ namesUnder f d
end

theorem mem_namesOf {v : V} {l : List V} {st} (hv : v ∈ l) (hs : st ∈ namesIn v) : st ∈ namesOf l := by
  induction l with
  | nil => cases hv
  | cons x l ih =>
    rw [namesOf, List.mem_append]
    rcases List.mem_cons.1 hv with rfl | hv
    · exact .inl hs
    · exact .inr (ih hv)

theorem mem_namesUnder {f : Str → LocStep} {k : Str} {v : V} {d : List (Str × V)} {st} (he : (k, v) ∈ d) (hv : v ≠ .none)
    (hs : st = f k ∨ st ∈ namesIn v) : st ∈ namesUnder f d := by
  induction d with
  | nil => cases he
  | cons x d ih =>
    obtain ⟨j, u⟩ := x
    rcases List.mem_cons.1 he with e | he
    · cases e
      cases v with
      | none => exact absurd rfl hv
      | _ =>
        simp only [namesUnder, List.mem_append, List.mem_cons]
        rcases hs with hs | hs
        · exact .inl (.inl hs)
        · exact .inl (.inr hs)
    · have := ih he
      cases u <;> simp only [namesUnder, List.mem_append] <;> first | exact this | exact .inr this

theorem names_at {v w : V} {ss : List LocStep} (h : TAt v ss w) (hw : w ≠ .none) : ∀ st ∈ ss, (∃ i, st = .index i) ∨ st ∈ namesIn v := by
  induction h with
  | nil => intro _ h; cases h
  | @cons v s u ss w hch hat ih =>
    intro st hst
    have hu : u ≠ .none := by
      rintro rfl
      cases hat with
      | nil => exact hw rfl
      | cons h _ => cases h
    have hst' : st = s ∨ (∃ i, st = .index i) ∨ st ∈ namesIn u := by
      rcases List.mem_cons.1 hst with h | h
      · exact .inl h
      · exact .inr (ih hw st h)
    cases hch with
    | item hi =>
      rcases hst' with rfl | h | h
      · exact .inl ⟨_, rfl⟩
      · exact .inl h
      · exact .inr (by rw [namesIn]; exact mem_namesOf (List.mem_of_getElem? hi) h)
    | entry hm =>
      rcases hst' with rfl | h | h
      · exact .inr (by rw [namesIn]; exact mem_namesUnder hm hu (.inl rfl))
      · exact .inl h
      · exact .inr (by rw [namesIn]; exact mem_namesUnder hm hu (.inr h))
    | field _ _ hm _ =>
      rcases hst' with rfl | h | h
      · exact .inr (by rw [namesIn]; exact mem_namesUnder hm hu (.inl rfl))
      · exact .inl h
      · exact .inr (by rw [namesIn]; exact mem_namesUnder hm hu (.inr h))

/-- What stands one step below. -/
def childAt : V → LocStep → Option V
  | .list l, .index i => l[i]?
  | .dict d, .key k => lookup k d
  | .inst c fs ex set, .field n => if fieldAt (.inst c fs ex set) n then lookup n fs else none
  | _, _ => none

theorem childAt_sound {v w : V} {st : LocStep} (h : childAt v st = some w) : TChild v st w := by
  unfold childAt at h
  split at h
  · exact .item h
  · exact .entry (lookup_some_mem h)
  · split at h
    · rename_i hf
      have := fieldAt_child hf
      simpa only [V.attr, h, Option.getD_some] using this
    · cases h
  · cases h

/-- What stands at a location. -/
def valueAt (v : V) : List LocStep → Option V
  | [] => some v
  | st :: ss => match childAt v st with
    | some u => valueAt u ss
    | none => none

theorem valueAt_sound {v w : V} {ss : List LocStep} (h : valueAt v ss = some w) : TAt v ss w := by
  induction ss generalizing v with
  | nil => rw [valueAt] at h; cases h; exact .nil
  | cons st ss ih =>
    rw [valueAt] at h
    split at h
    · exact .cons (childAt_sound (by assumption)) (ih h)
    · cases h

/-- `channels.c.messages.m`. -/
def place : List LocStep := [.field p!"channels", .field p!"root", .key p!"c", .field p!"messages", .field p!"root", .key p!"m"]

def messageObj : V := (validate packageEnv .Message message).getD .none

def newRef : V := .inst .Reference [(p!"ref", .str p!"#/components/messages/new")] [] [p!"ref"]

/-- The messages of the components. -/
def collObj : V := (valueAt before [.field p!"components", .field p!"messages"]).getD .none

set_option maxRecDepth 20000

theorem before_made : validate packageEnv .AsyncAPI3 (.dict (shelf message [] plainSchema)) = some before :=
  sameResult_eq (by decide +kernel)

theorem between_made : validate packageEnv .AsyncAPI3 (.dict (shelf message [(p!"new", message)] plainSchema)) = some between :=
  sameResult_eq (by decide +kernel)

theorem after_made : validate packageEnv .AsyncAPI3 (.dict (shelf (refTo p!"#/components/messages/new") [(p!"new", message)] plainSchema)) = some after :=
  sameResult_eq (by decide +kernel)

theorem before_at : TAt before place messageObj := valueAt_sound (sameResult_eq (by decide +kernel))

theorem between_at : TAt between place messageObj := valueAt_sound (sameResult_eq (by decide +kernel))

theorem coll_at : TAt before [.field p!"components", .field p!"messages"] collObj := valueAt_sound (sameResult_eq (by decide +kernel))

theorem before_between : edit (fun i => (stepInst i (.set p!"new" messageObj)).1) [.field p!"components", .field p!"messages"] before = between :=
  Option.some.inj (sameResult_eq (a := some _) (b := between) (by decide +kernel))

theorem between_after : edit (fun _ => newRef) place between = after :=
  Option.some.inj (sameResult_eq (a := some _) (b := after) (by decide +kernel))

/-- A slot to which C61 applies. -/
theorem slot_message (k k2 : Str) : Slot [.field p!"channels", .field p!"root", .key k, .field p!"messages",
    .field p!"root", .key k2] (.Messages, p!"root") [.Message] := by
  have h0 := Declared.spec
  have h1 := h0.field (c := .AsyncAPI3) (f := ⟨p!"channels", none, .union [.model .Channels, .none], .null, false, true, none⟩) (by simp [members]) (by simp [classDef, defAsyncAPI3]) rfl
  have h2 := h1.field (c := .Channels) (f := ⟨p!"root", none, .dict (.union [.model .Channel, .model .Reference]), .required, false, false, none⟩) (by simp [members]) (by simp [classDef, defChannels]) rfl
  have h3 := h2.entry (k := k) (u := .union [.model .Channel, .model .Reference]) (by simp [members])
  have h4 := h3.field (c := .Channel) (f := ⟨p!"messages", none, .union [.model .Messages, .none], .null, false, true, none⟩) (by simp [members]) (by simp [classDef, defChannel]) rfl
  have h5 := h4.field (c := .Messages) (f := ⟨p!"root", none, .dict (.union [.model .Message, .model .Reference]), .required, false, false, none⟩) (by simp [members]) (by simp [classDef, defMessages]) rfl
  have h6 := h5.entry (k := k2) (u := .union [.model .Message, .model .Reference]) (by simp [members])
  exact ⟨_, h6, by simp [members], by decide⟩

theorem messages_class : ComponentClass p!"messages" .Message := by
  refine ⟨⟨p!"messages", none, .union [.model .Messages, .none], .null, false, true, none⟩, by simp [classDef, defComponents], rfl, .Messages,
    by simp [members], ⟨p!"root", none, .dict (.union [.model .Message, .model .Reference]), .required, false, false, none⟩,
    by simp [classDef, defMessages], rfl, _, rfl, by simp [members]⟩

/-- A check for ordinary names. -/
def ordinaryB (k : Str) : Bool := (k.all fun c => c ≠ '.' && c ≠ '\\' && c ≠ '[') && !(k == p!"root") && (mappings.all fun e => !(Str.split '.' e.1).contains k)

theorem ordinaryB_sound {k : Str} (h : ordinaryB k = true) : Ordinary k := by
  simp only [ordinaryB, Bool.and_eq_true, Bool.not_eq_true', beq_eq_false_iff_ne, ne_eq] at h
  exact ordinary_of_check h.1.1 h.1.2 h.2

/-- All the assumptions of `C61_extract` hold of this document, and so it is accepted after the message was moved. -/
example : Validator.unified.run .ascii after = some after := by
  obtain ⟨hv, hs, hc, -⟩ := C47_accepted packageEnv packageEnv_checks _ (plain_input rfl).2 before before_made
  obtain ⟨hv1, hs1, hc1, -⟩ := C47_accepted packageEnv packageEnv_checks _ (plain_input rfl).2 between between_made
  obtain ⟨hv2, hs2, hc2, -⟩ := C47_accepted packageEnv packageEnv_checks _ (plain_input rfl).2 after after_made
  have hcoll : ∃ c d ex set, collObj = .inst c [(p!"root", .dict d)] ex set ∧ p!"new" ∉ d.map (·.1) := by
    have : (match collObj with
        | .inst _ [(k, .dict d)] _ _ => k == p!"root" && !(d.map (·.1)).contains p!"new"
        | _ => false) = true := by decide +kernel
    split at this
    · rename_i c k d ex set e
      simp only [Bool.and_eq_true, beq_iff_eq, Bool.not_eq_true', ← Bool.not_eq_true, List.contains_iff_mem] at this
      exact ⟨c, d, ex, set, by rw [e, this.1], this.2⟩
    · cases this
  have hmsg : ∃ fs ex set, messageObj = .inst .Message fs ex set := by
    have : (match messageObj with | .inst .Message _ _ _ => true | _ => false) = true := by decide +kernel
    split at this
    · exact ⟨_, _, _, by assumption⟩
    · cases this
  have hnames : ∀ st ∈ namesIn messageObj, (∀ k, st ≠ .key k) ∧ st ≠ .field p!"traits" := by
    have : (namesIn messageObj).all (fun | .field n => !(n == p!"traits") | .key _ => false | _ => true) = true := by decide +kernel
    intro st hst
    have := List.all_eq_true.1 this st hst
    split at this
    · simp only [Bool.not_eq_true', beq_eq_false_iff_ne] at this
      exact ⟨by simp, by simpa using this⟩
    · cases this
    · rename_i h1 h2
      exact ⟨fun k e => h2 k e, fun e => h1 _ e⟩
  obtain ⟨C, d, exC, setC, hce, hnew⟩ := hcoll
  obtain ⟨fs, ex, set, hm⟩ := hmsg
  have h1 := C53_edit _ _ (fun i => (stepInst i (.set p!"new" messageObj)).1) before _ _ coll_at hs
  rw [before_between, hce, hm] at h1
  have h2 := C53_edit _ _ (fun _ => newRef) between _ _ between_at hs1
  rw [between_after, hm] at h2
  have hat := before_at
  have hat1 := between_at
  have hcol := coll_at
  rw [hm] at hat hat1 hnames
  rw [hce] at hcol
  have hplain := (plain_input (U := .ascii) (limit := none) (v := .dict (shelf message [] plainSchema)) rfl).1
  refine (C61_extract .ascii _ before between after newRef C d exC setC p!"messages" p!"messages" p!"new" p!"#/components/messages/new"
    place (.Messages, p!"root") [.Message] .Message fs ex set (by decide) hat (slot_message _ _) (by simp) ?_ (ordinaryB_sound (by decide +kernel))
    (fun h => absurd h.2 (by decide)) ?_ ?_ hcol hnew h1 hat1 h2 ⟨_, _, _, rfl, by simp⟩ ?_ (fun _ _ _ => .inl rfl) hv hs (hc hplain)
    hv1 hs1 (hc1 (plain_input (U := .ascii) (limit := none) rfl).1) hv2 hs2 (hc2 (plain_input (U := .ascii) (limit := none) rfl).1) ?_).2 ?_
  · intro k hk
    have : k = p!"c" ∨ k = p!"m" := by simpa [place] using hk
    rcases this with rfl | rfl
    · exact ordinaryB_sound (by decide +kernel)
    · exact ordinaryB_sound (by decide +kernel)
  · intro rest w s o cs ha hw _
    have hwn : w ≠ .none := by obtain ⟨_, _, _, rfl, _⟩ := hw; simp
    have hn := names_at ha hwn
    refine ⟨fun k hk => ?_, fun hi => ?_⟩
    · rcases hn _ hk with ⟨i, e⟩ | h
      · cases e
      · exact absurd rfl ((hnames _ h).1 k)
    · rcases List.mem_append.1 hi.1 with h | h
      · exact absurd h (by decide)
      · rcases hn _ h with ⟨i, e⟩ | h
        · cases e
        · exact absurd rfl (hnames _ h).2
  · exact messages_class
  · rw [Resolve.spells_iff]
    decide +kernel
  · have : (Validator.unified.run .ascii before).isSome = true := by decide +kernel
    obtain ⟨x, hx⟩ := Option.isSome_iff_exists.1 this
    rw [hx, run_only_checks hx]
  · refine C61_unmentioned between after p!"m" place (by decide) ?_
    intro w s path j rest hw hr hsp
    have h1 : s ∈ allRefs between ++ allRefs after := by
      rw [List.mem_append]
      exact hw.imp (mem_allRefs · hr) (mem_allRefs · hr)
    rw [Resolve.spells_iff] at hsp
    have h2 : ∀ s ∈ allRefs between ++ allRefs after, p!"m" ∉ (Resolve.segsOf s).dropLast := by decide +kernel
    have := h2 s h1
    rw [← hsp.2.1] at this
    intro hk
    apply this
    rw [List.dropLast_append_of_ne_nil (by simp)]
    exact List.mem_append_left _ hk

/-- A Reference to the payload of the message, which is accepted, is wrong after the message was moved. -/
example : (Validator.unified.run .ascii (readAs (shelf message [] (refTo p!"#/channels/c/messages/m/payload")))).isSome = true ∧
    (Validator.unified.run .ascii (readAs (shelf (refTo p!"#/components/messages/new") [(p!"new", message)]
      (refTo p!"#/channels/c/messages/m/payload")))).isSome = false := by decide +kernel

end Verif.Props
