import Verif.Props.Factory
/-!
# Non-vacuity of C01–C08

A concrete document with a reference chain, a two-element reference cycle with a
lead-in, an external reference and a shared channel object. It meets every
hypothesis used in C01–C08 (`WF`, `Unambiguous`, `Shape`), and the model gives
the expected answers on it.
-/
namespace Verif.Props
open Verif Verif.Spec Verif.Resolve Verif.Gen

/-- The example document. -/
def exDoc : Doc Cls 14 where
  spec := 0
  node := fun a => match a.val with
    | 0 => mkInst .AsyncAPI3 [(p!"asyncapi", .str p!"3.0.0"), (p!"info", .ptr 1),
             (p!"channels", .ptr 2), (p!"components", .ptr 4)]
    | 1 => mkInst .Info [(p!"title", .str p!"t"), (p!"version", .str p!"1")] [(p!"x-a", .atom p!"int")]
    | 2 => mkInst .Channels [(p!"root", .ptr 3)]
    | 3 => .dict [(p!"a", .ptr 8), (p!"b", .ptr 7), (p!"in", .ptr 13), (p!"loop1", .ptr 9), (p!"loop2", .ptr 10),
             (p!"ext", .ptr 11)]
    | 4 => mkInst .Components [(p!"channels", .ptr 5), (p!"security_schemes", .none)]
    | 5 => mkInst .Channels [(p!"root", .ptr 6)]
    | 6 => .dict [(p!"x", .ptr 7), (p!"y", .ptr 12)]
    | 7 => mkInst .Channel [(p!"address", .str p!"a/b")]
    | 8 => mkInst .Reference [(p!"ref", .str p!"#/components/channels/y")]
    | 9 => mkInst .Reference [(p!"ref", .str p!"#/channels/loop2")]
    | 10 => mkInst .Reference [(p!"ref", .str p!"#/channels/loop1")]
    | 11 => mkInst .Reference [(p!"ref", .str p!"https://example.com/x")]
    | 12 => mkInst .Reference [(p!"ref", .str p!"#/components/channels/x")]
    | _ => mkInst .Reference [(p!"ref", .str p!"#/channels/loop1")]

theorem exDoc_wf : WF table exDoc := by
  apply wf_of_check; decide +kernel

/-- A document whose `AsyncAPI3` lacks its attribute `channels` (as `model_construct` can make them). -/
def badDoc : Doc Cls 1 where
  spec := 0
  node := fun _ => .model .AsyncAPI3 [(p!"asyncapi", .str p!"3.0.0")] []

/-- It meets the hypothesis of `C04_only_value_errors` although it is not well formed, and the
AttributeError inside becomes a ValueError. -/
example : (∀ v, badDoc.isRef table v = true → ∃ s, badDoc.getattr v p!"ref" = some (.str s)) ∧
    resolve table badDoc p!"#/channels/a" =
      some (.error (.valueError (.failed p!"#/channels/a" p!"channels"))) := by
  refine ⟨fun v h => ?_, by decide +kernel⟩
  cases v <;> simp [Doc.isRef, Doc.asModel, badDoc] at h
  exact absurd h (by decide)

theorem holds_iff {n : Nat} {D : Doc Cls n} (W : WF table D) {fs ex}
    (hspec : D.node D.spec = .model .AsyncAPI3 fs ex) (h : Str ⊕ Str) (v : Val n) :
    Holds D h v ↔ match h with
      | .inl attr => lookup attr fs = some v
      | .inr attr => ∃ c fs' ex', lookup p!"components" fs = some (.ptr c) ∧
          D.node c = .model .Components fs' ex' ∧ lookup attr fs' = some v := by
  cases h with
  | inl attr =>
    simp only
    rw [lookup_iff (W.fieldKeys _ _ _ _ hspec)]
    constructor
    · intro h; cases h with | root h1 h2 => rw [hspec] at h1; cases h1; exact h2
    · intro h; exact .root hspec h
  | inr attr =>
    simp only
    constructor
    · intro h
      cases h with
      | comp h1 h2 h3 h4 =>
        rw [hspec] at h1; cases h1
        exact ⟨_, _, _, (lookup_iff (W.fieldKeys _ _ _ _ hspec)).2 h2, h3,
          (lookup_iff (W.fieldKeys _ _ _ _ h3)).2 h4⟩
    · rintro ⟨c, fs', ex', h1, h2, h3⟩
      exact .comp hspec (lookup_some_mem h1) h2 (lookup_some_mem h3)

/-- Decidable check for `Shape`. -/
def shapeOk {n : Nat} (D : Doc Cls n) : Bool :=
  (match D.node D.spec with
   | .model .AsyncAPI3 fs _ =>
     (match lookup p!"components" fs with
      | some (.ptr c) => (match D.node c with
        | .model .Components fs' _ => Factory.all.all fun f => match home f with
            | .inr attr => (match lookup attr fs' with
                | some .none => true
                | some v => (rootMapping D v).isSome
                | none => true)
            | .inl _ => true
        | _ => false)
      | some .none => true
      | some _ => false
      | none => true) &&
     (Factory.all.all fun f => match home f with
        | .inl attr => (match lookup attr fs with
            | some .none => true
            | some v => (rootMapping D v).isSome
            | none => true)
        | .inr _ => true)
   | _ => false) &&
  ((List.finRange n).all fun a => match D.node a with
    | .model c _ _ => (decide (c ≠ .AsyncAPI3) && decide (c ≠ .Components)) ||
        (rootMapping D (.ptr a)).isNone
    | _ => true)

theorem Factory.mem_all (f : Factory) : f ∈ Factory.all := by cases f <;> decide

theorem shape_of_check {n : Nat} {D : Doc Cls n} (W : WF table D) (h : shapeOk D = true) : Shape D := by
  simp only [shapeOk, Bool.and_eq_true] at h
  obtain ⟨h1, h2⟩ := h
  split at h1
  case h_2 => cases h1
  case h_1 fs ex hspec =>
    simp only [Bool.and_eq_true] at h1
    obtain ⟨hc, hr⟩ := h1
    have hroot : ∀ v : Val n, (rootMapping D v).isSome = true →
        ∃ b kvs, v = .ptr b ∧ RootDict D b kvs := by
      intro v hv
      obtain ⟨kvs, hk⟩ := Option.isSome_iff_exists.1 hv
      cases v with
      | ptr b => exact ⟨b, kvs, rfl, (rootMapping_iff W b kvs).1 hk⟩
      | _ => simp [rootMapping, Doc.getattr] at hk
    have spec_eq : ∀ {fs' ex'}, D.node D.spec = .model .AsyncAPI3 fs' ex' → fs' = fs := by
      intro fs' ex' h; rw [hspec] at h; cases h; rfl
    refine ⟨⟨fs, ex, hspec⟩, ?_, ?_, ?_⟩
    · intro fs' ex' v hs hv
      cases spec_eq hs
      rw [← lookup_iff (W.fieldKeys _ _ _ _ hspec)] at hv
      rw [hv] at hc
      cases v with
      | none => exact .inl rfl
      | ptr c =>
        simp only at hc
        split at hc
        · rename_i hn; exact .inr ⟨_, _, _, rfl, hn⟩
        · cases hc
      | _ => cases hc
    · intro f v hH
      rw [holds_iff W hspec] at hH
      have hr := List.all_eq_true.1 hr f (Factory.mem_all f)
      cases hh : home f with
      | inl attr =>
        rw [hh] at hH hr
        simp only at hH hr
        rw [hH] at hr
        cases v with
        | none => exact .inl rfl
        | _ => exact .inr (hroot _ hr)
      | inr attr =>
        rw [hh] at hH
        obtain ⟨c, fs', ex', h3, h4, h5⟩ := hH
        rw [h3] at hc
        simp only [h4] at hc
        have hc := List.all_eq_true.1 hc f (Factory.mem_all f)
        rw [hh] at hc
        simp only [h5] at hc
        cases v with
        | none => exact .inl rfl
        | _ => exact .inr (hroot _ hc)
    · intro a c fs' ex' hn hcls kvs hR
      have := List.all_eq_true.1 h2 a (List.mem_finRange a)
      rw [hn] at this
      simp only [Bool.or_eq_true, Bool.and_eq_true, decide_eq_true_eq] at this
      rcases this with ⟨ha, hb⟩ | h
      · rcases hcls with rfl | rfl
        · exact ha rfl
        · exact hb rfl
      · rw [(rootMapping_iff W a kvs).2 hR] at h; cases h

theorem exDoc_shape : Shape exDoc := shape_of_check exDoc_wf (by decide +kernel)

/-- C02, C07: chain `a → y → x`. -/
example : ∃ path, resolve table exDoc p!"#/channels/a" =
    some (.ok (some ⟨.ptr 7, .cls .Channel, path⟩)) := ⟨p!"spec.components.channels.x", by decide +kernel⟩
/-- C03: the lead-in `in` runs into the cycle `loop1 ↔ loop2`. -/
example : resolve table exDoc p!"#/channels/in" =
    some (.error (.valueError (.circular p!"#/channels/loop1"))) := by decide +kernel
example : Cyclic table exDoc p!"#/channels/in" :=
  (C03_circular_iff exDoc_wf table_unambiguous _).1 ⟨p!"#/channels/loop1", by decide +kernel⟩
/-- C03: an external end is `None`. -/
example : resolve table exDoc p!"#/channels/ext" = some (.ok none) := by decide +kernel
/-- C05: differently written slashes. -/
example : Spells p!"#/channels/a" [p!"channels", p!"a"] ∧
    Spells p!"#channels//a///" [p!"channels", p!"a"] := by
  rw [spells_iff, spells_iff]; decide +kernel
/-- C06: a respelled path through `components.securitySchemes`. -/
example : Respelled table exDoc (.ptr 4) [p!"securitySchemes", p!"k"] [p!"security_schemes", p!"k"] := by
  refine .field (c := .Components) (f := ⟨p!"security_schemes", some p!"securitySchemes", false⟩)
    rfl ?_ (by decide) (.inr rfl) (.inl rfl) ?_
  · exact exDoc_shape.noRoot 4 .Components _ _ rfl (.inr rfl)
  · intro w _; exact .same fun a w' _ _ => .nil
/-- C07: an entry, a chained entry and a missing one. -/
example : Entry exDoc .to_component_channel_name p!"x" (.ptr 7) := by
  refine ⟨5, _, .comp (c := 4) rfl ?_ rfl ?_, ⟨.Channels, _, _, 6, rfl, rfl, .inl ?_⟩, ?_⟩ <;> decide +kernel
example : ∃ m, resolve table exDoc (Factory.ref .to_component_security_scheme_name p!"x") =
    some (.error (.valueError m)) :=
  ⟨.isNone p!"spec.components.securitySchemes", by decide +kernel⟩

end Verif.Props
