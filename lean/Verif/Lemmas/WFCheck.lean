import Verif.Spec.Resolve
import Verif.Gen.Classes
import Mathlib.Data.List.Nodup
/-! A decidable sufficient check for `Spec.WF`, to show that concrete documents
are well formed, and a helper to write concrete instances. -/
namespace Verif
open Verif.Spec
variable {C : Type} {n : Nat}

/-- Well-formedness of one node. -/
def nodeOk (T : ClassTable C) : Node C n → Bool
  | .list _ => true
  | .dict kvs => decide (kvs.map Prod.fst).Nodup
  | .model c fs ex =>
    decide (fs.map Prod.fst).Nodup && decide (ex.map Prod.fst).Nodup &&
    (T.fields c).all (fun f => fs.any (fun p => decide (p.1 = f.name))) &&
    (!(T.sub c T.reference) ||
      fs.any (fun p => decide (p.1 = p!"ref") && (match p.2 with | .str _ => true | _ => false)))

theorem wf_of_check {T : ClassTable C} {D : Doc C n} (h : ∀ a, nodeOk T (D.node a) = true) :
    WF T D := by
  refine ⟨?_, ?_, ?_, ?_, ?_⟩
  · intro a kvs e; have := h a; rw [e] at this; simpa [nodeOk] using this
  · intro a c fs ex e; have := h a; rw [e] at this; simp [nodeOk] at this; exact this.1.1.1
  · intro a c fs ex e; have := h a; rw [e] at this; simp [nodeOk] at this; exact this.1.1.2
  · intro a c fs ex e f hf; have := h a; rw [e] at this; simp [nodeOk] at this
    exact this.1.2 f hf
  · intro a c fs ex e hs; have := h a; rw [e] at this; simp [nodeOk, hs] at this
    obtain ⟨v, hv, hk2⟩ := this.2
    cases v <;> simp at hk2
    exact ⟨_, hv⟩

/-- An instance of `c` with the given fields set and all others `None`. -/
def mkInst (c : Gen.Cls) (set : List (Str × Val n)) (extra : List (Str × Val n) := []) :
    Node Gen.Cls n :=
  .model c ((Gen.table.fields c).map fun f => (f.name, (lookup f.name set).getD .none)) extra

/-- No two fields of any class of the package answer to the same spelling. -/
def unambiguousCheck (fs : List FieldInfo) : Bool :=
  fs.all fun f => fs.all fun g => decide (f = g) ||
    (!decide (f.name = g.name) && !decide (some f.name = g.alias) && !decide (f.alias = some g.name)
      && (f.alias.isNone || !decide (f.alias = g.alias)))

theorem unambiguous_of_check {fs : List FieldInfo} (h : unambiguousCheck fs = true) :
    ∀ f ∈ fs, ∀ g ∈ fs, ∀ s,
    (f.name = s ∨ f.alias = some s) → (g.name = s ∨ g.alias = some s) → f = g := by
  intro f hf g hg s h1 h2
  simp only [unambiguousCheck, List.all_eq_true] at h
  have := h f hf g hg
  simp only [Bool.or_eq_true, decide_eq_true_eq, Bool.and_eq_true, Bool.not_eq_true',
    decide_eq_false_iff_not] at this
  rcases this with h | ⟨⟨⟨ha, hb⟩, hc⟩, hd⟩
  · exact h
  · exfalso
    rcases h1 with h1 | h1 <;> rcases h2 with h2 | h2
    · exact ha (h1.trans h2.symm)
    · exact hb (by rw [h1, h2])
    · exact hc (by rw [h1, h2])
    · rw [h1, h2] at hd; simp at hd

theorem table_unambiguous : Unambiguous Gen.table := by
  intro c
  have key : Gen.Cls.all.all (fun c => unambiguousCheck (Gen.table.fields c)) = true := by
    decide +kernel
  exact unambiguous_of_check (List.all_eq_true.1 key c (Gen.Cls.mem_all c))

end Verif
