import Verif.Spec.Unified
import Verif.Py.Uni
/-!
# Specification of the types expected at locations

What the table of patterns says about the text of a location. Nothing here refers to `Verif/Model`.
-/
namespace Verif.Spec
open Verif
variable {C : Type} {n : Nat}

/-- Every `.root.` replaced by `.`, from left to right. -/
inductive Unrooted : Str → Str → Prop
  | nil : Unrooted [] []
  | root {s t} : Unrooted s t → Unrooted (p!".root." ++ s) ('.' :: t)
  | char {c s t} : (∀ r, c :: s ≠ p!".root." ++ r) → Unrooted s t → Unrooted (c :: s) (c :: t)

/-- Without a final `.root`. -/
inductive Untailed : Str → Str → Prop
  | root {s} : Untailed (s ++ p!".root") s
  | other {s} : (∀ r, s ≠ r ++ p!".root") → Untailed s s

/-- The text of a list index: digits in brackets. -/
def IndexText (U : Uni) (t : Str) : Prop := ∃ ds, t = '[' :: (ds ++ [']']) ∧ ds ≠ [] ∧ ∀ c ∈ ds, U.digit c = true

/-- Without the texts of list indices. -/
inductive Unindexed (U : Uni) : Str → Str → Prop
  | nil : Unindexed U [] []
  | index {i s t} : IndexText U i → Unindexed U s t → Unindexed U (i ++ s) t
  | char {c s t} : (∀ i r, IndexText U i → c :: s ≠ i ++ r) → Unindexed U s t → Unindexed U (c :: s) (c :: t)

/-- The text of a location as it is compared with the patterns. -/
def Normal (U : Uni) (s t : Str) : Prop := ∃ a b, Unrooted s a ∧ Untailed a b ∧ Unindexed U b t

/-- The pattern fits the segments. -/
def PatternFits (pattern : Str) (segs : List Str) : Prop := ∃ ps, Segs pattern ps ∧ Aligns ps segs

/-- One pattern is more specific than another. -/
def PatternBeats (p q : Str) : Prop := ∃ ps qs, Segs p ps ∧ Segs q qs ∧ MoreSpecific ps qs

/-- `t` is the entry of the table for the location with this text: the pattern fits, it is more specific than every pattern before it that
fits, and no pattern after it that fits is more specific. -/
def Expects {τ : Type} (U : Uni) (M : List (Str × τ)) (path : Str) (t : τ) : Prop :=
  ∃ norm segs before pattern after, Normal U path norm ∧ Segs norm segs ∧ M = before ++ (pattern, t) :: after ∧ PatternFits pattern segs ∧
    (∀ e ∈ before, PatternFits e.1 segs → PatternBeats pattern e.1) ∧ (∀ e ∈ after, PatternFits e.1 segs → ¬ PatternBeats e.1 pattern)

/-- Single-reference check at a location: the chain from `s` ends outside the document, or at an object of (a subclass of) a type that the
table has for the location. -/
def RightAt (T : ClassTable C) (U : Uni) (M : List (Str × List C)) (D : Doc C n) (steps : List LocStep) (s : Str) : Prop :=
  (∃ r, Hops T D s r ∧ External r) ∨
  (∃ r v cs, Hops T D s r ∧ Lands T D r v ∧ Expects U M (render steps) cs ∧ InstanceOf T (D.typeOf v) cs)

end Verif.Spec
