import Verif.Spec.Unified
import Mathlib.Data.List.Forall2
/-!
# Locations, but for positions in lists

Nothing here refers to `Verif/Model`.
-/
namespace Verif.Spec
open Verif

/-- The same step, or two positions in a list. -/
inductive SameStep : LocStep → LocStep → Prop
  | refl {s} : SameStep s s
  | index {i j} : SameStep (.index i) (.index j)

/-- The same location, but for positions in lists. -/
abbrev SamePlace : List LocStep → List LocStep → Prop := List.Forall₂ SameStep

end Verif.Spec
