import Verif.Spec.Removes
import Verif.Spec.Slots
/-!
# Replacing an object by a Reference

Nothing here refers to `Verif/Model`.
-/
namespace Verif.Spec
open Verif Verif.Gen

/-- The reference `s` leads, directly or by following further References, to something strictly below the location. -/
def Below (doc : V) (s : Str) (loc : List LocStep) : Prop :=
  ∃ r path k rest x, THops doc s r ∧ Spells r (path ++ k :: rest) ∧ Leads x doc path loc

/-- Following the reference `s` leads to an instance of class `c`. -/
def EndsIn (doc : V) (s : Str) (c : Cls) : Prop :=
  c ≠ .Reference ∧ ∃ r fs ex set, THops doc s r ∧ TDenotes doc r (.inst c fs ex set)

end Verif.Spec
