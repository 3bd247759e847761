import Verif.Spec.Tree
import Verif.Spec.Expects
/-!
# Specification of right References in a document

Nothing here refers to `Verif/Model`.
-/
namespace Verif.Spec
open Verif Verif.Gen

/-- The reference `s` is right at the location `steps` of the document, by the table `M`: following it leads to an external URL, or to an
instance of one of the classes that the table has for the location. -/
def TRightAt (U : Uni) (M : List (Str × List Cls)) (doc : V) (steps : List LocStep) (s : Str) : Prop :=
  (∃ r, THops doc s r ∧ External r) ∨
  (∃ r c fs ex set cs, THops doc s r ∧ TDenotes doc r (.inst c fs ex set) ∧ c ≠ .Reference ∧ Expects U M (render steps) cs ∧ c ∈ cs)

end Verif.Spec
