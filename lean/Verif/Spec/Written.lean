import Verif.Spec.RoundTrip
/-!
# Well-formed JSON

Nothing here refers to `Verif/Model`.
-/
namespace Verif.Spec
open Verif Verif.Gen

/-- JSON, in which no object has a key twice. -/
inductive WellFormed : V → Prop
  | none : WellFormed .none
  | bool {b} : WellFormed (.bool b)
  | int {i} : WellFormed (.int i)
  | float {x} : WellFormed (.float x)
  | str {s} : WellFormed (.str s)
  | list {l} : (∀ v ∈ l, WellFormed v) → WellFormed (.list l)
  | dict {d} : (d.map (·.1)).Nodup → (∀ e ∈ d, WellFormed e.2) → WellFormed (.dict d)

end Verif.Spec
