import Verif.Py.Ops
/-!
# Insertion-ordered maps

What a dict is to its user. Nothing here refers to `Verif/Model`.
-/
namespace Verif.Spec
open Verif

/-- Which keys there are, in the order in which they were inserted, and what they hold. -/
structure OMap where
  order : List Str
  content : Str → Option V

/-- One operation. -/
def OMap.step (m : OMap) : Op → OMap × Out
  | .get k => (m, match m.content k with | some v => .val v | none => .keyError)
  | .set k v => (⟨if k ∈ m.order then m.order else m.order ++ [k], fun j => if j = k then some v else m.content j⟩, .unit)
  | .del k => if k ∈ m.order then (⟨m.order.filter (· ≠ k), fun j => if j = k then none else m.content j⟩, .unit)
    else (m, .keyError)
  | .contains k => (m, .bool (k ∈ m.order))
  | .len => (m, .nat m.order.length)
  | .iter => (m, .keys m.order)

/-- A history. -/
def OMap.run (m : OMap) : List Op → OMap × List Out
  | [] => (m, [])
  | op :: ops => (((m.step op).1.run ops).1, (m.step op).2 :: ((m.step op).1.run ops).2)

end Verif.Spec
