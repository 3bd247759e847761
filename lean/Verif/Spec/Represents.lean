import Verif.Spec.Tree
/-!
# Object graphs that hold a tree

Nothing here refers to `Verif/Model`.
-/
namespace Verif.Spec
open Verif Verif.Gen
variable {n : Nat}

/-- In the object graph `D`, the value `x` holds the tree `v`. Lists, dicts and instances are objects; objects
that hold equal trees may be one and the same. Numbers, URLs and processor classes are childless values, of which
the graph only knows the type. -/
inductive Rep (D : Doc Cls n) : Val n → V → Prop
  | none : Rep D .none .none
  | str {s} : Rep D (.str s) (.str s)
  | bool {b} : Rep D (.atom p!"bool") (.bool b)
  | int {i} : Rep D (.atom p!"int") (.int i)
  | float {x} : Rep D (.atom p!"float") (.float x)
  | anyUrl {s} : Rep D (.atom p!"AnyUrl") (.url .any s)
  | httpUrl {s} : Rep D (.atom p!"HttpUrl") (.url .http s)
  | proc {m} : Rep D (.atom p!"type") (.proc m)
  | list {a xs} {l : List V} : D.node a = .list xs → xs.length = l.length →
      (∀ (i : Nat) x v, xs[i]? = some x → l[i]? = some v → Rep D x v) → Rep D (.ptr a) (.list l)
  | dict {a kvs} {d : List (Str × V)} : D.node a = .dict kvs → kvs.map (·.1) = d.map (·.1) →
      (∀ (i : Nat) k x k' v, kvs[i]? = some (k, x) → d[i]? = some (k', v) → Rep D x v) → Rep D (.ptr a) (.dict d)
  | inst {a c gs hs} {fs ex : List (Str × V)} {set : List Str} : D.node a = .model c gs hs →
      gs.map (·.1) = fs.map (·.1) → hs.map (·.1) = ex.map (·.1) →
      (∀ (i : Nat) k x k' v, gs[i]? = some (k, x) → fs[i]? = some (k', v) → Rep D x v) →
      (∀ (i : Nat) k x k' v, hs[i]? = some (k, x) → ex[i]? = some (k', v) → Rep D x v) → Rep D (.ptr a) (.inst c fs ex set)

/-- `D` is the object graph of the document `doc`: its start holds `doc`, and each of its objects holds some part of
`doc`. -/
def Depicts (D : Doc Cls n) (doc : V) : Prop :=
  Rep D (.ptr D.spec) doc ∧ ∀ a, ∃ w, Within w doc ∧ Rep D (.ptr a) w

end Verif.Spec
