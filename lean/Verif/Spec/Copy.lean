import Verif.Spec.Sharing
/-!
# Specification of copies

Nothing here refers to `Verif/Model`.
-/
namespace Verif.Spec
open Verif Verif.Gen

/-- No object is in both. -/
def NothingShared (x y : Ob) : Prop := ∀ n, Contains x n → ¬ Contains y n

/-- Objects are changed in place, one after the other: object number `e.1` to what `e.2` makes of it. -/
def history (l : List (Nat × (Ob → Ob))) (x : Ob) : Ob := l.foldl (fun x e => changed e.1 e.2 x) x

/-- `y` is built like `x`, of other objects: object number `m n` stands in `y` wherever object number `n` stands in `x`. -/
inductive Mirror (m : Nat → Nat) : Ob → Ob → Prop
  | none : Mirror m .none .none
  | bool {b} : Mirror m (.bool b) (.bool b)
  | int {i} : Mirror m (.int i) (.int i)
  | float {x} : Mirror m (.float x) (.float x)
  | str {s} : Mirror m (.str s) (.str s)
  | url {k s} : Mirror m (.url k s) (.url k s)
  | proc {n} : Mirror m (.proc n) (.proc n)
  | list {id l l'} : l.length = l'.length → (∀ (i : Nat) v w, l[i]? = some v → l'[i]? = some w → Mirror m v w) →
      Mirror m (.list id l) (.list (id.map m) l')
  | dict {id d d'} : d.map (·.1) = d'.map (·.1) → (∀ (i : Nat) v w, d[i]? = some v → d'[i]? = some w → Mirror m v.2 w.2) →
      Mirror m (.dict id d) (.dict (id.map m) d')
  | inst {id c fs fs' ex ex' set} : fs.map (·.1) = fs'.map (·.1) →
      (∀ (i : Nat) v w, fs[i]? = some v → fs'[i]? = some w → Mirror m v.2 w.2) → ex.map (·.1) = ex'.map (·.1) →
      (∀ (i : Nat) v w, ex[i]? = some v → ex'[i]? = some w → Mirror m v.2 w.2) →
      Mirror m (.inst id c fs ex set) (.inst (id.map m) c fs' ex' set)

end Verif.Spec
