import Verif.Spec.Address
import Verif.Spec.Slots
/-!
# Renaming entries of mappings

Nothing here refers to `Verif/Model`.
-/
namespace Verif.Spec
open Verif Verif.Gen

/-- The string of a Reference, changed. -/
def onRef (r : Str → Str) : Str × V → Str × V
  | (k, .str s) => (k, if k = p!"ref" then .str (r s) else .str s)
  | e => e

mutual
/-- A value that stands at the location `loc` of a document, with the entry `k` of the mapping at a location `l` renamed to
`K l k`, and the string `s` of a Reference changed to `r s`. Extra fields stay as they are. -/
def recast (K : List LocStep → Str → Str) (r : Str → Str) (loc : List LocStep) : V → V
  | .list l => .list (recastItems K r loc 0 l)
  | .dict d => .dict (recastEntries K r loc d)
  | .inst c fs ex set => .inst c (if c = .Reference then fs.map (onRef r) else recastFields K r loc fs) ex set
  | v => v
def recastItems (K : List LocStep → Str → Str) (r : Str → Str) (loc : List LocStep) (i : Nat) : List V → List V
  | [] => []
  | v :: l => recast K r (loc ++ [.index i]) v :: recastItems K r loc (i + 1) l
def recastEntries (K : List LocStep → Str → Str) (r : Str → Str) (loc : List LocStep) : List (Str × V) → List (Str × V)
  | [] => []
  | (k, v) :: d => (K loc k, recast K r (loc ++ [.key k]) v) :: recastEntries K r loc d
def recastFields (K : List LocStep → Str → Str) (r : Str → Str) (loc : List LocStep) : List (Str × V) → List (Str × V)
  | [] => []
  | (k, v) :: d => (k, recast K r (loc ++ [.field k]) v) :: recastFields K r loc d
end

/-- The new names on a location. -/
def newLoc (K : List LocStep → Str → Str) : List LocStep → List LocStep → List LocStep
  | _, [] => []
  | loc, .key k :: steps => .key (K loc k) :: newLoc K (loc ++ [.key k]) steps
  | loc, st :: steps => st :: newLoc K (loc ++ [st]) steps

/-- The reference path `path` can be followed from the value at `loc`, and `path'` is the same path with the new names. -/
inductive Follows (K : List LocStep → Str → Str) : List LocStep → V → List Str → List Str → Prop
  | nil {loc v} : Follows K loc v [] []
  | entry {loc d k w path path'} : (k, w) ∈ d → Follows K (loc ++ [.key k]) w path path' →
      Follows K loc (.dict d) (k :: path) (K loc k :: path')
  | root {loc c fs ex set d k path path'} : (p!"root", .dict d) ∈ fs → Follows K (loc ++ [.field p!"root"]) (.dict d) (k :: path) path' →
      Follows K loc (.inst c fs ex set) (k :: path) path'
  | field {loc c fs ex set f k w path path'} : (∀ d, ¬ TRoot (.inst c fs ex set) d) → f ∈ (classDef c).fields →
      (f.name = k ∨ f.alias = some k) → (f.name, w) ∈ fs → w ≠ .none → Follows K (loc ++ [.field f.name]) w path path' →
      Follows K loc (.inst c fs ex set) (k :: path) (k :: path')

/-- `s` is the string of a Reference somewhere in the document. -/
def HasRef (doc : V) (s : Str) : Prop := ∃ w, Within w doc ∧ TRef w s

/-- `r` changes the References of the document as is right for the new names: those to URLs not at all, those that lead
somewhere by the path they spell. -/
def Rightly (K : List LocStep → Str → Str) (r : Str → Str) (doc : V) : Prop :=
  ∀ s, HasRef doc s → (External s → r s = s) ∧ ∀ path path', Spells s path → Follows K [] doc path path' → Spells (r s) path'

/-- Only the entry `k` of the mapping at `loc` gets a new name. -/
def onlyKey (loc : List LocStep) (k k' : Str) (l : List LocStep) (j : Str) : Str := if l = loc ∧ j = k then k' else j

/-- A reference that is `old`, or begins with `old` and a slash, has `new` there instead. -/
def redirect (old new s : Str) : Str :=
  if s = old then new else if (old ++ p!"/").isPrefixOf s then new ++ s.drop old.length else s

end Verif.Spec
