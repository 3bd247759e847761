import Verif.Spec.Context
/-!
# The texts of TagsRefValidator and ExternalDocsRefValidator

Nothing here refers to `Verif/Model`.
-/
namespace Verif.Spec
open Verif Verif.Gen

/-- Python's `str.capitalize`, of ASCII characters: the first in upper case, the others in lower case. -/
def sentence : Str → Str
  | [] => []
  | c :: cs => c.toUpper :: cs.map Char.toLower

/-- What is wrong with a reference: it points elsewhere, or the key it names is missing. -/
inductive Wrong where
  | elsewhere (ref : Str)
  | missing (key : Str)

/-- What is said of a tag reference at a location. -/
def tagText (steps : List LocStep) : Wrong → Str
  | .elsewhere ref => sentence (describe tagContexts steps) ++ p!" tag reference '" ++ ref ++
      p!"' must point to #/components/tags/ but points elsewhere."
  | .missing key => sentence (describe tagContexts steps) ++ p!" references tag '" ++ key ++
      p!"' but tag does not exist in components/tags."

/-- What is said of an external documentation reference at a location. -/
def docText (steps : List LocStep) : Wrong → Str
  | .elsewhere ref => sentence (describe docContexts steps) ++ p!" external documentation reference '" ++ ref ++
      p!"' must point to #/components/externalDocs/ but points elsewhere."
  | .missing key => sentence (describe docContexts steps) ++ p!" references external documentation '" ++ key ++
      p!"' but it does not exist in components/externalDocs."

/-- What is logged of an external tag reference. -/
def tagNote (steps : List LocStep) (ref : Str) : Str :=
  sentence (describe tagContexts steps) ++ p!" tag reference '" ++ ref ++
    p!"' is external. Cannot validate external references."

/-- What is logged of an external reference to documentation. -/
def docNote (steps : List LocStep) (ref : Str) : Str :=
  sentence (describe docContexts steps) ++ p!" external documentation reference '" ++ ref ++
    p!"' is external. Cannot validate external references."

/-- `w` is what is wrong with a string that is not allowed. -/
inductive WrongWith (pre s : Str) : Wrong → Prop
  | elsewhere : (∀ rest, s ≠ pre ++ rest) → WrongWith pre s (.elsewhere s)
  | missing {rest key} : s = pre ++ rest → Deleted pre rest key → WrongWith pre s (.missing key)

/-- A step with the entry name in lower case. -/
def LocStep.lower : LocStep → LocStep
  | .key k => .key (k.map Char.toLower)
  | st => st

/-- A step with the list index forgotten. -/
def LocStep.uncounted : LocStep → LocStep
  | .index _ => .index 0
  | st => st

/-- No entry name on the way has a quote. -/
def NoQuote (steps : List LocStep) : Prop := ∀ nm, .key nm ∈ steps → '\'' ∉ nm

end Verif.Spec
