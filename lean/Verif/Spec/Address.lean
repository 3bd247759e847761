import Verif.Spec.Removes
/-!
# Which parts of a document can be referred to

Nothing here refers to `Verif/Model`.
-/
namespace Verif.Spec
open Verif Verif.Gen

/-- No object, at any depth, has an extra field `root` that holds a dict. -/
def NoExtraRoot (doc : V) : Prop := ∀ c fs ex set, Within (.inst c fs ex set) doc → ∀ d, (p!"root", .dict d) ∉ ex

/-- A step into a list. -/
def LocStep.IsIndex : LocStep → Prop
  | .index _ => True
  | _ => False

/-- A step to an entry whose key cannot be written in a reference: it is empty, or has a slash. -/
def LocStep.BadKey : LocStep → Prop
  | .key k => k = [] ∨ '/' ∈ k
  | _ => False

/-- The location is not inside a list, and each key on the way to it is not empty and has no slash. -/
def Addressable (steps : List LocStep) : Prop := ∀ s ∈ steps, ¬ LocStep.IsIndex s ∧ ¬ LocStep.BadKey s

/-- The JSON names and keys on the way to a location. The field `root` of collections has no name in JSON: a
collection is written as the object of its entries. -/
inductive JsonPath : V → List LocStep → List Str → Prop
  | nil {v} : JsonPath v [] []
  | entry {d k w steps path} : (k, w) ∈ d → JsonPath w steps path → JsonPath (.dict d) (.key k :: steps) (k :: path)
  | root {c fs ex set w steps path} : (p!"root", w) ∈ fs → JsonPath w steps path →
      JsonPath (.inst c fs ex set) (.field p!"root" :: steps) path
  | field {c fs ex set f w steps path} : f ∈ (classDef c).fields → f.name ≠ p!"root" → (f.name, w) ∈ fs → JsonPath w steps path →
      JsonPath (.inst c fs ex set) (.field f.name :: steps) (f.alias.getD f.name :: path)

/-- The reference `#/a/b/c`. -/
def pointer (path : List Str) : Str := p!"#/" ++ Str.join '/' path

end Verif.Spec
