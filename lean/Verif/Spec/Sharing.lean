import Verif.Py.Object
/-!
# Specification of which objects are shared

Which parts an object has, what stands at places without a type, and what a change in place does. Nothing here refers to `Verif/Model`.
-/
namespace Verif.Spec
open Verif Verif.Gen

/-- `PartOf x y`: `y` is `x`, or an item, entry, field or extra field of a part of `x`. -/
inductive PartOf : Ob → Ob → Prop
  | self (x) : PartOf x x
  | item {id l w y} : w ∈ l → PartOf w y → PartOf (.list id l) y
  | entry {id d k w y} : (k, w) ∈ d → PartOf w y → PartOf (.dict id d) y
  | field {id c fs ex set k w y} : (k, w) ∈ fs → PartOf w y → PartOf (.inst id c fs ex set) y
  | extra {id c fs ex set k w y} : (k, w) ∈ ex → PartOf w y → PartOf (.inst id c fs ex set) y

/-- Object number `n` is `x` or inside of it. -/
def Contains (x : Ob) (n : Nat) : Prop := ∃ w, PartOf x w ∧ w.id = some n

/-- `Free y t z`: in `y`, which was validated for type `t`, the object `z` stands at a place without a type: one of type
`Any`, or under an extra key (an extension, or a free key of a schema or topic configuration). -/
inductive Free : Ob → Ty Cls → Ob → Prop
  | any (y) : Free y .any y
  | member {y ts t z} : t ∈ ts → Free y t z → Free y (.union ts) z
  | item {id l w t z} : w ∈ l → Free w t z → Free (.list id l) (.list t) z
  | entry {id d k w t z} : (k, w) ∈ d → Free w t z → Free (.dict id d) (.dict t) z
  | field {id c fs ex set f w z} : f ∈ (classDef c).fields → (f.name, w) ∈ fs → Free w f.ty z →
      Free (.inst id c fs ex set) (.model c) z
  | extra {id c fs ex set k z} : (k, z) ∈ ex → Free (.inst id c fs ex set) (.model c) z

/-- All that `y`, validated for type `t`, has in common with `x` is inside of objects of `x` that stand, as they
are, at places of `y` without a type. Everything else in `y` is new. -/
def SharesOnlyFree (x : Ob) (t : Ty Cls) (y : Ob) : Prop :=
  ∀ w n, PartOf y w → w.id = some n → ∃ z, Free y t z ∧ PartOf z w ∧ PartOf x z

mutual
/-- Object number `n` is changed in place to what `f` makes of it: seen wherever it stands. -/
def changed (n : Nat) (f : Ob → Ob) : Ob → Ob
  | .list id l => if id = some n then f (.list id l) else .list id (changedItems n f l)
  | .dict id d => if id = some n then f (.dict id d) else .dict id (changedEntries n f d)
  | .inst id c fs ex set => if id = some n then f (.inst id c fs ex set)
      else .inst id c (changedEntries n f fs) (changedEntries n f ex) set
  | .none => .none
  | .bool b => .bool b
  | .int i => .int i
  | .float x => .float x
  | .str s => .str s
  | .url k s => .url k s
  | .proc n => .proc n
def changedItems (n : Nat) (f : Ob → Ob) : List Ob → List Ob
  | [] => []
  | x :: l => changed n f x :: changedItems n f l
def changedEntries (n : Nat) (f : Ob → Ob) : List (Str × Ob) → List (Str × Ob)
  | [] => []
  | (k, x) :: d => (k, changed n f x) :: changedEntries n f d
end

mutual
/-- The type has a place of type `Any`. -/
def mentionsAny : Ty Cls → Bool
  | .any => true
  | .list t | .dict t => mentionsAny t
  | .union ts => oneMentionsAny ts
  | _ => false
def oneMentionsAny : List (Ty Cls) → Bool
  | [] => false
  | t :: ts => mentionsAny t || oneMentionsAny ts
end

/-- The declared fields with places of type `Any`: the value of the field itself (`MessageExample.payload`,
`MultiFormatSchema.schema`), or the values in a dict, or those in the dicts of a list. -/
def untypedFields : List (Cls × Str) := [
  (.MultiFormatSchema, p!"schema"), (.MessageExample, p!"payload"), (.MessageExample, p!"headers"),
  (.KafkaMessageBindings, p!"key"), (.GooglePubSubChannelBindings, p!"labels"),
  (.GooglePubSubMessageBindings, p!"attributes"), (.SNSStatement, p!"condition"), (.SQSStatement, p!"condition"),
  (.SNSChannelBindings, p!"tags"), (.SQSQueue, p!"tags"), (.SNSConsumer, p!"filter_policy")]

end Verif.Spec
