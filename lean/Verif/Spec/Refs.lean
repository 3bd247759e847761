import Verif.Spec.Unified
import Verif.Gen.Classes
/-!
# Specification of tag and external documentation reference checking

Nothing here refers to `Verif/Model`.
-/
namespace Verif.Spec
open Verif Verif.Gen
variable {n : Nat}

/-- Annotations of values without components. -/
def Scalar : Ty Cls → Prop
  | .int | .bool | .anyUrl | .httpUrl | .email | .processors | .lit _ => True
  | _ => False

/-- The value has the declared type. A model instance fits its class; its fields are
constrained by `Typed`. -/
inductive Fits (D : Doc Cls n) : Ty Cls → Val n → Prop
  | any {v} : Fits D .any v
  | none : Fits D .none .none
  | str {s} : Fits D .str (.str s)
  | scalar {t v} : Scalar t → v ≠ .none → (∀ a, v ≠ .ptr a) → Fits D t v
  | list {t a xs} : D.node a = .list xs → (∀ x ∈ xs, Fits D t x) → Fits D (.list t) (.ptr a)
  | dict {t a kvs} : D.node a = .dict kvs → (∀ p ∈ kvs, Fits D t p.2) → Fits D (.dict t) (.ptr a)
  | model {c a fs ex} : D.node a = .model c fs ex → Fits D (.model c) (.ptr a)
  | union {t ts v} : t ∈ ts → Fits D t v → Fits D (.union ts) v

/-- A document as pydantic's validation leaves it: well formed, rooted in an AsyncAPI3
instance, exactly the declared fields, each holding a value of its type; classes that forbid extra
fields have none, and extra fields hold plain data, not Reference instances. -/
structure Typed (D : Doc Cls n) : Prop where
  wf : WF table D
  root : ∃ fs ex, D.node D.spec = .model .AsyncAPI3 fs ex
  fields : ∀ a c fs ex, D.node a = .model c fs ex → ∀ f ∈ (classDef c).fields, ∀ v,
    (f.name, v) ∈ fs → Fits D f.ty v
  onlyDeclared : ∀ a c fs ex, D.node a = .model c fs ex → ∀ k v, (k, v) ∈ fs →
    ∃ f ∈ (classDef c).fields, f.name = k
  noExtra : ∀ a c fs ex, D.node a = .model c fs ex →
    ((classDef c).kind = .nonExtendable ∨ (classDef c).kind = .patterned) → ex = []
  extraPlain : ∀ a c fs ex, D.node a = .model c fs ex → ∀ k v, (k, v) ∈ ex →
    ∀ s, ¬ IsReference table D v s

/-- A step with the entry name or index forgotten. -/
inductive PStep where
  | field (name : Str)
  | anyIndex
  | anyKey
  deriving DecidableEq, Repr

/-- Forget the entry name or index. -/
def LocStep.shape : LocStep → PStep
  | .field f => .field f
  | .index _ => .anyIndex
  | .key _ => .anyKey

/-- A Reference with string `s` stands at location `steps`, and the location has one of the
given shapes. -/
def StandsAt (D : Doc Cls n) (places : List (List PStep)) (steps : List LocStep) (s : Str) : Prop :=
  steps.map LocStep.shape ∈ places ∧
  ∃ b, Descends table D D.spec steps b ∧ IsReference table D (.ptr b) s

/-- Entries of a collection: patterned objects hold them in their root mapping. -/
def entriesOf (coll : List Str) : List PStep :=
  coll.map .field ++ [.field p!"root", .anyKey]

/-- Messages of the channels of a collection. -/
def messagesOf (coll : List Str) : List PStep :=
  entriesOf coll ++ [.field p!"messages", .field p!"root", .anyKey]

/-- Items of the list in field `f`. -/
def itemsIn (f : Str) : List PStep := [.field f, .anyIndex]

/-- Where TagsRefValidator is documented to look
(docs/extra_validators/references.md:1139-1152 "Verified fields"). -/
def tagPlaces : List (List PStep) := [
  .field p!"info" :: itemsIn p!"tags",
  entriesOf [p!"servers"] ++ itemsIn p!"tags",
  entriesOf [p!"channels"] ++ itemsIn p!"tags",
  messagesOf [p!"channels"] ++ itemsIn p!"tags",
  entriesOf [p!"operations"] ++ itemsIn p!"tags",
  entriesOf [p!"components", p!"messages"] ++ itemsIn p!"tags",
  entriesOf [p!"components", p!"channels"] ++ itemsIn p!"tags",
  entriesOf [p!"components", p!"operations"] ++ itemsIn p!"tags",
  entriesOf [p!"components", p!"servers"] ++ itemsIn p!"tags",
  entriesOf [p!"components", p!"operation_traits"] ++ itemsIn p!"tags",
  entriesOf [p!"components", p!"message_traits"] ++ itemsIn p!"tags",
  messagesOf [p!"components", p!"channels"] ++ itemsIn p!"tags",
  entriesOf [p!"components", p!"tags"]]

/-- Where ExternalDocsRefValidator looks. -/
def docPlaces : List (List PStep) :=
  let docs : List PStep := [.field p!"external_docs"]
  let tags := itemsIn p!"tags" ++ docs
  let traits := itemsIn p!"traits"
  [ .field p!"info" :: docs,
    .field p!"info" :: tags,
    entriesOf [p!"servers"] ++ docs,
    entriesOf [p!"channels"] ++ docs,
    messagesOf [p!"channels"] ++ docs,
    messagesOf [p!"channels"] ++ .field p!"headers" :: docs,
    messagesOf [p!"channels"] ++ .field p!"payload" :: docs,
    messagesOf [p!"channels"] ++ tags,
    messagesOf [p!"channels"] ++ traits ++ docs,
    messagesOf [p!"channels"] ++ traits ++ .field p!"headers" :: docs,
    messagesOf [p!"channels"] ++ traits ++ tags,
    entriesOf [p!"operations"] ++ docs,
    entriesOf [p!"operations"] ++ tags,
    entriesOf [p!"operations"] ++ traits ++ docs,
    entriesOf [p!"operations"] ++ traits ++ tags,
    entriesOf [p!"components", p!"channels"] ++ docs,
    entriesOf [p!"components", p!"external_docs"],
    entriesOf [p!"components", p!"messages"] ++ docs,
    entriesOf [p!"components", p!"messages"] ++ .field p!"headers" :: docs,
    entriesOf [p!"components", p!"messages"] ++ .field p!"payload" :: docs,
    entriesOf [p!"components", p!"message_traits"] ++ docs,
    entriesOf [p!"components", p!"message_traits"] ++ .field p!"headers" :: docs,
    entriesOf [p!"components", p!"operations"] ++ docs,
    entriesOf [p!"components", p!"operation_traits"] ++ docs,
    entriesOf [p!"components", p!"servers"] ++ docs,
    entriesOf [p!"components", p!"tags"] ++ docs,
    entriesOf [p!"components", p!"schemas"] ++ docs]

/-- Where ExternalDocsRefValidator is documented to look
(docs/extra_validators/references.md:793-826 "Verified fields"). -/
def docDocumented : List (List PStep) :=
  let docs : List PStep := [.field p!"external_docs"]
  let tags := itemsIn p!"tags" ++ docs
  let traits := itemsIn p!"traits"
  [ .field p!"info" :: docs,
    .field p!"info" :: tags,
    entriesOf [p!"servers"] ++ docs,
    entriesOf [p!"channels"] ++ docs,
    messagesOf [p!"channels"] ++ docs,
    messagesOf [p!"channels"] ++ traits ++ docs,
    messagesOf [p!"channels"] ++ traits ++ tags,
    entriesOf [p!"operations"] ++ docs,
    entriesOf [p!"operations"] ++ traits ++ docs,
    entriesOf [p!"operations"] ++ traits ++ tags,
    entriesOf [p!"components", p!"schemas"] ++ docs,
    entriesOf [p!"components", p!"servers"] ++ docs,
    entriesOf [p!"components", p!"channels"] ++ docs,
    messagesOf [p!"components", p!"channels"] ++ docs,
    messagesOf [p!"components", p!"channels"] ++ traits ++ docs,
    messagesOf [p!"components", p!"channels"] ++ traits ++ tags,
    entriesOf [p!"components", p!"operations"] ++ docs,
    entriesOf [p!"components", p!"operations"] ++ traits ++ docs,
    entriesOf [p!"components", p!"operations"] ++ traits ++ tags,
    entriesOf [p!"components", p!"messages"] ++ docs,
    entriesOf [p!"components", p!"messages"] ++ traits ++ docs,
    entriesOf [p!"components", p!"messages"] ++ traits ++ tags,
    entriesOf [p!"components", p!"tags"] ++ docs,
    entriesOf [p!"components", p!"operation_traits"] ++ docs,
    entriesOf [p!"components", p!"message_traits"] ++ docs,
    entriesOf [p!"components", p!"external_docs"]]

/-- `key` is an entry of the collection `components.F`. -/
def ComponentKey (D : Doc Cls n) (F key : Str) : Prop :=
  ∃ v, ∃ b, Descends table D D.spec [.field p!"components", .field F, .field p!"root"] b ∧
    Child table D b (.key key) v

/-- External for these validators: not starting with `#`. -/
def NotHash (s : Str) : Prop := ∀ r, s ≠ '#' :: r

/-- What C17 and C18 allow of a reference string: external, or the prefix followed by an
existing key. -/
def Allowed (D : Doc Cls n) (F pre s : Str) : Prop :=
  NotHash s ∨ ∃ key, s = pre ++ key ∧ ComponentKey D F key

/-- `Deleted pre s r`: `r` is what is left of `s` when every occurrence of `pre` is deleted,
searching from the left. -/
inductive Deleted (pre : Str) : Str → Str → Prop
  | nil : Deleted pre [] []
  | hit {s r} : Deleted pre s r → Deleted pre (pre ++ s) r
  | miss {c s r} : ¬ pre <+: (c :: s) → Deleted pre s r → Deleted pre (c :: s) (c :: r)

/-- What the validators check of a reference string. -/
def Checked (D : Doc Cls n) (F pre s : Str) : Prop :=
  NotHash s ∨ ∃ rest key, s = pre ++ rest ∧ Deleted pre rest key ∧ ComponentKey D F key

end Verif.Spec
