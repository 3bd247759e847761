import Verif.Gen.Classes
/-!
# Python values: plain data and model instances

The values `asyncapi3` reads, holds and writes. JSON input is the fragment
without `url`, `proc` and `inst`.
-/
namespace Verif
open Verif.Gen

/-- pydantic's `AnyUrl` and `HttpUrl`. -/
inductive UrlKind where
  | any
  | http
  deriving DecidableEq, Repr

/-- Python values. Floats are opaque tokens (no code looks inside them); `proc n` is a processor
class; dict keys are strings. An instance holds its declared fields (by Python name), its extra
fields, and `__pydantic_fields_set__`. -/
inductive V where
  | none
  | bool (b : Bool)
  | int (i : Int)
  | float (x : Str)
  | str (s : Str)
  | url (k : UrlKind) (s : Str)
  | proc (n : Nat)
  | list (l : List V)
  | dict (d : List (Str × V))
  | inst (c : Cls) (fields extras : List (Str × V)) (set : List Str)

/-- Declared attribute `name` of an instance; `None` if there is no such attribute (which does
not happen for instances made by pydantic). -/
def V.attr : V → Str → V
  | .inst _ fs _ _, name => (lookup name fs).getD .none
  | _, _ => .none

/-- `v is None`. -/
def V.isNone : V → Bool
  | .none => true
  | _ => false

/-- `__pydantic_extra__`. -/
def V.extras : V → List (Str × V)
  | .inst _ _ ex _ => ex
  | _ => []

mutual
/-- Values that can be read from JSON or YAML (string keys). -/
def V.isJson : V → Bool
  | .url _ _ | .proc _ | .inst _ _ _ _ => false
  | .list l => isJsonList l
  | .dict d => isJsonDict d
  | _ => true
def isJsonList : List V → Bool
  | [] => true
  | v :: l => v.isJson && isJsonList l
def isJsonDict : List (Str × V) → Bool
  | [] => true
  | (_, v) :: d => v.isJson && isJsonDict d
end

end Verif
