import Verif.Py.Value
/-!
# Which kind of schema an object is

At a place where a MultiFormatSchema, a Schema or a Reference may stand. Nothing here refers to
`Verif/Model`.
-/
namespace Verif.Spec
open Verif Verif.Gen

/-- 1 if one of the keys is there, else 0. -/
def has (d : List (Str × V)) (keys : List Str) : Nat :=
  if keys.any fun k => (lookup k d).isSome then 1 else 0

/-- How many of the words of a MultiFormatSchema the object has. -/
def multiWords (d : List (Str × V)) : Nat := has d [p!"schemaFormat", p!"schema_format"] + has d [p!"schema"]

/-- How many words the external documentation of a schema counts for: itself, and the words in it
(`url` and `description`, or the one of a Reference). -/
def docsWords : Option V → Nat
  | none => 0
  | some (.dict e) => 1 + if has e [p!"url"] = 1 then 1 + has e [p!"description"] else 1
  | some _ => 1

/-- The external documentation of a schema as it is given. -/
def docsOf (d : List (Str × V)) : Option V :=
  match lookup p!"externalDocs" d with
  | some x => some x
  | none => lookup p!"external_docs" d

/-- How many of AsyncAPI's own words of a Schema the object has. -/
def schemaWords (d : List (Str × V)) : Nat :=
  has d [p!"discriminator"] + docsWords (docsOf d) + has d [p!"deprecated"]

end Verif.Spec
