import Verif.Gen.Classes
/-!
# What a `ValidationError` says

Python side: `e.errors()` of a `pydantic.ValidationError` `e` is a list of entries with a location `loc`
(a tuple of keys, list indices and labels of union members), a type and a message. The type is kept apart only as far
as a field that is missing (`"missing"`), a key that is not allowed (`"extra_forbidden"`) and all the rest. Of messages,
the text of a `ValueError` raised by a validator of the package is kept (pydantic puts `Value error, ` before it).
-/
namespace Verif
open Verif.Gen

/-- A step of a location. The label of a union member stands for the text pydantic makes of its type. -/
inductive Step where
  | key (k : Str)
  | index (n : Nat)
  | member (t : Ty Cls)

/-- The type of an entry of `e.errors()`, as far as it is kept. -/
inductive Why where
  | missing
  | unexpected
  /-- Anything else, with the text of the package's validator that complains, if it is one. -/
  | wrong (text : Option Str)
  deriving DecidableEq

/-- An entry of `e.errors()`. -/
structure Fault where
  loc : List Step
  why : Why

end Verif
