import Verif.Py.Str
/-!
# Declared types and fields of pydantic model classes

The vocabulary in which `Verif/Gen/Classes.lean` (generated from the source text
of `asyncapi3/models` by `tools/gen_classes.py`) states the class declarations.
-/
namespace Verif

/-- A member of a `Literal[...]`. -/
inductive Lit where
  | s (x : Str)
  | i (x : Int)
  deriving DecidableEq, Repr

/-- Annotations occurring in `asyncapi3/models`.  `dict t` is `dict[str, t]`;
`processors` is `type[ProcessorProtocol]`; `anyUrl`, `httpUrl` are pydantic's
URL types and `email` is `helpers.EmailStr`. -/
inductive Ty (C : Type) where
  | any | none | str | int | bool | anyUrl | httpUrl | email | processors
  | lit (vs : List Lit)
  | list (t : Ty C)
  | dict (t : Ty C)
  | model (c : C)
  | union (ts : List (Ty C))
  deriving Repr

/-- The `default` of a field. -/
inductive Dflt where
  | required
  | null
  | bool (b : Bool)
  | str (s : Str)
  | int (i : Int)
  deriving DecidableEq, Repr

/-- A declared field. `excludeNull` is `exclude_if=is_null`. -/
structure FieldDef (C : Type) where
  name : Str
  alias : Option Str
  ty : Ty C
  dflt : Dflt
  exclude : Bool
  excludeNull : Bool
  maxLen : Option Nat
  deriving Repr

/-- Which base a class has: `ExtendableBaseModel` (base_models.py:17),
`NonExtendableBaseModel` (base_models.py:57), a `BaseModel` with
`extra="allow"` and no key check (schema.py:64,112; kafka.py:74), or
`PatternedRootModel` (base_models.py:74). -/
inductive Kind where
  | extendable
  | nonExtendable
  | openExtra
  | patterned
  deriving DecidableEq, Repr

/-- A class declaration. A patterned class has the single field `root`. -/
structure ClassDef (C : Type) where
  kind : Kind
  fields : List (FieldDef C)
  deriving Repr

end Verif
