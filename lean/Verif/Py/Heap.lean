import Verif.Py.Str
/-!
# Python object graphs

The validators in `asyncapi3/validators` inspect live Python objects, in which
objects may be shared and may (after item assignment) contain themselves.  So a
document is a finite graph: `n` addresses, each holding a list, a dict or a
pydantic model instance.  Everything that has no children (strings, numbers,
booleans, enum members, URLs, classes) is a value without an address.

Simplifications: dict keys are strings (JSON documents); `Mapping`s other than
`dict` do not occur; user subclasses may be added through the class table.
-/
namespace Verif

/-- A Python type, as far as the validators look at it: a model class or a
built-in type given by name. -/
inductive PyType (C : Type) where
  | cls (c : C)
  | builtin (name : Str)
  deriving DecidableEq, Repr

/-- A Python value: `None`, a string, another childless value of the named type,
or a reference to the object at an address. -/
inductive Val (n : Nat) where
  | none
  | str (s : Str)
  | atom (ty : Str)
  | ptr (a : Fin n)
  deriving DecidableEq, Repr

/-- The object stored at an address.  A model instance has declared fields
(`__dict__`) and extra fields (`__pydantic_extra__`), both in order. -/
inductive Node (C : Type) (n : Nat) where
  | list (items : List (Val n))
  | dict (items : List (Str × Val n))
  | model (cls : C) (fields : List (Str × Val n)) (extra : List (Str × Val n))
  deriving Repr

/-- One entry of `cls.model_fields`: attribute name, JSON alias if any, and the
`exclude` flag (pydantic `FieldInfo`). -/
structure FieldInfo where
  name : Str
  alias : Option Str
  exclude : Bool
  deriving DecidableEq, Repr

/-- What the validators ask about classes: `cls.model_fields` and
`issubclass`; `reference` is the class `Reference` (models/base.py:11). -/
structure ClassTable (C : Type) where
  fields : C → List FieldInfo
  sub : C → C → Bool
  reference : C

/-- A document: the object graph and the address of the `AsyncAPI3` instance. -/
structure Doc (C : Type) (n : Nat) where
  node : Fin n → Node C n
  spec : Fin n

variable {C : Type} {n : Nat}

/-- `dict.get`: first entry with the key (Python dicts have at most one). -/
def lookup {β : Type} (k : Str) : List (Str × β) → Option β
  | [] => .none
  | (k', v) :: rest => if k' = k then some v else lookup k rest

/-- `type(v)`. -/
def Doc.typeOf (D : Doc C n) : Val n → PyType C
  | .none => .builtin p!"NoneType"
  | .str _ => .builtin p!"str"
  | .atom ty => .builtin ty
  | .ptr a => match D.node a with
    | .list _ => .builtin p!"list"
    | .dict _ => .builtin p!"dict"
    | .model c _ _ => .cls c

/-- `getattr(v, name)` for instance data of a model: declared fields, then
extras (`BaseModel.__getattr__`).  `none` is an `AttributeError`.  Methods and
class attributes are not modelled: the code only asks for `root`, `ref` and
declared field names. -/
def Doc.getattr (D : Doc C n) (v : Val n) (name : Str) : Option (Val n) :=
  match v with
  | .ptr a => match D.node a with
    | .model _ fs ex => match lookup name fs with
      | some w => some w
      | .none => lookup name ex
    | _ => .none
  | _ => .none

/-- The items of a dict object (`isinstance(v, dict)`). -/
def Doc.asDict (D : Doc C n) : Val n → Option (List (Str × Val n))
  | .ptr a => match D.node a with
    | .dict kvs => some kvs
    | _ => .none
  | _ => .none

/-- The class of a model instance (`isinstance(v, BaseModel)`). -/
def Doc.asModel (D : Doc C n) : Val n → Option C
  | .ptr a => match D.node a with
    | .model c _ _ => some c
    | _ => .none
  | _ => .none

/-- `isinstance(v, Reference)`. -/
def Doc.isRef (T : ClassTable C) (D : Doc C n) (v : Val n) : Bool :=
  match D.asModel v with
  | some c => T.sub c T.reference
  | .none => false

end Verif
