import Verif.Py.Value
/-! Operations on a patterned object, and on a set of objects, and what they can return. -/
namespace Verif

/-- What an operation returns. -/
inductive Out where
  | unit
  | val (v : V)
  | bool (b : Bool)
  | nat (n : Nat)
  | keys (ks : List Str)
  | keyError
  deriving Inhabited

/-- Operations of a patterned object. -/
inductive Op where
  | get (k : Str)
  | set (k : Str) (v : V)
  | del (k : Str)
  | contains (k : Str)
  | len
  | iter

/-- Operations on a Python set of objects, which are given by their identity; `assign` changes an object. -/
inductive SetOp where
  | add (x : Nat)
  | discard (x : Nat)
  | contains (x : Nat)
  | len
  | assign (x : Nat) (v : V)

/-- What they return. -/
inductive SetOut where
  | unit
  | bool (b : Bool)
  | nat (n : Nat)
  | typeError
  deriving DecidableEq, Repr

end Verif
