import Verif.Py.Heap
/-!
# Model of `asyncapi3/validators/utils.py`
-/
namespace Verif.Resolve
open Verif

variable {C : Type} {n : Nat}

/-- The distinguishable `ValueError` messages of utils.py. -/
inductive Msg where
  | circular (ref : Str)        -- utils.py:88
  | unsupported (ref : Str)     -- utils.py:101
  | invalidPath (ref : Str)     -- utils.py:104
  | cannotNavigate (part path : Str)  -- utils.py:154
  | keyNotFound (part path : Str)     -- utils.py:171, 208
  | fieldNotFound (part path : Str)   -- utils.py:184
  | isNone (path : Str)         -- utils.py:187
  | failed (ref name : Str)     -- utils.py:63, wraps an AttributeError
  deriving DecidableEq, Repr

/-- Python exceptions that can be raised in utils.py. -/
inductive Exc where
  | valueError (m : Msg)
  | attributeError (name : Str)
  deriving DecidableEq, Repr

/-- `ReferenceResolutionResult`, utils.py:21-26. -/
structure Result (C : Type) (n : Nat) where
  obj : Val n
  ty : PyType C
  path : Str
  deriving DecidableEq, Repr

/-- `_is_external_reference`, utils.py:93-95. -/
def isExternal (ref : Str) : Bool :=
  ref.startsWith p!"http://" || ref.startsWith p!"https://"

/-- `_parse_reference_path`, utils.py:98-105.  (`not path_parts` cannot be true:
`split` never returns an empty list; the test is kept.) -/
def parsePath (ref : Str) : Except Exc (List Str) :=
  if !(ref.startsWith p!"#") then .error (.valueError (.unsupported ref))
  else
    let parts := Str.split '/' (Str.strip '/' (ref.drop 1))
    if parts = [] ∨ parts = [[]] then .error (.valueError (.invalidPath ref))
    else .ok parts

/-- `_has_root_mapping` (utils.py:159-161), returning the mapping. -/
def rootMapping (D : Doc C n) (v : Val n) : Option (List (Str × Val n)) :=
  match D.getattr v p!"root" with
  | some r => D.asDict r
  | .none => .none

/-- `_find_model_field_name`, utils.py:191-198. -/
def findField (part : Str) : List FieldInfo → Option Str
  | [] => .none
  | f :: rest =>
    if f.name = part then some f.name
    else if f.alias = some part then some f.name
    else findField part rest

/-- `_resolve_from_dict` (utils.py:201-210) and, on `current_obj.root`,
`_resolve_from_root` (utils.py:164-173). -/
def resolveFromDict (D : Doc C n) (kvs : List (Str × Val n)) (part path : Str) :
    Except Exc (Val n × PyType C) :=
  match lookup part kvs with
  | .none => .error (.valueError (.keyNotFound part path))
  | some w => .ok (w, D.typeOf w)

/-- `_resolve_from_model`, utils.py:176-188. -/
def resolveFromModel (T : ClassTable C) (D : Doc C n) (v : Val n) (c : C) (part path : Str) :
    Except Exc (Val n × PyType C) :=
  match findField part (T.fields c) with
  | .none => .error (.valueError (.fieldNotFound part path))
  | some name =>
    match D.getattr v name with
    | .none => .error (.attributeError name)
    | some w =>
      if w = .none then .error (.valueError (.isNone path))
      else .ok (w, D.typeOf w)

/-- `_resolve_path_part`, utils.py:130-156. -/
def resolvePart (T : ClassTable C) (D : Doc C n) (v : Val n) (part path : Str) :
    Except Exc (Val n × PyType C) :=
  match rootMapping D v with
  | some kvs => resolveFromDict D kvs part path
  | .none =>
    match D.asModel v with
    | some c => resolveFromModel T D v c part path
    | .none =>
      match D.asDict v with
      | some kvs => resolveFromDict D kvs part path
      | .none => .error (.valueError (.cannotNavigate part path))

/-- The loop of `_resolve_path_parts`, utils.py:117-125. -/
def resolveLoop (T : ClassTable C) (D : Doc C n) :
    List Str → Val n → PyType C → Str → Except Exc (Val n × PyType C × Str)
  | [], v, ty, path => .ok (v, ty, path)
  | part :: parts, v, ty, path =>
    if part = [] then resolveLoop T D parts v ty path
    else
      let path' := path ++ '.' :: part
      match resolvePart T D v part path' with
      | .error e => .error e
      | .ok (w, tw) => resolveLoop T D parts w tw path'

/-- `_resolve_path_parts`, utils.py:108-127. -/
def resolveParts (T : ClassTable C) (D : Doc C n) (parts : List Str) :
    Except Exc (Val n × PyType C × Str) :=
  resolveLoop T D parts (.ptr D.spec) (D.typeOf (.ptr D.spec)) p!"spec"

/-- `except AttributeError` of utils.py:57-63. -/
def wrapAttr {α : Type} (ref : Str) : Except Exc α → Except Exc α
  | .error (.attributeError name) => .error (.valueError (.failed ref name))
  | r => r

/-- `resolve_reference`, utils.py:29-77, with `_initialize_visited_refs`
(utils.py:80-90).  The Python recursion has no syntactic bound; `fuel` bounds
the number of activations and `none` means it ran out.  `some (.ok none)` is
the `None` returned for an external reference.

Simplification: logging is omitted, and so is CPython's recursion limit. -/
def resolveFuel (T : ClassTable C) (D : Doc C n) :
    Nat → List Str → Str → Option (Except Exc (Option (Result C n)))
  | 0, _, _ => .none
  | fuel + 1, visited, ref =>
    if ref ∈ visited then some (.error (.valueError (.circular ref)))
    else
      let visited := ref :: visited
      if isExternal ref then some (.ok .none)
      else match parsePath ref with
        | .error e => some (.error e)
        | .ok parts =>
          match wrapAttr ref (resolveParts T D parts) with
          | .error e => some (.error e)
          | .ok (v, ty, path) =>
            if D.isRef T v then
              match D.getattr v p!"ref" with
              | some (.str next) => resolveFuel T D fuel visited next
              | _ => some (.error (.attributeError p!"ref"))
            else some (.ok (some ⟨v, ty, path⟩))

/-- The string of the Reference stored at an address, if there is one.
Bookkeeping for the bound on the recursion of validators/utils.py:29-77. -/
def refAt (T : ClassTable C) (D : Doc C n) (a : Fin n) : Option Str :=
  if D.isRef T (.ptr a) then
    match D.getattr (.ptr a) p!"ref" with
    | some (.str s) => some s
    | _ => .none
  else .none

/-- All reference strings of the document, without repetition.
Bookkeeping for the bound on the recursion of validators/utils.py:29-77. -/
def refStrings (T : ClassTable C) (D : Doc C n) : List Str :=
  ((List.finRange n).filterMap (refAt T D)).eraseDups

/-- `resolve_reference(ref, spec)`: the fuel is the number of distinct reference
strings plus two.  `Props/C01` proves that it never runs out and that more fuel
gives the same answer. validators/utils.py:29-77. -/
def resolve (T : ClassTable C) (D : Doc C n) (ref : Str) :
    Option (Except Exc (Option (Result C n))) :=
  resolveFuel T D ((refStrings T D).length + 2) [] ref

end Verif.Resolve
