import Verif.Model.Path
import Verif.Model.Resolve
/-!
# Model of `UnifiedReferencesValidator`
(asyncapi3/validators/unified_references_validator.py)

Simplification: `validated_refs` is only ever added to and tested before being
added to (lines 270-271), so it has no effect and is omitted, as is logging.
-/
namespace Verif.Unified
open Verif Verif.Resolve

variable {C : Type} {n : Nat}

/-- The distinguishable errors of unified_references_validator.py, with what their texts show: the path of the
Reference and the message of `resolve_reference` (lines 277-280); its path, the path, type and expected types of what it
leads to (lines 289-296); the normalized path (lines 386-390). -/
inductive Err (C : Type) where
  | invalidRef (path : Str) (m : Msg)
  | typeMismatch (path resolved : Str) (actual : PyType C) (expected : List C)
  | unknownType (normalized : Str)
  | attributeError (name : Str)
  deriving DecidableEq, Repr

/-- `_is_type_compatible`, lines 517-543; the expected type is the list of the
members of the union. unified_references_validator.py. -/
def compatible [DecidableEq C] (T : ClassTable C) (actual : PyType C) (expected : List C) : Bool :=
  match actual with
  | .cls c => expected.any fun d => decide (c = d) || T.sub c d
  | .builtin _ => false

/-- `validate_reference`, lines 250-296. The outer `Option` is fuel exhaustion
of `resolve`, which never happens (C01). unified_references_validator.py. -/
def validateReference [DecidableEq C] (T : ClassTable C) (U : Uni) (M : List (Str × List C))
    (D : Doc C n) (v : Val n) (path : Str) : Option (Except (Err C) Unit) :=
  match D.getattr v p!"ref" with
  | some (.str s) =>
    match resolve T D s with
    | none => none
    | some (.error (.valueError m)) => some (.error (.invalidRef path m))
    | some (.error (.attributeError a)) => some (.error (.attributeError a))
    | some (.ok none) => some (.ok ())
    | some (.ok (some res)) =>
      match Path.expectedType U M path with
      | none => some (.error (.unknownType (Path.normalize U path)))
      | some expected =>
        if compatible T res.ty expected then some (.ok ()) else some (.error (.typeMismatch path res.path res.ty expected))
  | _ => some (.error (.attributeError p!"ref"))

/-- Run in order, stop at the first failure. unified_references_validator.py:298-357. -/
def seq : List (Option (Except (Err C) Unit)) → Option (Except (Err C) Unit)
  | [] => some (.ok ())
  | some (.ok ()) :: rest => seq rest
  | r :: _ => r

/-- Decimal digits of a list index, as `f"{i}"` prints it. unified_references_validator.py:298-314. -/
def digits (i : Nat) : Str := Nat.toDigits 10 i

/-- `validate_references_recursive` (lines 180-248) with
`_validate_list_references` (298-314), `_validate_mapping_references` (316-333)
and `_validate_model_references` (335-357).

`visited` is the set `visited_objects`; `discard` in the `finally` clause makes
it exactly the addresses of the enclosing activations. Childless values have no
references and return immediately. `fuel` bounds the recursion depth; `none`
means it ran out. unified_references_validator.py. -/
def validateRec [DecidableEq C] (T : ClassTable C) (U : Uni) (M : List (Str × List C)) (D : Doc C n) :
    Nat → List (Fin n) → Val n → Str → Option (Except (Err C) Unit)
  | 0, _, _, _ => none
  | fuel + 1, visited, v, path =>
    match v with
    | .ptr a =>
      if a ∈ visited then some (.ok ())
      else if D.isRef T v then validateReference T U M D v path
      else match D.node a with
        | .list items => seq <| items.zipIdx.map fun (x, i) =>
            validateRec T U M D fuel (a :: visited) x (path ++ '[' :: (digits i ++ [']']))
        | .dict kvs => seq <| kvs.map fun (k, x) =>
            validateRec T U M D fuel (a :: visited) x (path ++ '.' :: Path.escape k)
        | .model c _ _ => seq <| (T.fields c).map fun f =>
            match D.getattr v f.name with
            | none => some (.error (.attributeError f.name))
            | some x =>
              if x = .none ∨ f.exclude = true then some (.ok ())
              else validateRec T U M D fuel (a :: visited) x (path ++ '.' :: f.name)
    | _ => some (.ok ())

/-- `UnifiedReferencesValidator.__call__` / `validate_references`
(lines 145-178). The recursion depth is bounded by the number of objects
(Props/C09). unified_references_validator.py. -/
def validate [DecidableEq C] (T : ClassTable C) (U : Uni) (M : List (Str × List C)) (D : Doc C n) :
    Option (Except (Err C) Unit) :=
  validateRec T U M D (n + 1) [] (.ptr D.spec) p!"spec"

end Verif.Unified
