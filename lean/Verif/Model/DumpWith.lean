import Verif.Model.Equal
import Verif.Model.Pyd
/-!
# Model of writing with options

`model_dump(mode="json", by_alias=..., exclude_unset=..., exclude_defaults=..., exclude_none=...)` of pydantic 2.12.5
(uv.lock:300-301; not in /repo), which the classes of models/** inherit (models/base_models.py:17, 57, 74; models/schema.py:20,
103). `include`, `exclude`, `round_trip` and `context` are not modelled.
-/
namespace Verif.Pyd
open Verif Verif.Gen

/-- The options. Their defaults: aliases because of `serialize_by_alias`, models/base_models.py:30,68,85; the others as in
pydantic. -/
structure Options where
  byAlias : Bool := true
  excludeUnset : Bool := false
  excludeDefaults : Bool := false
  excludeNone : Bool := false

/-- Is a declared field with value `v`, in an instance with that record of given fields, left out? `exclude=True`,
models/asyncapi.py:139,148; `exclude_if=is_null`, models/helpers.py:11-16; the options in pydantic-core (uv.lock:300-301). -/
def leftOut (o : Options) (set : List Str) (f : FieldDef Cls) (v : V) : Bool :=
  (o.excludeUnset && !set.contains f.name) || (o.excludeNone && v.isNone) || f.exclude ||
  (o.excludeDefaults && (match dfltValue f.dflt with
    | some d => pyEq v d
    | none => false)) || (f.excludeNull && v.isNone)

mutual
/-- `model_dump(mode="json", ...)`, on values. `exclude_unset` looks at declared fields only, `exclude_none` at extra
fields, too; neither at entries of dicts or items of lists. Config in models/base_models.py:26-33,64-71,82-88. -/
def dumpWith (o : Options) : V → V
  | .url _ s => .str s
  | .list l => .list (dumpWithList o l)
  | .dict d => .dict (dumpWithDict o d)
  | .inst c fs ex set => match (classDef c).kind with
    | .patterned => (lookup p!"root" (dumpWithDict o fs)).getD .none
    | _ => .dict (dumpWithFields o c set fs ++ dumpWithExtras o ex)
  | .none => .none
  | .bool b => .bool b
  | .int i => .int i
  | .float x => .float x
  | .str s => .str s
  | .proc n => .proc n
/-- Items of a list; see `dumpWith`, models/base_models.py:26-33. -/
def dumpWithList (o : Options) : List V → List V
  | [] => []
  | v :: l => dumpWith o v :: dumpWithList o l
/-- Entries of a dict; see `dumpWith`, models/base_models.py:26-33. -/
def dumpWithDict (o : Options) : List (Str × V) → List (Str × V)
  | [] => []
  | (k, v) :: d => (k, dumpWith o v) :: dumpWithDict o d
/-- Extra fields; see `dumpWith`, models/base_models.py:26-33. -/
def dumpWithExtras (o : Options) : List (Str × V) → List (Str × V)
  | [] => []
  | (k, v) :: d =>
    if o.excludeNone && v.isNone then dumpWithExtras o d else (k, dumpWith o v) :: dumpWithExtras o d
/-- Declared fields; see `dumpWith`, models/base_models.py:26-33, models/helpers.py:11-16. -/
def dumpWithFields (o : Options) (c : Cls) (set : List Str) : List (Str × V) → List (Str × V)
  | [] => []
  | (k, v) :: d => match fieldOf c k with
    | none => dumpWithFields o c set d
    | some f =>
      if leftOut o set f v then dumpWithFields o c set d
      else (if o.byAlias then f.alias.getD f.name else f.name, dumpWith o v) :: dumpWithFields o c set d
end

end Verif.Pyd
