import Verif.Py.Value
/-!
# Model of `==`

`BaseModel.__eq__` of pydantic 2.12 (uv.lock:300-301), which all classes of models/** inherit (models/base_models.py:17, 57,
74; models/schema.py:20, 103; none of them overrides it), and `==` of the values in their fields.
-/
namespace Verif.Pyd
open Verif Verif.Gen

mutual
/-- `a == b`. Instances: same type, equal `__dict__`, equal `__pydantic_extra__`; `__pydantic_fields_set__` is not compared
(models/base_models.py:17, 57, 74 inherit pydantic's `__eq__`). `True == 1`. Simplified: floats are opaque and are compared as
they are written, and not with integers. -/
def pyEq : V → V → Bool
  | .none, .none => true
  | .bool a, .bool b => a == b
  | .bool a, .int n => n == (if a then 1 else 0)
  | .int n, .bool a => n == (if a then 1 else 0)
  | .int m, .int n => m == n
  | .float x, .float y => x == y
  | .str s, .str t => s == t
  | .url k s, .url l t => decide (k = l) && s == t
  | .proc m, .proc n => m == n
  | .list l, .list m => eqList l m
  | .dict d, .dict e => d.length == e.length && eqDict d e
  | .inst c fs ex _, .inst c' fs' ex' _ => decide (c = c') && (fs.length == fs'.length && eqDict fs fs') &&
      (ex.length == ex'.length && eqDict ex ex')
  | _, _ => false
/-- Lists, item by item; see `pyEq`, models/base_models.py:17, 57, 74. -/
def eqList : List V → List V → Bool
  | [], [] => true
  | a :: l, b :: m => pyEq a b && eqList l m
  | _, _ => false
/-- Every entry of the first dict is in the second; see `pyEq`, models/base_models.py:17, 57, 74. -/
def eqDict : List (Str × V) → List (Str × V) → Bool
  | [], _ => true
  | (k, v) :: d, e => (match lookup k e with
    | some w => pyEq v w
    | none => false) && eqDict d e
end

end Verif.Pyd
