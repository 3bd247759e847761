import Verif.Model.Mutate
/-!
# Model of deleting attributes

`del i.name`: `BaseModel.__delattr__` of pydantic 2.12.5 (uv.lock:300-301; not in /repo), which the classes of models/** inherit
(models/base_models.py:17, 57, 74; models/schema.py:20, 103) and do not override. No class is frozen, and none has private
attributes or cached properties. Names of attributes that Python itself gives instances (`__dict__`, `__pydantic_extra__`, ...) are
not modelled.
-/
namespace Verif.Mutate
open Verif Verif.Gen Verif.Pyd

/-- `del i.name`; `none` if it raises an AttributeError. A declared field is deleted from `__dict__`, another one from
`__pydantic_extra__`; nothing is validated, and the record of what was given is not changed.
Inherited by the classes of models/base_models.py:17, 57, 74. -/
def delAttr (i : V) (name : Str) : Option V :=
  match i with
  | .inst c fs ex set =>
    if (fieldOf c name).isSome then (dictDel fs name).map fun fs' => .inst c fs' ex set
    else (dictDel ex name).map fun ex' => .inst c fs ex' set
  | _ => none

end Verif.Mutate
