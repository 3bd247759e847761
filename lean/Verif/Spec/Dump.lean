import Verif.Spec.Valid
/-!
# Serialized form

Nothing here refers to `Verif/Model`, nor to the `exclude`/`exclude_if` columns of the class table.
-/
namespace Verif.Spec
open Verif Verif.Gen

/-- The JSON name of a field. -/
def jsonName (f : FieldDef Cls) : Str := f.alias.getD f.name

/-- Is a field with value `v` written? Never the processors of a document; `null` only for the address of a
channel (where it means "unknown") and for the required, arbitrary `schema` of a multi-format
schema. -/
def Shown (c : Cls) (f : FieldDef Cls) (v : V) : Prop :=
  ¬ (c = .AsyncAPI3 ∧ (f.name = p!"extra_converters" ∨ f.name = p!"extra_validators")) ∧
  (v ≠ .none ∨ (c = .Channel ∧ f.name = p!"address") ∨ (c = .MultiFormatSchema ∧ f.name = p!"schema"))

end Verif.Spec
