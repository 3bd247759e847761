import Verif.Spec.Dump
import Verif.Spec.Stable
/-!
# Writing and reading back

Nothing here refers to `Verif/Model`.
-/
namespace Verif.Spec
open Verif Verif.Gen

mutual
/-- Forget, at every depth, which fields of instances were given and which got their default. What
remains is what `==` compares: classes, values of declared fields, extra fields. -/
def forget : V → V
  | .none => .none
  | .bool b => .bool b
  | .int i => .int i
  | .float x => .float x
  | .str s => .str s
  | .url k s => .url k s
  | .proc n => .proc n
  | .list l => .list (forgetList l)
  | .dict d => .dict (forgetDict d)
  | .inst c fs ex _ => .inst c (forgetDict fs) (forgetDict ex) []
def forgetList : List V → List V
  | [] => []
  | v :: l => forget v :: forgetList l
def forgetDict : List (Str × V) → List (Str × V)
  | [] => []
  | (k, v) :: d => (k, forget v) :: forgetDict d
end

/-- A schema that, when written, is nothing but a `$ref` (or `ref`) with a string. -/
def RefLike (i : V) : Prop :=
  (∀ f ∈ (classDef .Schema).fields, i.attr f.name = .none) ∧
  ∃ k s, (k = p!"$ref" ∨ k = p!"ref") ∧ lookup k i.extras = some (.str s) ∧ ∀ e ∈ i.extras, e.1 = k

/-- An instance of class `c` that can be told from its written form: every field that is not written has its
default; no extra field takes the name of a declared one; a schema neither looks like a Reference nor
has a `schema`, and a multi-format schema has no keyword of a schema. -/
def RegularInst (c : Cls) (i : V) : Prop :=
  (∀ f ∈ (classDef c).fields, ¬ Shown c f (i.attr f.name) → HasDefault f.dflt (i.attr f.name)) ∧
  ((classDef c).kind = .openExtra → NotShadowed i) ∧
  (c = .Schema → ¬ RefLike i ∧ ∀ e ∈ i.extras, e.1 ≠ p!"schema") ∧
  (c = .MultiFormatSchema → ∀ e ∈ i.extras, ∀ f ∈ (classDef .Schema).fields, e.1 ≠ f.name ∧ e.1 ≠ jsonName f)

/-- The same for all instances in a value, at any depth. -/
inductive Regular : V → Prop
  | none : Regular .none
  | bool {b} : Regular (.bool b)
  | int {i} : Regular (.int i)
  | float {x} : Regular (.float x)
  | str {s} : Regular (.str s)
  | url {k s} : Regular (.url k s)
  | proc {n} : Regular (.proc n)
  | list {l} : (∀ v ∈ l, Regular v) → Regular (.list l)
  | dict {d} : (∀ e ∈ d, Regular e.2) → Regular (.dict d)
  | inst {c fs ex set} : RegularInst c (.inst c fs ex set) → (∀ e ∈ fs, Regular e.2) → Regular (.inst c fs ex set)

/-- Valid, and made of what JSON gives: values of arbitrary type and extra fields are JSON, URLs are of
the kind their field declares and in normal form, there are no processors, and no extra field has the JSON
name of a declared one. -/
inductive ValidJson (U : Uni) (limit : Option Nat) (norm : UrlKind → Str → Prop) : V → Ty Cls → Prop
  | any {v} : v.isJson = true → ValidJson U limit norm v .any
  | none : ValidJson U limit norm .none .none
  | str {s} : ValidJson U limit norm (.str s) .str
  | int {n} : ValidJson U limit norm (.int n) .int
  | bool {b} : ValidJson U limit norm (.bool b) .bool
  | anyUrl {s} : norm .any s → ValidJson U limit norm (.url .any s) .anyUrl
  | httpUrl {s} : norm .http s → ValidJson U limit norm (.url .http s) .httpUrl
  | email {s} : OrNewline EmailForm s → ValidJson U limit norm (.str s) .email
  | litStr {s vs} : Lit.s s ∈ vs → ValidJson U limit norm (.str s) (.lit vs)
  | litInt {n vs} : Lit.i n ∈ vs → ValidJson U limit norm (.int n) (.lit vs)
  | list {l t} : (∀ v ∈ l, ValidJson U limit norm v t) → ValidJson U limit norm (.list l) (.list t)
  | dict {d t} : (∀ e ∈ d, ValidJson U limit norm e.2 t) → ValidJson U limit norm (.dict d) (.dict t)
  | union {v t ts} : t ∈ ts → ValidJson U limit norm v t → ValidJson U limit norm v (.union ts)
  | model {c fs ex set} : fs.map (·.1) = (classDef c).fields.map (·.name) →
      (∀ f ∈ (classDef c).fields, ValidJson U limit norm ((V.inst c fs ex set).attr f.name) f.ty) →
      (∀ e ∈ ex, e.2.isJson = true) →
      Consistent U limit c (.inst c fs ex set) → (∀ e ∈ ex, ∀ f ∈ (classDef c).fields, e.1 ≠ jsonName f) →
      ValidJson U limit norm (.inst c fs ex set) (.model c)

end Verif.Spec
