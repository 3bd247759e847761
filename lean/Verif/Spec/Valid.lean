import Verif.Spec.Fields
/-!
# Valid values

A value is valid for a type if it has it, and every instance in it, at any depth, satisfies all
constraints of its class. Nothing here refers to `Verif/Model`.
-/
namespace Verif.Spec
open Verif Verif.Gen

/-- All constraints of class `c` on the instance `i`, apart from the types of its fields: names of extra
fields, no extra fields where they are forbidden, keys of patterned objects, lengths, the class's own
rules, and the version of a document. -/
structure Consistent (U : Uni) (limit : Option Nat) (c : Cls) (i : V) : Prop where
  extensions : ExtensionRule U c i
  closed : (classDef c).kind = .nonExtendable ∨ (classDef c).kind = .patterned → i.extras = []
  keys : (classDef c).kind = .patterned → ∀ d, i.attr p!"root" = .dict d → ∀ e ∈ d, OrNewline KeyForm e.1
  lengths : ∀ f ∈ (classDef c).fields, ∀ m s, f.maxLen = some m → i.attr f.name = .str s → s.length ≤ m
  rule : Rule c i
  version : c = .AsyncAPI3 → i.attr p!"asyncapi" = .str p!"3.0.0" ∨
    ∃ s, i.attr p!"asyncapi" = .str s ∧ VersionOk U limit s

/-- `v` is valid for a type. -/
inductive Valid (U : Uni) (limit : Option Nat) : V → Ty Cls → Prop
  | any {v} : Valid U limit v .any
  | none : Valid U limit .none .none
  | str {s} : Valid U limit (.str s) .str
  | int {n} : Valid U limit (.int n) .int
  | bool {b} : Valid U limit (.bool b) .bool
  | anyUrl {k s} : Valid U limit (.url k s) .anyUrl
  | httpUrl {s} : Valid U limit (.url .http s) .httpUrl
  | email {s} : OrNewline EmailForm s → Valid U limit (.str s) .email
  | processors {n} : Valid U limit (.proc n) .processors
  | litStr {s vs} : Lit.s s ∈ vs → Valid U limit (.str s) (.lit vs)
  | litInt {n vs} : Lit.i n ∈ vs → Valid U limit (.int n) (.lit vs)
  | list {l t} : (∀ v ∈ l, Valid U limit v t) → Valid U limit (.list l) (.list t)
  | dict {d t} : (∀ e ∈ d, Valid U limit e.2 t) → Valid U limit (.dict d) (.dict t)
  | union {v t ts} : t ∈ ts → Valid U limit v t → Valid U limit v (.union ts)
  | model {c fs ex set} : fs.map (·.1) = (classDef c).fields.map (·.name) →
      (∀ f ∈ (classDef c).fields, Valid U limit ((V.inst c fs ex set).attr f.name) f.ty) →
      Consistent U limit c (.inst c fs ex set) → Valid U limit (.inst c fs ex set) (.model c)

end Verif.Spec
