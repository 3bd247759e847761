import Verif.Spec.Dump
import Verif.Spec.Errors
/-!
# Specification of JSON Schema, and of JSON that has the declared types

`Satisfies` is validation by JSON Schema, draft 2020-12, for the keywords that occur (`format` checks nothing). `TypedJson` says of
JSON that it has the types the classes declare, under the JSON names of fields. Nothing here refers to `Verif/Model`.
-/
namespace Verif.Spec
open Verif Verif.Gen

/-! ### JSON Schema -/

/-- The keywords that `Satisfies` knows. -/
def knownKeywords : List Str := [p!"$defs", p!"$ref", p!"anyOf", p!"type", p!"enum", p!"const", p!"minLength", p!"maxLength", p!"items",
  p!"required", p!"properties", p!"additionalProperties", p!"format"]

/-- The value is of the type that the keyword `type` names. -/
inductive JsonType : Str → V → Prop
  | null : JsonType p!"null" .none
  | boolean {b} : JsonType p!"boolean" (.bool b)
  | integer {n} : JsonType p!"integer" (.int n)
  | string {s} : JsonType p!"string" (.str s)
  | array {l} : JsonType p!"array" (.list l)
  | object {d} : JsonType p!"object" (.dict d)

/-- The reference `#/$defs/name` in the schema `root` leads to `s`. -/
def DefinedAs (root : V) (ref : Str) (s : V) : Prop :=
  ∃ kw defs name, root = .dict kw ∧ lookup p!"$defs" kw = some (.dict defs) ∧ ref = p!"#/$defs/" ++ name ∧ lookup name defs = some s

/-- The value satisfies the schema, which is a part of the schema `root`. `target` is what a `$ref` leads to, `chosen` the alternative of an `anyOf`
that is satisfied. -/
inductive Satisfies (root : V) : V → V → Prop
  | always {v} : Satisfies root v (.bool true)
  | keywords {v kw target chosen} :
      (∀ r, lookup p!"$ref" kw = some (.str r) → DefinedAs root r target) →
      (∀ r, lookup p!"$ref" kw = some (.str r) → Satisfies root v target) →
      (∀ l, lookup p!"anyOf" kw = some (.list l) → chosen ∈ l) →
      (∀ l, lookup p!"anyOf" kw = some (.list l) → Satisfies root v chosen) →
      (∀ t, lookup p!"type" kw = some (.str t) → JsonType t v) →
      (∀ l, lookup p!"enum" kw = some (.list l) → v ∈ l) →
      (∀ x, lookup p!"const" kw = some x → v = x) →
      (∀ n, lookup p!"minLength" kw = some (.int n) → ∀ s, v = .str s → n ≤ s.length) →
      (∀ n, lookup p!"maxLength" kw = some (.int n) → ∀ s, v = .str s → (s.length : Int) ≤ n) →
      (∀ t, lookup p!"items" kw = some t → ∀ l, v = .list l → ∀ x ∈ l, Satisfies root x t) →
      (∀ l, lookup p!"required" kw = some (.list l) → ∀ d, v = .dict d → ∀ k, .str k ∈ l → ∃ x, lookup k d = some x) →
      (∀ ps, lookup p!"properties" kw = some (.dict ps) → ∀ d, v = .dict d → ∀ k t x, lookup k ps = some t → lookup k d = some x →
        Satisfies root x t) →
      (∀ t, lookup p!"additionalProperties" kw = some t → ∀ d, v = .dict d → ∀ e ∈ d,
        (∀ ps, lookup p!"properties" kw = some (.dict ps) → lookup e.1 ps = none) → Satisfies root e.2 t) →
      Satisfies root v (.dict kw)

/-- The schema is well made: it has no keywords but the known ones, each with a value that makes sense, and its references lead somewhere. -/
inductive WellMade (root : V) : V → Prop
  | bool {b} : WellMade root (.bool b)
  | keywords {kw} :
      (kw.map (·.1)).Nodup →
      (∀ e ∈ kw, e.1 ∈ knownKeywords) →
      (∀ x, lookup p!"$ref" kw = some x → ∃ r s, x = .str r ∧ DefinedAs root r s) →
      (∀ x, lookup p!"anyOf" kw = some x → ∃ l, x = .list l ∧ l ≠ []) →
      (∀ l, lookup p!"anyOf" kw = some (.list l) → ∀ s ∈ l, WellMade root s) →
      (∀ x, lookup p!"type" kw = some x → ∃ t v, x = .str t ∧ JsonType t v) →
      (∀ x, lookup p!"enum" kw = some x → ∃ l, x = .list l ∧ l ≠ []) →
      (∀ x, lookup p!"minLength" kw = some x → ∃ n : Nat, x = .int n) →
      (∀ x, lookup p!"maxLength" kw = some x → ∃ n : Nat, x = .int n) →
      (∀ x, lookup p!"items" kw = some x → WellMade root x) →
      (∀ x, lookup p!"required" kw = some x → ∃ l : List Str, x = .list (l.map .str) ∧ l.Nodup) →
      (∀ x, lookup p!"properties" kw = some x → ∃ ps, x = .dict ps ∧ (ps.map (·.1)).Nodup) →
      (∀ ps, lookup p!"properties" kw = some (.dict ps) → ∀ e ∈ ps, WellMade root e.2) →
      (∀ x, lookup p!"additionalProperties" kw = some x → WellMade root x) →
      (∀ x, lookup p!"$defs" kw = some x → ∃ ds, x = .dict ds ∧ (ds.map (·.1)).Nodup) →
      (∀ ds, lookup p!"$defs" kw = some (.dict ds) → ∀ e ∈ ds, WellMade root e.2) →
      WellMade root (.dict kw)

/-! ### Declared types -/

/-- The JSON value has the declared type. Of an object: the required fields are there, the fields that are there have their types
and lengths, and a closed class has no other keys. Rules between fields, forms of keys, addresses and URLs do not matter. -/
inductive TypedJson : V → Ty Cls → Prop
  | any {v} : TypedJson v .any
  | none : TypedJson .none .none
  | str {s} : TypedJson (.str s) .str
  | int {n} : TypedJson (.int n) .int
  | bool {b} : TypedJson (.bool b) .bool
  | email {s} : TypedJson (.str s) .email
  | anyUrl {s} : s ≠ [] → TypedJson (.str s) .anyUrl
  | httpUrl {s} : s ≠ [] → s.length ≤ 2083 → TypedJson (.str s) .httpUrl
  | litStr {s vs} : Lit.s s ∈ vs → TypedJson (.str s) (.lit vs)
  | litInt {n vs} : Lit.i n ∈ vs → TypedJson (.int n) (.lit vs)
  | list {l t} : (∀ x ∈ l, TypedJson x t) → TypedJson (.list l) (.list t)
  | dict {d t} : (∀ e ∈ d, TypedJson e.2 t) → TypedJson (.dict d) (.dict t)
  | union {v t ts} : t ∈ ts → TypedJson v t → TypedJson v (.union ts)
  | root {v c f} : (classDef c).kind = .patterned → f ∈ (classDef c).fields → TypedJson v f.ty → TypedJson v (.model c)
  | object {c d} : (classDef c).kind ≠ .patterned →
      (∀ f ∈ (classDef c).fields, f.dflt = .required → ∃ x, lookup (jsonName f) d = some x) →
      (∀ f ∈ (classDef c).fields, f.exclude = false → ∀ x, lookup (jsonName f) d = some x → TypedJson x f.ty) →
      (∀ f ∈ (classDef c).fields, ∀ m s, f.maxLen = some m → lookup (jsonName f) d = some (.str s) → s.length ≤ m) →
      ((classDef c).kind = .nonExtendable → ∀ e ∈ d, ∃ f ∈ (classDef c).fields, f.exclude = false ∧ e.1 = jsonName f) →
      TypedJson (.dict d) (.model c)

/-! ### Inputs -/

/-- To validate `v` against `t`, `v'` is validated against `t'`, at some depth. -/
inductive Tried : V → Ty Cls → V → Ty Cls → Prop
  | self {v t} : Tried v t v t
  | part {v t pre v' t' w u} : Portion v t pre v' t' → Tried v' t' w u → Tried v t w u

/-- Nothing in the input is converted, and all fields are given by their JSON names. -/
structure Literally (accept : V → Ty Cls → V → Prop) (v : V) (t : Ty Cls) : Prop where
  ints : ∀ w y, Tried v t w .int → accept w .int y → ∃ n, w = .int n
  bools : ∀ w y, Tried v t w .bool → accept w .bool y → ∃ b, w = .bool b
  names : ∀ d c y f k x, Tried v t (.dict d) (.model c) → accept (.dict d) (.model c) y → f ∈ (classDef c).fields → GivenAs f d k x →
    k = jsonName f

/-- URLs have at least one character, and web addresses at most 2083. -/
def UrlsFit (isUrl : UrlKind → Str → Prop) : Prop := ∀ k s, isUrl k s → s ≠ [] ∧ (k = .http → s.length ≤ 2083)

end Verif.Spec
