import Verif.Spec.Resolve
/-!
# Specification of reference checking

Locations are lists of steps; nothing here refers to `Verif/Model`.
-/
namespace Verif.Spec
open Verif
variable {C : Type} {n : Nat}

/-- A step into an object. -/
inductive LocStep where
  | field (name : Str)
  | index (i : Nat)
  | key (k : Str)
  deriving DecidableEq, Repr

/-- The value found one step below the object at `a`: a list item, a mapping
value, or a non-null declared field that is not excluded. -/
inductive Child (T : ClassTable C) (D : Doc C n) (a : Fin n) : LocStep → Val n → Prop
  | item {xs i v} : D.node a = .list xs → xs[i]? = some v → Child T D a (.index i) v
  | entry {kvs k v} : D.node a = .dict kvs → (k, v) ∈ kvs → Child T D a (.key k) v
  | field {c fs ex f v} : D.node a = .model c fs ex → f ∈ T.fields c → f.exclude = false →
      (f.name, v) ∈ fs → v ≠ .none → Child T D a (.field f.name) v

/-- `Trail a steps objs b`: walking down from `a` by `steps`, through the objects
`objs` (first `a`, last `b`), all different and none but possibly `b` a Reference. -/
inductive Trail (T : ClassTable C) (D : Doc C n) : Fin n → List LocStep → List (Fin n) → Fin n → Prop
  | nil {a} : Trail T D a [] [a] a
  | cons {a s c ss objs b} : (∀ r, ¬ IsReference T D (.ptr a) r) → Child T D a s (.ptr c) →
      Trail T D c ss objs b → a ∉ objs → Trail T D a (s :: ss) (a :: objs) b

/-- Like `Trail`, objects may repeat. -/
inductive Descends (T : ClassTable C) (D : Doc C n) : Fin n → List LocStep → Fin n → Prop
  | nil {a} : Descends T D a [] a
  | cons {a s c ss b} : (∀ r, ¬ IsReference T D (.ptr a) r) → Child T D a s (.ptr c) →
      Descends T D c ss b → Descends T D a (s :: ss) b

/-- A Reference with string `s` occurs at location `steps` of the document. -/
def Occurs (T : ClassTable C) (D : Doc C n) (steps : List LocStep) (s : Str) : Prop :=
  ∃ objs b, Trail T D D.spec steps objs b ∧ IsReference T D (.ptr b) s

/-- Escaping: a backslash before each dot and backslash. -/
def escapeSpec (k : Str) : Str :=
  k.flatMap fun c => if c = '.' ∨ c = '\\' then ['\\', c] else [c]

/-- The dotted text of a location, starting from `spec`. -/
def stepText : LocStep → Str
  | .field f => '.' :: f
  | .index i => '[' :: (Nat.toDigits 10 i ++ [']'])
  | .key k => '.' :: escapeSpec k

/-- The text of a location. -/
def render (steps : List LocStep) : Str := p!"spec" ++ steps.flatMap stepText

/-- `ty` is one of the classes, or a subclass of one. -/
def InstanceOf (T : ClassTable C) (ty : PyType C) (cs : List C) : Prop :=
  ∃ c, ty = .cls c ∧ ∃ d ∈ cs, c = d ∨ T.sub c d = true

/-- Single-reference check: the chain from `s` ends outside the document, or at
an object of (a subclass of) the type expected at that place. -/
def RefOk (T : ClassTable C) (D : Doc C n) (expected : Option (List C)) (s : Str) : Prop :=
  (∃ r, Hops T D s r ∧ External r) ∨
  (∃ r v cs, Hops T D s r ∧ Lands T D r v ∧ expected = some cs ∧ InstanceOf T (D.typeOf v) cs)

/-- A string matches a glob: `*` any string, `?` any character, others themselves. -/
inductive Glob : Str → Str → Prop
  | nil : Glob [] []
  | star {p s t} : Glob p t → Glob ('*' :: p) (s ++ t)
  | any {p c s} : Glob p s → Glob ('?' :: p) (c :: s)
  | char {p c s} : c ≠ '*' → c ≠ '?' → Glob p s → Glob (c :: p) (c :: s)

/-- A pattern segment other than `**` matches a path segment. -/
inductive SegAligns : Str → Str → Prop
  | star {s} : SegAligns p!"*" s
  | glob {p s} : '*' ∈ p → p ≠ p!"*" → Glob p s → SegAligns p s
  | lit {p} : '*' ∉ p → SegAligns p p

/-- The alignment of pattern segments with path segments. -/
inductive Aligns : List Str → List Str → Prop
  | nil : Aligns [] []
  | dstar {ps ss ts} : Aligns ps ts → Aligns (p!"**" :: ps) (ss ++ ts)
  | seg {p ps s ss} : p ≠ p!"**" → SegAligns p s → Aligns ps ss → Aligns (p :: ps) (s :: ss)

/-- How a path is read: dots separate segments, a backslash makes the next character part of its segment (the
last one, if nothing follows it, is itself part of its segment). -/
inductive Segs : Str → List Str → Prop
  | nil : Segs [] [[]]
  | dot {s ss} : Segs s ss → Segs ('.' :: s) ([] :: ss)
  | esc {c s x ss} : Segs s (x :: ss) → Segs ('\\' :: c :: s) ((c :: x) :: ss)
  | lone : Segs ['\\'] [['\\']]
  | char {c s x ss} : c ≠ '.' → c ≠ '\\' → Segs s (x :: ss) → Segs (c :: s) ((c :: x) :: ss)

/-- Number of literal segments of a pattern. -/
def literals (ps : List Str) : Nat := ps.countP fun p => '*' ∉ p
/-- Number of `**` segments. -/
def doubles (ps : List Str) : Nat := ps.countP fun p => p = p!"**"
/-- Number of segments with a wildcard. -/
def wilds (ps : List Str) : Nat := ps.countP fun p => '*' ∈ p

/-- `ps` is more specific than `qs`: more literal segments; if equal, fewer `**`;
if equal, fewer wildcard segments; if equal, more segments. -/
def MoreSpecific (ps qs : List Str) : Prop :=
  literals qs < literals ps ∨ (literals qs = literals ps ∧
    (doubles ps < doubles qs ∨ (doubles ps = doubles qs ∧
      (wilds ps < wilds qs ∨ (wilds ps = wilds qs ∧ qs.length < ps.length)))))

end Verif.Spec
