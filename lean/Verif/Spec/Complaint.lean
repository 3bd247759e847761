import Verif.Model.Unified
import Verif.Spec.TreeRight
/-!
# What is said about a wrong Reference

From `Verif/Model` only the names of the errors are used (`Msg`, `Err`: what the texts of the errors show).
-/
namespace Verif.Spec
open Verif Verif.Gen Verif.Resolve Verif.Unified

/-- The field is excluded from the traversal and from output. -/
def hiddenField (c : Cls) (k : Str) : Bool := (classDef c).fields.any fun f => decide (f.name = k) && f.exclude

/-- The string of an instance of `Reference` with these fields. -/
def refString (fs : List (Str × V)) : List (List LocStep × Str) :=
  match lookup p!"ref" fs with
  | some (.str s) => [([], s)]
  | _ => []

/-- The same entries, one step further down. -/
def below (st : LocStep) (l : List (List LocStep × Str)) : List (List LocStep × Str) := l.map fun e => (st :: e.1, e.2)

mutual
/-- The References that stand in a value, with their locations, in document order: fields in the order in which the
class declares them, items and entries in their order. -/
def refsIn : V → List (List LocStep × Str)
  | .list l => refsItems 0 l
  | .dict d => refsEntries d
  | .inst c fs _ _ => if c = .Reference then refString fs else refsFields c fs
  | _ => []
/-- Those in list items, the first of which has index `i`. -/
def refsItems (i : Nat) : List V → List (List LocStep × Str)
  | [] => []
  | v :: l => below (.index i) (refsIn v) ++ refsItems (i + 1) l
/-- Those in entries of a dict. -/
def refsEntries : List (Str × V) → List (List LocStep × Str)
  | [] => []
  | (k, v) :: d => below (.key k) (refsIn v) ++ refsEntries d
/-- Those in fields of an instance of `c`. -/
def refsFields (c : Cls) : List (Str × V) → List (List LocStep × Str)
  | [] => []
  | (k, v) :: d => (if hiddenField c k then [] else below (.field k) (refsIn v)) ++ refsFields c d
end

/-- The type of a value. -/
def kindOf : V → PyType Cls
  | .none => .builtin p!"NoneType"
  | .bool _ => .builtin p!"bool"
  | .int _ => .builtin p!"int"
  | .float _ => .builtin p!"float"
  | .str _ => .builtin p!"str"
  | .url .any _ => .builtin p!"AnyUrl"
  | .url .http _ => .builtin p!"HttpUrl"
  | .proc _ => .builtin p!"type"
  | .list _ => .builtin p!"list"
  | .dict _ => .builtin p!"dict"
  | .inst c _ _ _ => .cls c

/-- `spec.a.b` for the segments `a`, `b`. -/
def dotted (segs : List Str) : Str := p!"spec" ++ segs.flatMap ('.' :: ·)

/-- Why no step `part` can be made from a value, and what is said about it; `path` is the path up to and including
the step. -/
inductive TStuck (part path : Str) : V → Msg → Prop
  | root {v d} : TRoot v d → (∀ w, (part, w) ∉ d) → TStuck part path v (.keyNotFound part path)
  | dict {d} : (∀ w, (part, w) ∉ d) → TStuck part path (.dict d) (.keyNotFound part path)
  | field {c fs ex set} : (∀ d, ¬ TRoot (.inst c fs ex set) d) →
      (∀ f ∈ (classDef c).fields, ¬ (f.name = part ∨ f.alias = some part)) → TStuck part path (.inst c fs ex set) (.fieldNotFound part path)
  | null {c fs ex set f} : (∀ d, ¬ TRoot (.inst c fs ex set) d) → f ∈ (classDef c).fields → (f.name = part ∨ f.alias = some part) →
      (f.name, .none) ∈ fs → TStuck part path (.inst c fs ex set) (.isNone path)
  | other {v} : (∀ d, v ≠ .dict d) → (∀ c fs ex set, v ≠ .inst c fs ex set) → TStuck part path v (.cannotNavigate part path)

/-- Why the reference string `ref`, which is no URL, leads nowhere in the document, and what is said about it. -/
inductive TExplains (doc : V) (ref : Str) : Msg → Prop
  | unsupported : (∀ s, ref ≠ '#' :: s) → TExplains doc ref (.unsupported ref)
  | empty {rest} : ref = '#' :: rest → (∀ c ∈ rest, c = '/') → TExplains doc ref (.invalidPath ref)
  | stuck {pre part post v m} : Spells ref (pre ++ part :: post) → TWalk doc pre v →
      TStuck part (dotted (pre ++ [part])) v m → TExplains doc ref m

/-- Following `R` from `s`, one passes `l`, all different, and comes to `r`. -/
inductive Goes {α : Type} (R : α → α → Prop) : α → List α → α → Prop
  | here {s} : Goes R s [] s
  | hop {s t l r} : R s t → Goes R t l r → s ∉ l → Goes R s (s :: l) r

/-- A correct complaint about the Reference with string `s` at the location `steps`, where instances of the classes
`expected` are expected (`none`: nothing is known about the place, which is shown as `shown`). -/
inductive Complaint (doc : V) (steps : List LocStep) (expected : Option (List Cls)) (shown s : Str) : Err Cls → Prop
  /-- Following it, one passes `l`, and comes back to `r`, one of them. -/
  | circular {l r} : Goes (THop doc) s l r → r ∈ l →
      Complaint doc steps expected shown s (.invalidRef (render steps) (.circular r))
  /-- Following it leads to `r`, which leads nowhere. -/
  | broken {r m} : THops doc s r → ¬ External r → TExplains doc r m → Complaint doc steps expected shown s (.invalidRef (render steps) m)
  /-- Following it leads to `v`, which is not what is expected. -/
  | mismatch {r segs v cs} : THops doc s r → Spells r segs → TWalk doc segs v → (∀ t, ¬ TRef v t) → expected = some cs →
      (∀ c ∈ cs, kindOf v ≠ .cls c) →
      Complaint doc steps expected shown s (.typeMismatch (render steps) (dotted segs) (kindOf v) cs)
  /-- Following it leads to `v`, but nothing is known about the place. -/
  | unknown {r v} : THops doc s r → TDenotes doc r v → (∀ t, ¬ TRef v t) → expected = none →
      Complaint doc steps expected shown s (.unknownType shown)

/-- The error says what is wrong with the Reference with string `s` at `steps`, where the table `M` says what is expected. -/
def Complains (U : Uni) (M : List (Str × List Cls)) (doc : V) (steps : List LocStep) (s : Str) (e : Err Cls) : Prop :=
  ∃ expected shown, (∀ cs, expected = some cs ↔ Expects U M (render steps) cs) ∧ Normal U (render steps) shown ∧
    Complaint doc steps expected shown s e

end Verif.Spec
