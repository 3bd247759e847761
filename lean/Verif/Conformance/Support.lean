import Verif.Model.Document
import Verif.Model.Builder
import Verif.Model.Mutate
import Verif.Gen.Factories
/-!
# Running the tests of /repo/tests against the model

`tools/gen_conformance.py` translates the test functions of /repo/tests into terms built from the model's functions
and the operations below, which stand for what the tests themselves do: construct and validate, look at attributes,
compare. `Option` is Python's success or exception.

This is a check of the model against the code's own expectations, not a proof of anything.
-/
namespace Verif.Conformance
open Verif Verif.Gen Verif.Pyd

/-- Has the URL no path at all (`https://host`)? Then pydantic's normal form has a `/` at the end. -/
def bare (s : Str) : Bool :=
  let after := (s.dropWhile (· != ':')).drop 3
  (Str.startsWith s p!"http://" || Str.startsWith s p!"https://") && after != [] && !after.contains '/'

/-- URLs as the tests use them: a scheme and something after it. -/
def urlForm (s : Str) : Option Str :=
  if !(s.contains ':') || (Str.startsWith s p!":") then none
  else if bare s then some (s ++ ['/']) else some s

theorem dropWhile_append {p : Char → Bool} {s t : Str} (h : s.dropWhile p ≠ []) :
    (s ++ t).dropWhile p = s.dropWhile p ++ t := by
  induction s with
  | nil => exact absurd rfl h
  | cons c s ih =>
    rw [List.dropWhile_cons] at h
    rw [List.cons_append, List.dropWhile_cons, List.dropWhile_cons]
    split
    · rename_i hc
      rw [hc] at h
      exact ih (by simpa using h)
    · rfl

theorem bare_slash {s : Str} (h : bare s = true) : bare (s ++ ['/']) = false := by
  have hd : s.dropWhile (· != ':') ≠ [] ∧ ((s.dropWhile (· != ':')).drop 3) ≠ [] := by
    simp only [bare, Bool.and_eq_true, bne_iff_ne, ne_eq] at h
    refine ⟨fun e => ?_, h.1.2⟩
    rw [e] at h
    exact h.1.2 rfl
  have h3 : 3 ≤ (s.dropWhile (· != ':')).length := by
    rcases Nat.lt_or_ge (s.dropWhile (· != ':')).length 3 with h' | h'
    · exact absurd (List.drop_eq_nil_of_le (Nat.le_of_lt h')) hd.2
    · exact h'
  have : (((s ++ ['/']).dropWhile (· != ':')).drop 3).contains '/' = true := by
    rw [dropWhile_append hd.1, List.drop_append_of_le_length h3]
    simp
  simp only [bare, this, Bool.not_true, Bool.and_false]

theorem urlForm_idem {s u : Str} (h : urlForm s = some u) : urlForm u = some u := by
  unfold urlForm at h
  split at h
  · cases h
  · rename_i h1
    split at h
    · rename_i h2
      cases h
      unfold urlForm
      have hs : s ≠ [] := by
        rintro rfl
        simp [bare, Str.startsWith] at h2
      have h3 : (!((s ++ ['/']).contains ':') || Str.startsWith (s ++ ['/']) p!":") = false := by
        simp only [Bool.or_eq_true, Bool.not_eq_true', not_or, Bool.not_eq_false, Bool.not_eq_true] at h1
        cases s with
        | nil => exact absurd rfl hs
        | cons c s =>
          have := h1.1
          have h4 := h1.2
          simp only [Str.startsWith, List.isPrefixOf_cons_cons, List.cons_append] at h4 ⊢
          simp only [Bool.or_eq_false_iff, Bool.not_eq_false']
          refine ⟨?_, by simpa using h4⟩
          rw [List.contains_iff_mem] at this ⊢
          simp only [List.mem_cons, List.mem_append] at this ⊢
          rcases this with e | e
          · exact .inl e
          · exact .inr (.inl e)
      rw [h3, bare_slash h2]
      simp
    · rename_i h2
      cases h
      unfold urlForm
      rw [if_neg h1, if_neg h2]

/-- The environment of the tests. Processor classes are numbered: 0 `UnifiedReferencesValidator`, 1 `TagsRefValidator`,
2 `ExternalDocsRefValidator`, the others do nothing. -/
def env : Env where
  U := .ascii
  digits := some 4300
  floatToInt _ := none
  strToInt _ := none
  floatToBool _ := none
  strToBool _ := none
  url _ s := urlForm s
  url_idem _ _ _ := urlForm_idem
  mixed a b := decide (a.exact < b.exact)
  built := 1
  built_le := Nat.le_refl 1
  call n doc := match n with
    | 0 => Document.unified .ascii doc
    | 1 => Document.tags doc
    | 2 => Document.externalDocs doc
    | _ => some doc

/-- `assert b`. -/
def check (b : Bool) : Option Unit := if b then some () else none

/-- `with pytest.raises(...)`. -/
def raises {α : Type} (x : Option α) : Option Unit := check x.isNone

/-- The text of the exception that `TagsRefValidator` raises on a document. -/
def tagText (doc : V) : Option Str :=
  match (RefV.validateTags (graphOf doc)).res with
  | .ok () => none
  | .error e => RefV.tagError e

/-- The text of the exception that `ExternalDocsRefValidator` raises on a document. -/
def docText (doc : V) : Option Str :=
  match (RefV.validateDocs (graphOf doc)).res with
  | .ok () => none
  | .error e => RefV.docError e

/-- `text in s`. -/
def contains (text : Str) : Str → Bool
  | [] => text.isEmpty
  | c :: cs => Str.startsWith (c :: cs) text || contains text cs

/-- `with pytest.raises(..., match=text)`, for a literal `text`. -/
def says (f : V → Option Str) (text : Str) (doc : Option V) : Option Unit := do
  check (contains text (← f (← doc)))

/-- `Cls.model_validate(v)`. -/
def load (c : Cls) (v : V) : Option V := validate env c v

/-- `Cls(k=v, …)`. -/
def make (c : Cls) (kw : List (Str × V)) : Option V :=
  match (classDef c).kind, kw with
  | .patterned, [(_, v)] => validate env c v
  | .patterned, _ => none
  | _, _ => validate env c (.dict kw)

/-- `v.name`, also of extra fields. -/
def get (v : V) (name : Str) : Option V :=
  match v with
  | .inst _ fs ex _ => match lookup name fs with
    | some w => some w
    | none => lookup name ex
  | _ => none

/-- `v[k]` for a string. -/
def item (v : V) (k : Str) : Option V :=
  match v with
  | .dict d => lookup k d
  | .inst c [(_, .dict d)] _ _ => if (classDef c).kind = .patterned then lookup k d else none
  | _ => none

/-- `v[i]` for a list. -/
def nth (v : V) (i : Nat) : Option V :=
  match v with
  | .list l => l[i]?
  | _ => none

/-- The keys of a dict or patterned object. -/
def keys : V → List Str
  | .dict d => d.map (·.1)
  | .inst _ [(_, .dict d)] _ _ => d.map (·.1)
  | _ => []

/-- `list(v)`. -/
def listOf : V → V
  | .list l => .list l
  | v => .list ((keys v).map .str)

/-- `k in v`. -/
def member (k : Str) (v : V) : Bool :=
  match v with
  | .list l => l.any fun w => match w with | .str s => s == k | _ => false
  | .str s => Regex.isSearch (k.foldr (fun c r => .seq (Regex.lit c) r) (.star fun _ => false)) s
  | v => (keys v).contains k

/-- `len(v)`. -/
def len : V → Nat
  | .list l => l.length
  | .str s => s.length
  | v => (keys v).length

/-- `isinstance(v, Cls)`. -/
def isA (c : Cls) : V → Bool
  | .inst c' _ _ _ => c' == c
  | _ => false

def isDict : V → Bool
  | .dict _ => true
  | _ => false
def isList : V → Bool
  | .list _ => true
  | _ => false
def isStr : V → Bool
  | .str _ => true
  | _ => false
def isUrl : V → Bool
  | .url _ _ => true
  | _ => false
def isBool : V → Bool
  | .bool _ => true
  | _ => false
def isInt : V → Bool
  | .int _ => true
  | .bool _ => true
  | _ => false

/-- `str(v)` of a string or URL. -/
def strOf : V → V
  | .url _ s => .str s
  | v => v

mutual
/-- `a == b` of Python: the order of dicts does not matter. A URL counts as its string, because `dump` is
`model_dump(mode="json")` and the tests write `AnyUrl(…)` in what they expect of `model_dump()`. Fuel for depth. -/
def same : Nat → V → V → Bool
  | 0, _, _ => false
  | n + 1, a, b => match a, b with
    | .none, .none => true
    | .bool x, .bool y => x == y
    | .int x, .int y => x == y
    | .float x, .float y => x == y
    | .str x, .str y => x == y
    | .url _ x, .str y => x == y
    | .str x, .url _ y => x == y
    | .url _ x, .url _ y => x == y
    | .list x, .list y => sameL n x y
    | .dict x, .dict y => x.length == y.length && sameD n x y
    | .inst c f e _, .inst c' f' e' _ =>
      c == c' && f.length == f'.length && sameD n f f' && e.length == e'.length && sameD n e e'
    | _, _ => false
def sameL : Nat → List V → List V → Bool
  | _, [], [] => true
  | 0, _, _ => false
  | n + 1, a :: l, b :: m => same n a b && sameL n l m
  | _, _, _ => false
def sameD : Nat → List (Str × V) → List (Str × V) → Bool
  | _, [], _ => true
  | 0, _, _ => false
  | n + 1, (k, a) :: l, m => (match lookup k m with | some b => same n a b | none => false) && sameD n l m
end

/-- `a == b`. -/
def eq (a b : V) : Bool := same 300 a b

/-- `v.name = x`, which must not raise. -/
def assign (v : V) (name : Str) (x : V) : Option V :=
  match Mutate.assign env false v name x with
  | .done w => some w
  | .raised _ => none

/-- `v[k] = x`. -/
def setItem (v : V) (k : Str) (x : V) : Option V :=
  match Mutate.stepInst v (.set k x) with
  | (w, .unit) => some w
  | _ => none

/-- `del v[k]`. -/
def delItem (v : V) (k : Str) : Option V :=
  match Mutate.stepInst v (.del k) with
  | (w, .unit) => some w
  | _ => none

/-- `v.model_extra`. -/
def extra (v : V) : V := .dict v.extras

/-- `utils.resolve_reference(ref, spec)`: type and path of the result, `none` inside for `None`. -/
def resolve (ref : Str) (spec : V) : Option (Option (PyType Cls × Str)) :=
  match Resolve.resolve table (graphOf spec) ref with
  | some (.ok r) => some (r.map fun r => (r.ty, r.path))
  | _ => none

/-- `validator.validate_reference(spec=spec, ref_obj=ref, ref_path=path, …)` with a Reference that is not in the
document. -/
def validateReference (spec : V) (ref : Str) (path : Str) : Option Unit :=
  match Resolve.resolve table (graphOf spec) ref with
  | some (.ok none) => some ()
  | some (.ok (some r)) => match Path.expectedType .ascii mappings path with
    | some e => check (Unified.compatible table r.ty e)
    | none => none
  | _ => none

/-- `validator._get_expected_type_for_path(ref_path=path)`: the members of the union. -/
def expected (path : Str) : Option (List Cls) := Path.expectedType .ascii mappings path

/-- The same set of classes. -/
def sameClasses (a b : List Cls) : Bool := a.all b.contains && b.all a.contains

end Verif.Conformance
