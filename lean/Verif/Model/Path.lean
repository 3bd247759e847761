import Verif.Py.Uni
/-!
# Model of the path handling in `unified_references_validator.py`
-/
namespace Verif.Path
open Verif

/-- `re.sub(r"\[\d+\]", "", s)` (unified_references_validator.py:397).  The first
argument counts characters of a match still to be skipped.  `\d+` is maximal
in any match because `]` is not a digit. -/
def subIdxAux (U : Uni) : Nat → Str → Str
  | _, [] => []
  | k + 1, _ :: cs => subIdxAux U k cs
  | 0, c :: cs =>
    let ds := cs.takeWhile U.digit
    if c = '[' ∧ ds ≠ [] ∧ (cs.drop ds.length).head? = some ']' then subIdxAux U (ds.length + 1) cs
    else c :: subIdxAux U 0 cs

/-- See `subIdxAux`. unified_references_validator.py:392-397. -/
def subIdx (U : Uni) (s : Str) : Str := subIdxAux U 0 s

/-- `_normalize_path`, unified_references_validator.py:392-397. -/
def normalize (U : Uni) (path : Str) : Str :=
  let p := Str.replace path p!".root." p!"."
  let p := if Str.endsWith p p!".root" then p.take (p.length - 5) else p
  subIdx U p

/-- `_escape_path_segment`, unified_references_validator.py:399-401. -/
def escape (seg : Str) : Str := Str.replace (Str.replace seg p!"\\" p!"\\\\") p!"." p!"\\."

/-- The loop of `_split_path` (unified_references_validator.py:408-423): the
current segment and the `escaped` flag are the state. -/
def splitAux : Bool → Str → Str → List Str
  | esc, cur, [] => [if esc then cur ++ ['\\'] else cur]
  | true, cur, c :: cs => splitAux false (cur ++ [c]) cs
  | false, cur, c :: cs =>
    if c = '\\' then splitAux true cur cs
    else if c = '.' then cur :: splitAux false [] cs
    else splitAux false (cur ++ [c]) cs

/-- `_split_path`, unified_references_validator.py:403-424. -/
def splitPath (path : Str) : List Str := splitAux false [] path

/-- Some suffix of the string (itself and the empty one included) satisfies `f`.
Part of `fnmatch`, as called at unified_references_validator.py:444-450. -/
def anyTail (f : Str → Bool) : Str → Bool
  | [] => f []
  | c :: cs => f (c :: cs) || anyTail f cs

/-- `fnmatch.fnmatch(name, pat)` for patterns built from literal characters,
`*` and `?`.  Simplifications: `[...]` classes are not modelled (no pattern of
the table has one) and `os.path.normcase` is the identity (POSIX). Called at unified_references_validator.py:444-450. -/
def globMatch : Str → Str → Bool
  | [], s => s.isEmpty
  | x :: p, s =>
    if x = '*' then anyTail (globMatch p) s
    else match s with
      | [] => false
      | c :: cs => (decide (x = '?') || decide (x = c)) && globMatch p cs

/-- `_segment_matches`, unified_references_validator.py:444-450. -/
def segMatches (pat part : Str) : Bool :=
  if pat = p!"*" then true
  else if '*' ∈ pat then globMatch pat part
  else decide (pat = part)

/-- `any(... for next_index in range(path_index, len(path_parts) + 1))`: some
suffix of the path (itself and the empty one included) satisfies `f`. unified_references_validator.py:461-474. -/
def anySuffix (f : List Str → Bool) : List Str → Bool
  | [] => f []
  | s :: ss => f (s :: ss) || anySuffix f ss

/-- `_path_matches_recursive`, unified_references_validator.py:452-492; indices
into the two lists are represented by the remaining suffixes. -/
def matchParts : List Str → List Str → Bool
  | [], parts => parts.isEmpty
  | pat :: pats, parts =>
    if pat = p!"**" then
      if pats = [] then true
      else anySuffix (matchParts pats) parts
    else match parts with
      | [] => false
      | part :: rest => segMatches pat part && matchParts pats rest

/-- `_path_matches`, unified_references_validator.py:426-442. -/
def pathMatches (pattern path : Str) : Bool := matchParts (splitPath pattern) (splitPath path)

/-- `_pattern_specificity`, unified_references_validator.py:494-515, as
(literals, double wildcards, wildcards, segments); the two wildcard counts are
negated when compared (`scoreLt`). -/
def specificity (pattern : Str) : Nat × Nat × Nat × Nat :=
  let parts := splitPath pattern
  let dbl := (parts.filter (· = p!"**")).length
  let wild := (parts.filter (fun p => p = p!"**" ∨ '*' ∈ p)).length
  let lit := (parts.filter (fun p => ¬ (p = p!"**" ∨ '*' ∈ p))).length
  (lit, dbl, wild, parts.length)

/-- `a < b` for Python tuples `(lit, -dbl, -wild, count)`: lexicographic. unified_references_validator.py:359-390. -/
def scoreLt (a b : Nat × Nat × Nat × Nat) : Bool :=
  decide (a.1 < b.1 ∨ (a.1 = b.1 ∧ (a.2.1 > b.2.1 ∨ (a.2.1 = b.2.1 ∧
    (a.2.2.1 > b.2.2.1 ∨ (a.2.2.1 = b.2.2.1 ∧ a.2.2.2 < b.2.2.2))))))

/-- The loop of `_get_expected_type_for_path`
(unified_references_validator.py:374-382), with the best match so far. -/
def bestLoop {τ : Type} (path : Str) :
    List (Str × τ) → Option (τ × (Nat × Nat × Nat × Nat)) → Option (τ × (Nat × Nat × Nat × Nat))
  | [], best => best
  | (pat, ty) :: rest, best =>
    if !pathMatches pat path then bestLoop path rest best
    else
      let score := specificity pat
      match best with
      | none => bestLoop path rest (some (ty, score))
      | some (bt, bs) =>
        if scoreLt bs score then bestLoop path rest (some (ty, score))
        else bestLoop path rest (some (bt, bs))

/-- `_get_expected_type_for_path` (unified_references_validator.py:359-390) for
the table `M`; `none` is the `ValueError`. -/
def expectedType {τ : Type} (U : Uni) (M : List (Str × τ)) (refPath : Str) : Option τ :=
  (bestLoop (normalize U refPath) M none).map Prod.fst

end Verif.Path
