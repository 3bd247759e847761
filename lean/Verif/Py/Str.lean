/-!
# Python strings

A Python `str` is modelled as the list of its code points.  Only the operations
used by asyncapi3 are modelled.  `p!"abc"` is the literal `['a','b','c']`.

Simplification: Python strings may contain lone surrogates, Lean `Char`s may
not; no operation below distinguishes them.
-/
namespace Verif

/-- Python `str`. -/
abbrev Str := List Char

open Lean in
/-- `p!"abc"` expands to the explicit character list. -/
macro:max "p!" s:str : term => do
  let cs := s.getString.toList
  let elems : Array (TSyntax `term) := (cs.map fun c => Syntax.mkCharLit c).toArray
  `(([ $elems,* ] : List Char))

namespace Str

/-- Python `s.startswith(pre)` for one prefix (used in
`asyncapi3/validators/utils.py:95,100`, `tags_ref_validator.py:228,278`). -/
def startsWith (s pre : Str) : Bool := pre.isPrefixOf s

/-- Python `s.endswith(suf)` (used in `unified_references_validator.py:395`). -/
def endsWith (s suf : Str) : Bool := suf.isSuffixOf s

/-- Python `s.lstrip(c)` for a one character set. -/
def lstrip (c : Char) (s : Str) : Str := s.dropWhile (· == c)

/-- Python `s.rstrip(c)` for a one character set. -/
def rstrip (c : Char) (s : Str) : Str := (s.reverse.dropWhile (· == c)).reverse

/-- Python `s.strip(c)` for a one character set (`utils.py:102`, `.strip("/")`). -/
def strip (c : Char) (s : Str) : Str := rstrip c (lstrip c s)

/-- Python `s.split(c)` for a one character separator (`utils.py:102`, `.split("/")`).
`split` of the empty string is `[""]`, as in Python. -/
def split (c : Char) : Str → List Str
  | [] => [[]]
  | x :: xs =>
    if x = c then [] :: split c xs
    else match split c xs with
      | [] => [[x]]            -- unreachable, `split` is never empty
      | y :: ys => (x :: y) :: ys

/-- Python `c.join(parts)` for a one character separator. -/
def join (c : Char) : List Str → Str
  | [] => []
  | [x] => x
  | x :: y :: rest => x ++ c :: join c (y :: rest)

/-- Worker of `replace`: the first argument counts characters of an occurrence
that has already been replaced and still has to be skipped. -/
def replaceAux (old new : Str) : Nat → Str → Str
  | _, [] => []
  | k + 1, _ :: cs => replaceAux old new k cs
  | 0, c :: cs =>
    if old.isPrefixOf (c :: cs) then new ++ replaceAux old new (old.length - 1) cs
    else c :: replaceAux old new 0 cs

/-- Python `s.replace(old, new)` for non-empty `old`: every non-overlapping
occurrence, from the left (`tags_ref_validator.py:284`,
`external_docs_ref_validator.py:527`, `unified_references_validator.py:394,401`). -/
def replace (s old new : Str) : Str := replaceAux old new 0 s

end Str
end Verif
