import Verif.Py.Uni
/-!
# Python `re`, as far as asyncapi3 uses it

Patterns as trees, matched by backtracking: `ends whole r s` lists the rests of
the string that can remain after `r` has matched at the position where `s`
remains, in the order in which Python tries them. The code only asks whether
there is a match, so only emptiness of the list matters. All repetitions in the
code are of single character classes.
-/
namespace Verif

/-- Regular expressions without flags (no MULTILINE, no DOTALL). -/
inductive Regex where
  /-- one character of a class -/
  | chr (p : Char → Bool)
  /-- `X*` for a character class, greedy -/
  | star (p : Char → Bool)
  /-- `rs` one after another -/
  | seq (r s : Regex)
  /-- `(r)?`, greedy -/
  | opt (r : Regex)
  /-- `^`: only at the start of the string -/
  | bol
  /-- `$`: at the end of the string, or before a newline at the end -/
  | eol
  /-- `(?!r)` -/
  | notAhead (r : Regex)

namespace Regex

/-- Rests after `X*`, longest match first. -/
def starEnds (p : Char → Bool) : Str → List Str
  | [] => [[]]
  | c :: cs => if p c then starEnds p cs ++ [c :: cs] else [c :: cs]

/-- Rests after matching. `whole` is the string searched. -/
def ends (whole : Str) : Regex → Str → List Str
  | .chr p, s => match s with
    | [] => []
    | c :: cs => if p c then [cs] else []
  | .star p, s => starEnds p s
  | .seq r t, s => (ends whole r s).flatMap (ends whole t)
  | .opt r, s => ends whole r s ++ [s]
  | .bol, s => if s.length = whole.length then [s] else []
  | .eol, s => if s = [] ∨ s = ['\n'] then [s] else []
  | .notAhead r, s => if ends whole r s = [] then [s] else []

/-- `bool(re.match(r, s))`. -/
def isMatch (r : Regex) (s : Str) : Bool := !(ends s r s).isEmpty

/-- Try every position from the left, the end included. -/
def searchFrom (whole : Str) (r : Regex) : Str → Bool
  | [] => !(ends whole r []).isEmpty
  | c :: cs => if (ends whole r (c :: cs)).isEmpty then searchFrom whole r cs else true

/-- `bool(re.search(r, s))`. -/
def isSearch (r : Regex) (s : Str) : Bool := searchFrom s r s

/-- `X+`. -/
def plus (p : Char → Bool) : Regex := .seq (.chr p) (.star p)
/-- A literal character. -/
def lit (c : Char) : Regex := .chr (· == c)
/-- `.`: any character but newline. -/
def dot : Char → Bool := (· != '\n')

end Regex

/-- `[A-Z]`, `[a-z]`, `[0-9]`. -/
def isUpperAZ (c : Char) : Bool := decide ('A' ≤ c ∧ c ≤ 'Z')
def isLowerAZ (c : Char) : Bool := decide ('a' ≤ c ∧ c ≤ 'z')
def isDigit09 (c : Char) : Bool := decide ('0' ≤ c ∧ c ≤ '9')

end Verif
