import Verif.Py.Uni
import Verif.Py.Types
/-!
# Specification of accepted strings

Nothing here refers to `Verif/Model`.
-/
namespace Verif.Spec
open Verif

/-- ASCII letters, by code. -/
def Letter (c : Char) : Prop := (65 ≤ c.toNat ∧ c.toNat ≤ 90) ∨ (97 ≤ c.toNat ∧ c.toNat ≤ 122)
/-- ASCII digits, by code. -/
def Digit (c : Char) : Prop := 48 ≤ c.toNat ∧ c.toNat ≤ 57

/-- C20: non-empty, of ASCII letters, digits, `-`, `_`. -/
def KeyForm (k : Str) : Prop := k ≠ [] ∧ ∀ c ∈ k, Letter c ∨ Digit c ∨ c = '-' ∨ c = '_'

/-- C21: `x-` and one or more word characters, digits, dots, hyphens, underscores. -/
def ExtensionForm (U : Uni) (k : Str) : Prop :=
  ∃ r, k = p!"x-" ++ r ∧ r ≠ [] ∧ ∀ c ∈ r, U.word c = true ∨ U.digit c = true ∨ c = '.' ∨ c = '-' ∨ c = '_'

/-- C22: local@domain.tld. -/
def EmailForm (s : Str) : Prop :=
  (∃ loc dom tld, s = loc ++ '@' :: (dom ++ '.' :: tld) ∧
    loc ≠ [] ∧ (∀ c ∈ loc, Letter c ∨ Digit c ∨ c ∈ p!"._%+-") ∧
    dom ≠ [] ∧ (∀ c ∈ dom, Letter c ∨ Digit c ∨ c ∈ p!".-") ∧
    2 ≤ tld.length ∧ (∀ c ∈ tld, Letter c)) ∧
  ¬ ∃ a b, s = a ++ p!".." ++ b

/-- One or more decimal digits. -/
def Number (U : Uni) (s : Str) : Prop := s ≠ [] ∧ ∀ c ∈ s, U.digit c = true

/-- The number written by decimal digits. -/
def numberValue (U : Uni) : Str → Nat
  | [] => 0
  | c :: cs => U.val c * 10 ^ cs.length + numberValue U cs

/-- C23: major.minor.patch, optionally `-` and one or more word characters, dots, hyphens. -/
def VersionForm (U : Uni) (s major : Str) : Prop :=
  ∃ minor patch suffix, s = major ++ '.' :: (minor ++ '.' :: (patch ++ suffix)) ∧
    Number U major ∧ Number U minor ∧ Number U patch ∧
    (suffix = [] ∨ ∃ r, suffix = '-' :: r ∧ r ≠ [] ∧ ∀ c ∈ r, U.word c = true ∨ c = '.' ∨ c = '-')

/-- `s` has the form, perhaps followed by one newline (which Python's `$` lets pass). -/
def OrNewline (P : Str → Prop) (s : Str) : Prop := P s ∨ ∃ t, s = t ++ ['\n'] ∧ P t

/-- `int()` is willing to convert the string. -/
def WithinLimit (limit : Option Nat) (s : Str) : Prop := ∀ m, limit = some m → s.length ≤ m

/-- C23: what passes as a version (one newline at the end is let through). -/
def VersionOk (U : Uni) (limit : Option Nat) (s : Str) : Prop :=
  OrNewline (fun s => ∃ major, VersionForm U s major ∧ numberValue U major = 3 ∧ WithinLimit limit major) s

end Verif.Spec
