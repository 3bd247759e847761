import Verif.Spec.Tree
/-!
# Specification of JSON texts (RFC 8259)

Which texts denote which values. Nothing here refers to `Verif/Model`.
-/
namespace Verif.Spec
open Verif Verif.Gen

/-- White space. -/
def Blank (t : Str) : Prop := ∀ c ∈ t, c = ' ' ∨ c = '\t' ∨ c = '\n' ∨ c = '\r'

def IsDigit (c : Char) : Prop := 48 ≤ c.toNat ∧ c.toNat ≤ 57

/-- The number with these decimal digits. -/
def decimal (ds : Str) : Nat := ds.foldl (fun n c => 10 * n + (c.toNat - 48)) 0

/-- Digits without a needless zero in front. -/
def Numeral (ds : Str) : Prop := ds ≠ [] ∧ (∀ c ∈ ds, IsDigit c) ∧ (ds = ['0'] ∨ ds.head? ≠ some '0')

inductive IntText : Int → Str → Prop
  | pos {ds} : Numeral ds → IntText (decimal ds) ds
  | neg {ds} : Numeral ds → IntText (-(decimal ds : Int)) ('-' :: ds)

def Fraction (t : Str) : Prop := t = [] ∨ ∃ ds, t = '.' :: ds ∧ ds ≠ [] ∧ ∀ c ∈ ds, IsDigit c

def Exponent (t : Str) : Prop := t = [] ∨ ∃ e s ds, t = e :: (s ++ ds) ∧ (e = 'e' ∨ e = 'E') ∧ (s = [] ∨ s = ['+'] ∨ s = ['-']) ∧
  ds ≠ [] ∧ ∀ c ∈ ds, IsDigit c

/-- A number with a fraction or an exponent. -/
def FloatText (t : Str) : Prop := ∃ m ds f x, t = m ++ (ds ++ (f ++ x)) ∧ (m = [] ∨ m = ['-']) ∧ Numeral ds ∧ Fraction f ∧ Exponent x ∧
  (f ≠ [] ∨ x ≠ [])

/-- The value of a hexadecimal digit. -/
inductive HexDigit : Char → Nat → Prop
  | digit {c} : IsDigit c → HexDigit c (c.toNat - 48)
  | lower {c} : 97 ≤ c.toNat → c.toNat ≤ 102 → HexDigit c (c.toNat - 87)
  | upper {c} : 65 ≤ c.toNat → c.toNat ≤ 70 → HexDigit c (c.toNat - 55)

/-- Four hexadecimal digits. -/
def HexFour (n : Nat) (t : Str) : Prop := ∃ a b c d i j k l, t = [a, b, c, d] ∧ HexDigit a i ∧ HexDigit b j ∧ HexDigit c k ∧ HexDigit d l ∧
  n = 4096 * i + 256 * j + 16 * k + l

/-- The escapes of two characters. -/
def shortEscapes : List (Char × Char) := [('"', '"'), ('\\', '\\'), ('/', '/'), ('b', Char.ofNat 8), ('f', Char.ofNat 12), ('n', '\n'),
  ('r', '\r'), ('t', '\t')]

/-- How a character of a string may be written. -/
inductive CharText : Char → Str → Prop
  | raw {c} : 32 ≤ c.toNat → c ≠ '"' → c ≠ '\\' → CharText c [c]
  | short {e c} : (e, c) ∈ shortEscapes → CharText c ['\\', e]
  | code {c h} : HexFour c.toNat h → CharText c ('\\' :: 'u' :: h)
  /-- Characters beyond U+FFFF as surrogate pairs. -/
  | pair {c a b h h'} : HexFour a h → HexFour b h' → 0xD800 ≤ a → a < 0xDC00 → 0xDC00 ≤ b → b < 0xE000 →
      c.toNat = 0x10000 + 0x400 * (a - 0xD800) + (b - 0xDC00) → CharText c ('\\' :: 'u' :: (h ++ '\\' :: 'u' :: h'))

/-- How a string may be written, without the quotation marks. -/
inductive StrText : Str → Str → Prop
  | nil : StrText [] []
  | cons {c s t u} : CharText c t → StrText s u → StrText (c :: s) (t ++ u)

/-- Of members with the same name the last counts. -/
def LastWins (d d' : List (Str × V)) : Prop := d'.map (·.1) = (d.map (·.1)).eraseDups ∧ ∀ k, lookup k d' = lookup k d.reverse

/-- A value, the items of an array that is not empty, or the members of an object that is not empty. -/
inductive Part where
  | value (v : V)
  | items (l : List V)
  | members (d : List (Str × V))

/-- `JsonText F p t`: the text `t` denotes `p`. `F` says which float the text of a number with a fraction or an exponent denotes. -/
inductive JsonText (F : Str → Str) : Part → Str → Prop
  | null : JsonText F (.value .none) p!"null"
  | true : JsonText F (.value (.bool true)) p!"true"
  | false : JsonText F (.value (.bool false)) p!"false"
  | int {i t} : IntText i t → JsonText F (.value (.int i)) t
  | float {t} : FloatText t → JsonText F (.value (.float (F t))) t
  | str {s t} : StrText s t → JsonText F (.value (.str s)) ('"' :: (t ++ ['"']))
  | emptyList {b} : Blank b → JsonText F (.value (.list [])) ('[' :: (b ++ [']']))
  | list {l t} : JsonText F (.items l) t → JsonText F (.value (.list l)) ('[' :: (t ++ [']']))
  | emptyDict {b} : Blank b → JsonText F (.value (.dict [])) ('{' :: (b ++ ['}']))
  | dict {d d' t} : JsonText F (.members d) t → LastWins d d' → JsonText F (.value (.dict d')) ('{' :: (t ++ ['}']))
  | item {b v t b'} : Blank b → JsonText F (.value v) t → Blank b' → JsonText F (.items [v]) (b ++ (t ++ b'))
  | items {b v t b' l u} : Blank b → JsonText F (.value v) t → Blank b' → JsonText F (.items l) u →
      JsonText F (.items (v :: l)) (b ++ (t ++ (b' ++ ',' :: u)))
  | member {b k s b1 b2 v t b3} : Blank b → StrText k s → Blank b1 → Blank b2 → JsonText F (.value v) t → Blank b3 →
      JsonText F (.members [(k, v)]) (b ++ '"' :: (s ++ '"' :: (b1 ++ ':' :: (b2 ++ (t ++ b3)))))
  | members {b k s b1 b2 v t b3 d u} : Blank b → StrText k s → Blank b1 → Blank b2 → JsonText F (.value v) t → Blank b3 →
      JsonText F (.members d) u →
      JsonText F (.members ((k, v) :: d)) (b ++ '"' :: (s ++ '"' :: (b1 ++ ':' :: (b2 ++ (t ++ (b3 ++ ',' :: u))))))

/-- A whole JSON text, with white space around the value. -/
def IsTextOf (F : Str → Str) (v : V) (t : Str) : Prop := ∃ b u b', t = b ++ (u ++ b') ∧ Blank b ∧ JsonText F (.value v) u ∧ Blank b'

/-- Every float in a value is written as a number with a fraction or an exponent that denotes it. `W` says how floats are written. -/
def FloatsBack (F W : Str → Str) (v : V) : Prop := ∀ x, Within (.float x) v → FloatText (W x) ∧ F (W x) = x

end Verif.Spec
