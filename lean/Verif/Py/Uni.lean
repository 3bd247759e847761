import Verif.Py.Str
/-!
# Unicode character tables

Python's `\d` and `\w` (and `int()`) use Unicode tables.  They are a parameter
here; only their behaviour on ASCII and two general facts are assumed.
-/
namespace Verif

/-- Decimal digits and word characters of Python's `re` on `str` patterns, and
the numeric value of a decimal digit. -/
structure Uni where
  digit : Char → Bool
  word : Char → Bool
  val : Char → Nat
  /-- On ASCII, digits are `0`–`9`. -/
  digit_ascii : ∀ c : Char, c.toNat < 128 → digit c = decide ('0'.toNat ≤ c.toNat ∧ c.toNat ≤ '9'.toNat)
  /-- On ASCII, word characters are letters, digits and `_`. -/
  word_ascii : ∀ c : Char, c.toNat < 128 → word c = decide
    (('0'.toNat ≤ c.toNat ∧ c.toNat ≤ '9'.toNat) ∨ ('A'.toNat ≤ c.toNat ∧ c.toNat ≤ 'Z'.toNat) ∨
     ('a'.toNat ≤ c.toNat ∧ c.toNat ≤ 'z'.toNat) ∨ c = '_')
  /-- Every decimal digit is a word character. -/
  digit_word : ∀ c, digit c = true → word c = true
  /-- Digit values are below ten, and standard on ASCII. -/
  val_lt : ∀ c, digit c = true → val c < 10
  val_ascii : ∀ c : Char, c.toNat < 128 → digit c = true → val c = c.toNat - '0'.toNat

/-- The ASCII-only tables (what `re.ASCII` would use): shows that the
assumptions on `Uni` are consistent. -/
def Uni.ascii : Uni where
  digit c := decide ('0'.toNat ≤ c.toNat ∧ c.toNat ≤ '9'.toNat)
  word c := decide
    (('0'.toNat ≤ c.toNat ∧ c.toNat ≤ '9'.toNat) ∨ ('A'.toNat ≤ c.toNat ∧ c.toNat ≤ 'Z'.toNat) ∨
     ('a'.toNat ≤ c.toNat ∧ c.toNat ≤ 'z'.toNat) ∨ c = '_')
  val c := c.toNat - '0'.toNat
  digit_ascii _ _ := rfl
  word_ascii _ _ := rfl
  digit_word c h := by simp only [decide_eq_true_eq] at h ⊢; exact .inl h
  val_lt c h := by
    simp only [decide_eq_true_eq] at h
    have h0 : '0'.toNat = 48 := rfl
    have h9 : '9'.toNat = 57 := rfl
    omega
  val_ascii _ _ _ := rfl

end Verif
