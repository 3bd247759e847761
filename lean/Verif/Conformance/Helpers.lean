import Verif.Conformance.Support

/-! Translated from tests/models/test_helpers.py by tools/gen_conformance.py. -/

set_option maxRecDepth 100000
set_option linter.unusedVariables false
namespace Verif.Conformance
open Verif Verif.Gen Verif.Pyd

/-- `test_emailstr_valid`, tests/models/test_helpers.py:48 -/
example : (do
  let v1 ← (parseEmail (.str p!"test@example.com")).map (·.1)
  check (eq v1 (.str p!"test@example.com"))
  check (isStr v1)
  let v2 ← (parseEmail (.str p!"user.name+tag@example.co.uk")).map (·.1)
  check (eq v2 (.str p!"user.name+tag@example.co.uk"))
  check (isStr v2)
  let v3 ← (parseEmail (.str p!"test.email@subdomain.example.org")).map (·.1)
  check (eq v3 (.str p!"test.email@subdomain.example.org"))
  check (isStr v3) : Option Unit).isSome = true := by decide +kernel

/-- `test_emailstr_invalid_0`, tests/models/test_helpers.py:83 -/
example : (do
  raises (do
    discard ((parseEmail (.str p!"invalid-email")).map (·.1)) : Option Unit) : Option Unit).isSome = true := by decide +kernel

/-- `test_emailstr_invalid_1`, tests/models/test_helpers.py:83 -/
example : (do
  raises (do
    discard ((parseEmail (.str p!"test@")).map (·.1)) : Option Unit) : Option Unit).isSome = true := by decide +kernel

/-- `test_emailstr_invalid_2`, tests/models/test_helpers.py:83 -/
example : (do
  raises (do
    discard ((parseEmail (.str p!"@example.com")).map (·.1)) : Option Unit) : Option Unit).isSome = true := by decide +kernel

/-- `test_emailstr_invalid_3`, tests/models/test_helpers.py:83 -/
example : (do
  raises (do
    discard ((parseEmail (.str p!"test@.com")).map (·.1)) : Option Unit) : Option Unit).isSome = true := by decide +kernel

/-- `test_emailstr_invalid_4`, tests/models/test_helpers.py:83 -/
example : (do
  raises (do
    discard ((parseEmail (.str p!"test..email@example.com")).map (·.1)) : Option Unit) : Option Unit).isSome = true := by decide +kernel

/-- `test_emailstr_invalid_5`, tests/models/test_helpers.py:83 -/
example : (do
  raises (do
    discard ((parseEmail (.str p!"test@example")).map (·.1)) : Option Unit) : Option Unit).isSome = true := by decide +kernel

/-- `test_emailstr_invalid_6`, tests/models/test_helpers.py:83 -/
example : (do
  raises (do
    discard ((parseEmail (.str ([] : Str))).map (·.1)) : Option Unit) : Option Unit).isSome = true := by decide +kernel

/-- `test_validate_patterned_key_accepts_valid_keys_0`, tests/models/test_helpers.py:142 -/
example : (do
  check (Patterns.patternedKey p!"valid_key") : Option Unit).isSome = true := by decide +kernel

/-- `test_validate_patterned_key_accepts_valid_keys_1`, tests/models/test_helpers.py:142 -/
example : (do
  check (Patterns.patternedKey p!"valid-key") : Option Unit).isSome = true := by decide +kernel

/-- `test_validate_patterned_key_accepts_valid_keys_2`, tests/models/test_helpers.py:142 -/
example : (do
  check (Patterns.patternedKey p!"valid123") : Option Unit).isSome = true := by decide +kernel

/-- `test_validate_patterned_key_accepts_valid_keys_3`, tests/models/test_helpers.py:142 -/
example : (do
  check (Patterns.patternedKey p!"valid_key_123") : Option Unit).isSome = true := by decide +kernel

/-- `test_validate_patterned_key_accepts_valid_keys_4`, tests/models/test_helpers.py:142 -/
example : (do
  check (Patterns.patternedKey p!"a") : Option Unit).isSome = true := by decide +kernel

/-- `test_validate_patterned_key_accepts_valid_keys_5`, tests/models/test_helpers.py:142 -/
example : (do
  check (Patterns.patternedKey p!"A") : Option Unit).isSome = true := by decide +kernel

/-- `test_validate_patterned_key_accepts_valid_keys_6`, tests/models/test_helpers.py:142 -/
example : (do
  check (Patterns.patternedKey p!"Test123") : Option Unit).isSome = true := by decide +kernel

/-- `test_validate_patterned_key_accepts_valid_keys_7`, tests/models/test_helpers.py:142 -/
example : (do
  check (Patterns.patternedKey p!"test_123-456") : Option Unit).isSome = true := by decide +kernel

/-- `test_validate_patterned_key_rejects_invalid_keys_0`, tests/models/test_helpers.py:184 -/
example : (do
  raises (do
    check (Patterns.patternedKey p!"invalid@key") : Option Unit)
  check (true) : Option Unit).isSome = true := by decide +kernel

/-- `test_validate_patterned_key_rejects_invalid_keys_1`, tests/models/test_helpers.py:184 -/
example : (do
  raises (do
    check (Patterns.patternedKey p!"invalid key") : Option Unit)
  check (true) : Option Unit).isSome = true := by decide +kernel

/-- `test_validate_patterned_key_rejects_invalid_keys_2`, tests/models/test_helpers.py:184 -/
example : (do
  raises (do
    check (Patterns.patternedKey p!"invalid.key") : Option Unit)
  check (true) : Option Unit).isSome = true := by decide +kernel

/-- `test_validate_patterned_key_rejects_invalid_keys_3`, tests/models/test_helpers.py:184 -/
example : (do
  raises (do
    check (Patterns.patternedKey p!"invalid/key") : Option Unit)
  check (true) : Option Unit).isSome = true := by decide +kernel

/-- `test_validate_patterned_key_rejects_invalid_keys_4`, tests/models/test_helpers.py:184 -/
example : (do
  raises (do
    check (Patterns.patternedKey p!"invalid#key") : Option Unit)
  check (true) : Option Unit).isSome = true := by decide +kernel

/-- `test_validate_patterned_key_rejects_invalid_keys_5`, tests/models/test_helpers.py:184 -/
example : (do
  raises (do
    check (Patterns.patternedKey p!"invalid?key") : Option Unit)
  check (true) : Option Unit).isSome = true := by decide +kernel

/-- `test_validate_patterned_key_rejects_invalid_keys_6`, tests/models/test_helpers.py:184 -/
example : (do
  raises (do
    check (Patterns.patternedKey p!"invalid:key") : Option Unit)
  check (true) : Option Unit).isSome = true := by decide +kernel

/-- `test_validate_patterned_key_rejects_invalid_keys_7`, tests/models/test_helpers.py:184 -/
example : (do
  raises (do
    check (Patterns.patternedKey ([] : Str)) : Option Unit)
  check (true) : Option Unit).isSome = true := by decide +kernel

end Verif.Conformance
