import Verif.Py.Regex
import Verif.Gen.Classes
/-!
# Model of the validators that test strings against regular expressions
-/
namespace Verif.Patterns
open Verif Verif.Regex

/-- `^[A-Za-z0-9_\-]+$`, models/helpers.py:34. -/
def keyRegex : Regex :=
  .seq .bol (.seq (plus fun c => isUpperAZ c || isLowerAZ c || isDigit09 c || c == '_' || c == '-') .eol)

/-- `validate_patterned_key` for a string key, models/helpers.py:19-42. `false` is a ValueError. -/
def patternedKey (key : Str) : Bool := isMatch keyRegex key

/-- `PatternedRootModel.validate_patterned_keys`, models/base_models.py:108-122: the keys of
`root`, in order. -/
def patternedKeys : List Str → Bool
  | [] => true
  | k :: ks => if patternedKey k then patternedKeys ks else false

/-- `^x-[\w\d\.\x2d_]+$`, models/base_models.py:47. -/
def extensionRegex (U : Uni) : Regex :=
  .seq .bol (.seq (lit 'x') (.seq (lit '-')
    (.seq (plus fun c => U.word c || U.digit c || c == '.' || c == '-' || c == '_') .eol)))

/-- `ExtendableBaseModel.validate_extensions`, models/base_models.py:35-54: the names of the
extra fields, in order. -/
def validateExtensions (U : Uni) : List Str → Bool
  | [] => true
  | k :: ks => if isMatch (extensionRegex U) k then validateExtensions U ks else false

/-- What a class does with unknown fields: pydantic's `extra="allow"` with
`validate_extensions` (base_models.py:26,36), `extra="forbid"` (base_models.py:65), or
`extra="allow"` alone (schema.py:64,112, kafka.py:74). A root model takes its whole input as
`root` and has no unknown fields. -/
def acceptsExtras (U : Uni) (k : Kind) (names : List Str) : Bool :=
  match k with
  | .extendable => validateExtensions U names
  | .nonExtendable => names.isEmpty
  | .openExtra => true
  | .patterned => names.isEmpty

/-- `^(?!.*\.\.)[a-zA-Z0-9._%+-]+@[a-zA-Z0-9.-]+\.[a-zA-Z]{2,}$`, models/helpers.py:56. -/
def emailRegex : Regex :=
  .seq .bol (.seq (.notAhead (.seq (.star dot) (.seq (lit '.') (lit '.'))))
    (.seq (plus fun c => isLowerAZ c || isUpperAZ c || isDigit09 c || c == '.' || c == '_' || c == '%' ||
        c == '+' || c == '-')
    (.seq (lit '@')
    (.seq (plus fun c => isLowerAZ c || isUpperAZ c || isDigit09 c || c == '.' || c == '-')
    (.seq (lit '.')
    (.seq (.seq (.chr fun c => isLowerAZ c || isUpperAZ c) (plus fun c => isLowerAZ c || isUpperAZ c))
      .eol))))))

/-- `EmailStr._validate_email`, models/helpers.py:52-60. -/
def validateEmail (s : Str) : Bool := isMatch emailRegex s

/-- `^\d+\.\d+\.\d+(-[\w\.\-]+)?$`, models/asyncapi.py:261. -/
def versionRegex (U : Uni) : Regex :=
  .seq .bol (.seq (plus U.digit) (.seq (lit '.') (.seq (plus U.digit) (.seq (lit '.')
    (.seq (plus U.digit)
    (.seq (.opt (.seq (lit '-') (plus fun c => U.word c || c == '.' || c == '-'))) .eol))))))

/-- `int(s)` for a string of decimal digits. `limit` is `sys.get_int_max_str_digits()` (`none`
when unlimited); longer strings raise a ValueError. Called at models/asyncapi.py:268. -/
def intOf (U : Uni) (limit : Option Nat) (s : Str) : Option Nat :=
  if limit.all (fun m => decide (s.length ≤ m)) then some (s.foldl (fun n c => 10 * n + U.val c) 0)
  else none

/-- `int(version.split(".")[0]) == 3`, models/asyncapi.py:268-269. `false` also when `int`
raises a ValueError. -/
def majorIsThree (U : Uni) (limit : Option Nat) (version : Str) : Bool :=
  match Str.split '.' version with
  | major :: _ => match intOf U limit major with
    | some m => m == 3
    | none => false
  | [] => false

/-- `AsyncAPI3.validate_asyncapi_version`, models/asyncapi.py:257-275. `false` is a ValueError. -/
def validateVersion (U : Uni) (limit : Option Nat) (version : Str) : Bool :=
  if isMatch (versionRegex U) version then majorIsThree U limit version else false

end Verif.Patterns
