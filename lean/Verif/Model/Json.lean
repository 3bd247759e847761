import Verif.Model.Mutate
/-!
# Model of reading and writing JSON text

`AsyncAPI3.model_validate_json(text)` and `model_dump_json()` (README.md:257,282) of pydantic 2.12.5 with pydantic-core 2.41.5
(uv.lock:300-301), which read with jiter and write with serde_json; neither is in /repo, so this is an assumption about them.
Simplifications: `NaN`, `Infinity` and numbers of more than 4300 digits are refused or accepted as RFC 8259 says, not as jiter does;
floats are opaque, and what a text denotes is a parameter. A text is a list of characters (UTF-8 is not modelled).
-/
namespace Verif.Json
open Verif Verif.Gen Verif.Pyd Verif.Mutate

/-- White space of JSON; jiter, for `model_validate_json`: README.md:257. -/
def isSpace (c : Char) : Bool := c == ' ' || c == '\t' || c == '\n' || c == '\r'

/-- Skip white space. README.md:257. -/
def skip (t : Str) : Str := t.dropWhile isSpace

/-- README.md:257. -/
def isDigit (c : Char) : Bool := decide (48 ≤ c.toNat) && decide (c.toNat ≤ 57)

/-- The characters of numbers. README.md:257. -/
def isNumeric (c : Char) : Bool := isDigit c || c == '-' || c == '+' || c == '.' || c == 'e' || c == 'E'

/-- README.md:257. -/
def natOf (n : Nat) : Str → Nat
  | [] => n
  | c :: ds => natOf (10 * n + (c.toNat - 48)) ds

/-- One digit, or more without a zero in front. README.md:257. -/
def plainDigits (ds : Str) : Bool := match ds with
  | [] => false
  | ['0'] => true
  | c :: _ => c != '0'

/-- What stands after `e` or `E`. README.md:257. -/
def exponentOk (t : Str) : Bool := match t with
  | '+' :: ds => !ds.isEmpty && ds.all isDigit
  | '-' :: ds => !ds.isEmpty && ds.all isDigit
  | ds => !ds.isEmpty && ds.all isDigit

/-- What stands after the digits before the point, if anything. README.md:257. -/
def tailOk (t : Str) : Bool := match t with
  | '.' :: r =>
    let ds := r.takeWhile isDigit
    !ds.isEmpty && (match r.dropWhile isDigit with
      | [] => true
      | 'e' :: x => exponentOk x
      | 'E' :: x => exponentOk x
      | _ => false)
  | 'e' :: x => exponentOk x
  | 'E' :: x => exponentOk x
  | _ => false

/-- Is there a minus sign, and what comes after it? README.md:257. -/
def signOf (t : Str) : Bool × Str := match t with
  | '-' :: r => (true, r)
  | r => (false, r)

/-- The number with this text. README.md:257. -/
def numberOf (F : Str → Str) (t : Str) : Option V :=
  let (neg, r) := signOf t
  let ds := r.takeWhile isDigit
  let x := r.dropWhile isDigit
  if plainDigits ds then
    if x.isEmpty then some (.int (if neg then -(natOf 0 ds : Int) else natOf 0 ds))
    else if tailOk x then some (.float (F t)) else none
  else none

/-- README.md:257. -/
def hexVal (c : Char) : Option Nat :=
  if isDigit c then some (c.toNat - 48)
  else if decide (97 ≤ c.toNat) && decide (c.toNat ≤ 102) then some (c.toNat - 87)
  else if decide (65 ≤ c.toNat) && decide (c.toNat ≤ 70) then some (c.toNat - 55)
  else none

/-- Four hexadecimal digits. README.md:257. -/
def hexFour (t : Str) : Option (Nat × Str) := match t with
  | a :: b :: c :: d :: r => match hexVal a, hexVal b, hexVal c, hexVal d with
    | some i, some j, some k, some l => some (4096 * i + 256 * j + 16 * k + l, r)
    | _, _, _, _ => none
  | _ => none

/-- The escapes of two characters. README.md:257. -/
def shortEscape (e : Char) : Option Char :=
  if e = '"' then some '"' else if e = '\\' then some '\\' else if e = '/' then some '/' else if e = 'b' then some (Char.ofNat 8)
  else if e = 'f' then some (Char.ofNat 12) else if e = 'n' then some '\n' else if e = 'r' then some '\r' else if e = 't' then some '\t' else none

/-- One character of a string, perhaps escaped. README.md:257. -/
def readChar (t : Str) : Option (Char × Str) := match t with
  | [] => none
  | c :: r =>
    if c = '\\' then match r with
      | [] => none
      | e :: r1 =>
        if e = 'u' then match hexFour r1 with
          | none => none
          | some (a, r2) =>
            if 0xD800 ≤ a ∧ a < 0xDC00 then match r2 with
              | '\\' :: 'u' :: r3 => match hexFour r3 with
                | none => none
                | some (b, r4) => if 0xDC00 ≤ b ∧ b < 0xE000 then some (Char.ofNat (0x10000 + 0x400 * (a - 0xD800) + (b - 0xDC00)), r4) else none
              | _ => none
            else if 0xDC00 ≤ a ∧ a < 0xE000 then none
            else some (Char.ofNat a, r2)
        else (shortEscape e).map (·, r1)
    else if c = '"' ∨ c.toNat < 32 then none
    else some (c, r)

/-- The rest of a string, after the opening quotation mark, and what follows it. README.md:257. -/
def readString : Nat → Str → Option (Str × Str)
  | 0, _ => none
  | k + 1, t => match t with
    | '"' :: r => some ([], r)
    | _ => match readChar t with
      | none => none
      | some (c, r) => match readString k r with
        | none => none
        | some (s, r') => some (c :: s, r')

/-- Of members with the same name the last counts. README.md:257. -/
def collect (d : List (Str × V)) : List (Str × V) := d.foldl (fun acc e => dictSet acc e.1 e.2) []

mutual
/-- A value and what follows it. README.md:257. -/
def readValue (F : Str → Str) : Nat → Str → Option (V × Str)
  | 0, _ => none
  | k + 1, t => match t with
    | 'n' :: 'u' :: 'l' :: 'l' :: r => some (.none, r)
    | 't' :: 'r' :: 'u' :: 'e' :: r => some (.bool true, r)
    | 'f' :: 'a' :: 'l' :: 's' :: 'e' :: r => some (.bool false, r)
    | '"' :: r => match readString (r.length + 1) r with
      | none => none
      | some (s, r') => some (.str s, r')
    | '[' :: r => match skip r with
      | ']' :: r' => some (.list [], r')
      | _ => match readItems F k r with
        | none => none
        | some (l, r') => some (.list l, r')
    | '{' :: r => match skip r with
      | '}' :: r' => some (.dict [], r')
      | _ => match readMembers F k r with
        | none => none
        | some (d, r') => some (.dict (collect d), r')
    | _ => match numberOf F (t.takeWhile isNumeric) with
      | none => none
      | some v => some (v, t.dropWhile isNumeric)
/-- The items of an array up to its end, and what follows. README.md:257. -/
def readItems (F : Str → Str) : Nat → Str → Option (List V × Str)
  | 0, _ => none
  | k + 1, t => match readValue F k (skip t) with
    | none => none
    | some (v, r) => match skip r with
      | ',' :: r' => match readItems F k r' with
        | none => none
        | some (l, r'') => some (v :: l, r'')
      | ']' :: r' => some ([v], r')
      | _ => none
/-- The members of an object up to its end, and what follows. README.md:257. -/
def readMembers (F : Str → Str) : Nat → Str → Option (List (Str × V) × Str)
  | 0, _ => none
  | k + 1, t => match skip t with
    | '"' :: r => match readString (r.length + 1) r with
      | none => none
      | some (s, r1) => match skip r1 with
        | ':' :: r2 => match readValue F k (skip r2) with
          | none => none
          | some (v, r3) => match skip r3 with
            | ',' :: r4 => match readMembers F k r4 with
              | none => none
              | some (d, r5) => some ((s, v) :: d, r5)
            | '}' :: r4 => some ([(s, v)], r4)
            | _ => none
        | _ => none
    | _ => none
end

/-- The value of a JSON text; `none` if it is none. README.md:257. -/
def read (F : Str → Str) (t : Str) : Option V :=
  match readValue F (2 * t.length + 2) (skip t) with
  | none => none
  | some (v, r) => if (skip r).isEmpty then some v else none

/-- `c.model_validate_json(text)`. README.md:257. -/
def validateJson (E : Env) (F : Str → Str) (c : Cls) (t : Str) : Option V :=
  match read F t with
  | none => none
  | some v => validate E c v

/-- Decimal digits. serde_json, for `model_dump_json`: README.md:282. -/
def digits (n : Nat) : Str := if n < 10 then [Char.ofNat (48 + n)] else digits (n / 10) ++ [Char.ofNat (48 + n % 10)]
decreasing_by omega

/-- README.md:282. -/
def hexDigit (n : Nat) : Char := if n < 10 then Char.ofNat (48 + n) else Char.ofNat (87 + n)

/-- A character in a string. README.md:282. -/
def writeChar (c : Char) : Str :=
  if c = '"' then p!"\\\"" else if c = '\\' then p!"\\\\" else if c = Char.ofNat 8 then p!"\\b" else if c = Char.ofNat 12 then p!"\\f"
  else if c = '\n' then p!"\\n" else if c = '\r' then p!"\\r" else if c = '\t' then p!"\\t"
  else if c.toNat < 32 then ['\\', 'u', '0', '0', hexDigit (c.toNat / 16), hexDigit (c.toNat % 16)]
  else [c]

/-- README.md:282. -/
def writeString (s : Str) : Str := '"' :: (s.flatMap writeChar ++ ['"'])

mutual
/-- The compact text of JSON data, with `W` for floats (and nothing for what is no JSON). README.md:282. -/
def write (W : Str → Str) : V → Str
  | .none => p!"null"
  | .bool true => p!"true"
  | .bool false => p!"false"
  | .int i => if i < 0 then '-' :: digits i.natAbs else digits i.natAbs
  | .float x => W x
  | .str s => writeString s
  | .list l => '[' :: (writeItems W l ++ [']'])
  | .dict d => '{' :: (writeMembers W d ++ ['}'])
  | _ => []
def writeItems (W : Str → Str) : List V → Str
  | [] => []
  | [v] => write W v
  | v :: l => write W v ++ ',' :: writeItems W l
def writeMembers (W : Str → Str) : List (Str × V) → Str
  | [] => []
  | [(k, v)] => writeString k ++ ':' :: write W v
  | (k, v) :: d => writeString k ++ ':' :: (write W v ++ ',' :: writeMembers W d)
end

/-- `i.model_dump_json(...)` with the options of `dump`. README.md:282. -/
def dumpJson (W : Str → Str) (i : V) : Str := write W (dump i)

end Verif.Json
