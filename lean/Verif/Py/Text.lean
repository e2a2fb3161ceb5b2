import Verif.Py.Val
import Verif.Py.Round
/-!
# `int(x)`, `float(x)`, `str(x)` on JSON values

Models the Python runtime.
-/
set_option autoImplicit false

namespace Verif

/-- `Py_ISSPACE`: tab, line feed, vertical tab, form feed, carriage return and blank. -/
def isBlank (c : Char) : Bool := c == ' ' || (9 ≤ c.toNat && c.toNat ≤ 13)

/-- The text without blanks at its ends. -/
def stripBlanks (cs : List Char) : List Char :=
  ((cs.dropWhile isBlank).reverse.dropWhile isBlank).reverse

/-- Decimal digits, single underscores allowed between two of them (`PyLong_FromString`, base 10): `acc` is the
value of the digits before, `after` says whether the character before is a digit. -/
def readDigits (acc : Nat) (after : Bool) : List Char → Option Nat
  | [] => if after then some acc else none
  | c :: cs =>
    if c.isDigit then readDigits (10 * acc + (c.toNat - '0'.toNat)) true cs
    else if c == '_' && after then readDigits acc false cs
    else none

/-- An optional sign followed by digits. -/
def parseDec : List Char → Option Int
  | '-' :: ds => (readDigits 0 false ds).map (fun n : Nat => -(n : Int))
  | '+' :: ds => (readDigits 0 false ds).map (fun n : Nat => (n : Int))
  | ds => (readDigits 0 false ds).map (fun n : Nat => (n : Int))

/-- `int(s)` for a string (`PyLong_FromUnicodeObject`).  Non-ASCII strings are outside the model (Python reads other
digits and blanks as well), and so is the limit on the number of digits (4300 since Python 3.11). -/
def pyIntStr (s : String) : Except Exc Int :=
  if s.toList.all (fun c => c.toNat < 128) then
    match parseDec (stripBlanks s.toList) with
    | some z => .ok z
    | none => .error .valueError
  else .error .unmodelled

/-- `int(v)`: floats are truncated, containers and `None` raise `TypeError`. -/
def pyInt (v : Val) : Except Exc Int :=
  match v with
  | .num n => .ok n.trunc
  | .bool b => .ok (if b then 1 else 0)
  | .str s => pyIntStr s
  | _ => .error .typeError

/-- A text without digits that `float` reads: infinity or not a number, in any case, a sign or none before it. -/
def isInfNan (cs : List Char) : Bool :=
  let m := match cs with
    | '-' :: m => m
    | '+' :: m => m
    | m => m
  ["inf".toList, "infinity".toList, "nan".toList].contains (m.map Char.toLower)

/-- A run of digits and underscores that may be empty, and the number of its digits. -/
def readPart (cs : List Char) : Option (Nat × Nat) :=
  if cs.isEmpty then some (0, 0) else (readDigits 0 false cs).map (fun n => (n, cs.countP Char.isDigit))

/-- The characters that runs of digits consist of. -/
def inRun (c : Char) : Bool := c.isDigit || c == '_'

/-- The exponent: nothing, or an `e` with a whole number after it. -/
def readExponent : List Char → Option Int
  | [] => some 0
  | c :: cs => if c == 'e' || c == 'E' then parseDec cs else none

/-- `10 ^ e` -/
def pow10 (e : Int) : Rat := if 0 ≤ e then ((10 ^ e.toNat : Nat) : Rat) else 1 / ((10 ^ (-e).toNat : Nat) : Rat)

/-- Digits with or without a point, of which there is at least one, and an exponent. -/
def readUnsigned (cs : List Char) : Option Rat :=
  let l := cs.takeWhile inRun
  match cs.dropWhile inRun with
  | '.' :: m =>
    let r := m.takeWhile inRun
    if l.isEmpty && r.isEmpty then none
    else do
      let (n, _) ← readPart l
      let (f, k) ← readPart r
      let e ← readExponent (m.dropWhile inRun)
      return ((n : Rat) + f * pow10 (-k)) * pow10 e
  | m => do
    let n ← readDigits 0 false l
    let e ← readExponent m
    return (n : Rat) * pow10 e

/-- The exact number that a decimal text stands for (`_Py_dg_strtod`, with the underscores of
`_Py_string_to_number_with_underscores`). -/
def readDecimal : List Char → Option Rat
  | '-' :: cs => (readUnsigned cs).map (fun q => -q)
  | '+' :: cs => readUnsigned cs
  | cs => readUnsigned cs

/-- `float(s)` for a string (`PyFloat_FromString`).  Outside the model are non-ASCII strings (Python reads other
digits and blanks as well) and the texts whose floats are infinite or not a number. -/
def pyFloatStr (s : String) : Except Exc Rat :=
  if s.toList.all (fun c => c.toNat < 128) then
    match readDecimal (stripBlanks s.toList) with
    | some q =>
      match toDouble q with
      | some r => .ok r
      | none => .error .unmodelled
    | none => .error (if isInfNan (stripBlanks s.toList) then .unmodelled else .valueError)
  else .error .unmodelled

/-- `float(v)`: containers and `None` raise `TypeError`, an `int` beyond the range of floats raises `OverflowError`. -/
def pyFloat (v : Val) : Except Exc Rat :=
  match v with
  | .num (.int z) =>
    match toDouble z with
    | some r => .ok r
    | none => .error .overflowError
  | .num (.flt q) => .ok q
  | .bool b => .ok (if b then 1 else 0)
  | .str s => pyFloatStr s
  | _ => .error .typeError

end Verif
