import Verif.Py.Val
/-!
# `json.dumps` and `json.loads`

Models the Python runtime (`Lib/json`, `Modules/_json.c`) with default arguments: `dumps` escapes everything
outside printable ASCII and separates by `", "` and `": "`; `loads` is the recursive descent parser with its
extensions (whitespace, duplicate keys: the last value wins) and raises `JSONDecodeError`, a `ValueError`.

Simplifications: the text of floats is a parameter (`FloatText`), since floats are modelled by rationals;
`NaN`, the infinities and lone surrogates in `\u` escapes are outside the model; no limits on the number of
digits or the nesting depth.
-/
set_option autoImplicit false

namespace Verif

/-- `float.__repr__` and `float(text)`; `none`: not finite. -/
structure FloatText where
  repr : Rat → List Char
  read : List Char → Option Rat

namespace Json

/-! ## Writing -/

/-- `'{0:04x}'.format(n)` -/
def hex4 (n : Nat) : List Char :=
  [Nat.digitChar (n / 4096 % 16), Nat.digitChar (n / 256 % 16), Nat.digitChar (n / 16 % 16),
   Nat.digitChar (n % 16)]

/-- One character of a string (`ESCAPE_ASCII`, `ascii_escape_unichar`). -/
def escape (c : Char) : List Char :=
  if c = '"' then ['\\', '"']
  else if c = '\\' then ['\\', '\\']
  else if c = '\n' then ['\\', 'n']
  else if c = '\r' then ['\\', 'r']
  else if c = '\t' then ['\\', 't']
  else if c = Char.ofNat 8 then ['\\', 'b']
  else if c = Char.ofNat 12 then ['\\', 'f']
  else
    let n := c.toNat
    if 32 ≤ n ∧ n ≤ 126 then [c]
    else if n < 65536 then '\\' :: 'u' :: hex4 n
    else '\\' :: 'u' :: hex4 (55296 + (n - 65536) / 1024) ++
      '\\' :: 'u' :: hex4 (56320 + (n - 65536) % 1024)

def strText (s : String) : List Char := '"' :: (s.toList.flatMap escape ++ ['"'])

/-- `int.__repr__` -/
def intText (z : Int) : List Char :=
  if z < 0 then '-' :: Nat.toDigits 10 z.natAbs else Nat.toDigits 10 z.natAbs

mutual
def dumps (f : FloatText) : Val → List Char
  | .none => ['n', 'u', 'l', 'l']
  | .bool true => ['t', 'r', 'u', 'e']
  | .bool false => ['f', 'a', 'l', 's', 'e']
  | .num (.int z) => intText z
  | .num (.flt q) => f.repr q
  | .str s => strText s
  | .list [] => ['[', ']']
  | .list (v :: l) => '[' :: (dumps f v ++ dumpItems f l)
  | .dict [] => ['{', '}']
  | .dict ((k, v) :: d) => '{' :: (strText k ++ (':' :: ' ' :: (dumps f v ++ dumpPairs f d)))

/-- The items after the first, and the closing bracket. -/
def dumpItems (f : FloatText) : List Val → List Char
  | [] => [']']
  | v :: l => ',' :: ' ' :: (dumps f v ++ dumpItems f l)

def dumpPairs (f : FloatText) : List (String × Val) → List Char
  | [] => ['}']
  | (k, v) :: d => ',' :: ' ' :: (strText k ++ (':' :: ' ' :: (dumps f v ++ dumpPairs f d)))
end

/-! ## Reading -/

def isWs (c : Char) : Bool := c = ' ' || c = '\t' || c = '\n' || c = '\r'

def skipWs (cs : List Char) : List Char := cs.dropWhile isWs

/-- The value of a hexadecimal digit. -/
def hexVal (c : Char) : Option Nat :=
  let n := c.toNat
  if 48 ≤ n ∧ n ≤ 57 then some (n - 48)
  else if 97 ≤ n ∧ n ≤ 102 then some (n - 87)
  else if 65 ≤ n ∧ n ≤ 70 then some (n - 55)
  else none

def hexVal4 (a b c d : Char) : Option Nat :=
  match hexVal a, hexVal b, hexVal c, hexVal d with
  | some a, some b, some c, some d => some (a * 4096 + b * 256 + c * 16 + d)
  | _, _, _, _ => none

/-- The characters after a backslash. -/
def unescape (c : Char) : Option Char :=
  if c = '"' then some '"'
  else if c = '\\' then some '\\'
  else if c = '/' then some '/'
  else if c = 'b' then some (Char.ofNat 8)
  else if c = 'f' then some (Char.ofNat 12)
  else if c = 'n' then some '\n'
  else if c = 'r' then some '\r'
  else if c = 't' then some '\t'
  else none

def isHigh (n : Nat) : Bool := 55296 ≤ n && n < 56320
def isLow (n : Nat) : Bool := 56320 ≤ n && n < 57344

/-- Put a code unit in front of the result. -/
def push (n : Nat) (r : Except Exc (List Nat × List Char)) : Except Exc (List Nat × List Char) :=
  match r with
  | .ok (s, rest) => .ok (n :: s, rest)
  | .error e => .error e

/-- `scanstring` after the opening quote: the code units of the string and the rest of the text. -/
def scanUnits : List Char → Except Exc (List Nat × List Char)
  | [] => .error .valueError
  | c :: r =>
    if c = '"' then .ok ([], r)
    else if c = '\\' then
      match r with
      | [] => .error .valueError
      | c :: r =>
        if c = 'u' then
          match r with
          | a :: b :: c :: d :: r =>
            match hexVal4 a b c d with
            | some n => push n (scanUnits r)
            | none => .error .valueError
          | _ => .error .valueError
        else
          match unescape c with
          | some c => push c.toNat (scanUnits r)
          | none => .error .valueError
    else if c.toNat < 32 then .error .valueError
    else push c.toNat (scanUnits r)

/-- Join surrogate pairs. -/
def joinUnits : List Nat → Except Exc (List Char)
  | [] => .ok []
  | [n] => if isHigh n || isLow n then .error .unmodelled else .ok [Char.ofNat n]
  | n :: m :: l =>
    if isHigh n then
      if isLow m then do
        let cs ← joinUnits l
        return Char.ofNat (65536 + (n - 55296) * 1024 + (m - 56320)) :: cs
      else .error .unmodelled
    else if isLow n then .error .unmodelled
    else do
      let cs ← joinUnits (m :: l)
      return Char.ofNat n :: cs

/-- A string after its opening quote, and the rest of the text. -/
def scanStr (cs : List Char) : Except Exc (String × List Char) := do
  let p ← scanUnits cs
  let s ← joinUnits p.1
  return (String.ofList s, p.2)

def digits (cs : List Char) : List Char := cs.takeWhile Char.isDigit
def afterDigits (cs : List Char) : List Char := cs.dropWhile Char.isDigit

/-- `(0|[1-9]\d*)`: the text matched and the rest. -/
def lexInt : List Char → Option (List Char × List Char)
  | [] => none
  | c :: r =>
    if c = '0' then some (['0'], r)
    else if c.isDigit then some (c :: digits r, afterDigits r)
    else none

/-- `(\.\d+)?` -/
def lexFrac : List Char → List Char × List Char
  | '.' :: r => if (digits r).isEmpty then ([], '.' :: r) else ('.' :: digits r, afterDigits r)
  | cs => ([], cs)

def isExpChar (c : Char) : Bool := c = 'e' || c = 'E'
def isSign (c : Char) : Bool := c = '+' || c = '-'

/-- `([eE][-+]?\d+)?` -/
def lexExp : List Char → List Char × List Char
  | [] => ([], [])
  | [e] => ([], [e])
  | e :: s :: r =>
    if isExpChar e then
      if isSign s then
        if (digits r).isEmpty then ([], e :: s :: r) else (e :: s :: digits r, afterDigits r)
      else
        if (digits (s :: r)).isEmpty then ([], e :: s :: r)
        else (e :: digits (s :: r), afterDigits (s :: r))
    else ([], e :: s :: r)

/-- The number after the minus sign, if any. -/
def scanUnsigned (f : FloatText) (neg : Bool) (cs : List Char) : Except Exc (Val × List Char) :=
  match lexInt cs with
  | none => .error .valueError
  | some (i, r) =>
    let (fr, r) := lexFrac r
    let (ex, r) := lexExp r
    if fr.isEmpty && ex.isEmpty then
      let n : Int := Nat.ofDigitChars 10 i 0
      .ok (.int (if neg then -n else n), r)
    else
      match f.read ((if neg then ['-'] else []) ++ i ++ fr ++ ex) with
      | some q => .ok (.flt q, r)
      | none => .error .unmodelled

/-- `_match_number_unicode` and the constants `NaN`, `Infinity`, `-Infinity`. -/
def scanNum (f : FloatText) : List Char → Except Exc (Val × List Char)
  | 'N' :: 'a' :: 'N' :: _ => .error .unmodelled
  | 'I' :: 'n' :: 'f' :: 'i' :: 'n' :: 'i' :: 't' :: 'y' :: _ => .error .unmodelled
  | '-' :: 'I' :: 'n' :: 'f' :: 'i' :: 'n' :: 'i' :: 't' :: 'y' :: _ => .error .unmodelled
  | '-' :: cs => scanUnsigned f true cs
  | cs => scanUnsigned f false cs

mutual
/-- `scan_once`; the number bounds the recursion (twice the length of the text suffices, see `loads_fuel`). -/
def scanVal (f : FloatText) : Nat → List Char → Except Exc (Val × List Char)
  | 0, _ => .error .unmodelled
  | n + 1, cs =>
    match cs with
    | '"' :: r =>
      match scanStr r with
      | .ok (s, r) => .ok (.str s, r)
      | .error e => .error e
    | '{' :: r =>
      match skipWs r with
      | '}' :: r => .ok (.dict [], r)
      | '"' :: r => scanPairs f n [] r
      | _ => .error .valueError
    | '[' :: r =>
      match skipWs r with
      | ']' :: r => .ok (.list [], r)
      | r => scanItems f n [] r
    | 'n' :: 'u' :: 'l' :: 'l' :: r => .ok (.none, r)
    | 't' :: 'r' :: 'u' :: 'e' :: r => .ok (.bool true, r)
    | 'f' :: 'a' :: 'l' :: 's' :: 'e' :: r => .ok (.bool false, r)
    | cs => scanNum f cs

/-- The loop of `JSONArray`; `acc` are the values read, in reverse order. -/
def scanItems (f : FloatText) : Nat → List Val → List Char → Except Exc (Val × List Char)
  | 0, _, _ => .error .unmodelled
  | n + 1, acc, cs =>
    match scanVal f n cs with
    | .error e => .error e
    | .ok (v, r) =>
      match skipWs r with
      | ']' :: r => .ok (.list (acc.reverse ++ [v]), r)
      | ',' :: r => scanItems f n (v :: acc) (skipWs r)
      | _ => .error .valueError

/-- The loop of `JSONObject`, after the opening quote of a key. -/
def scanPairs (f : FloatText) : Nat → Dict → List Char → Except Exc (Val × List Char)
  | 0, _, _ => .error .unmodelled
  | n + 1, acc, cs =>
    match scanStr cs with
    | .error e => .error e
    | .ok (k, r) =>
      match skipWs r with
      | ':' :: r =>
        match scanVal f n (skipWs r) with
        | .error e => .error e
        | .ok (v, r) =>
          let acc := Dict.set acc k v
          match skipWs r with
          | '}' :: r => .ok (.dict acc, r)
          | ',' :: r =>
            match skipWs r with
            | '"' :: r => scanPairs f n acc r
            | _ => .error .valueError
          | _ => .error .valueError
      | _ => .error .valueError
end

/-- `json.loads(s)` -/
def loads (f : FloatText) (s : List Char) : Except Exc Val :=
  match scanVal f (2 * s.length + 2) (skipWs s) with
  | .error e => .error e
  | .ok (v, r) => if (skipWs r).isEmpty then .ok v else .error .valueError

end Json
end Verif
