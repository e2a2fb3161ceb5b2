import Verif.Py.Repr
/-!
# The text of numbers in Lua

Models the Lua runtime of the game (Lua 5.2) as far as `json.lua` uses it: `tostring` on numbers, called by
`json.stringify` (`/repo/blueprint_data_gatherer/json.lua:98-99`), which is `%.14g` (`LUAI_NUMFFORMAT`), and `tonumber` on
texts of digits, point and exponent, called by `parse_num_val` (`json.lua:56-62`).  The sign of a zero is not modelled.
-/
set_option autoImplicit false

namespace Verif.Lua

/-- The 14 digits of a positive number, in units of the last of them, which is `10 ^ (leading10 q - 13)`; it may be
`10 ^ 14`. -/
def digits14 (q : Rat) : Nat := (halfEven (q / pow10 (leading10 q - 13))).toNat

/-- `0.ds` times `10 ^ k`; whole numbers without a point. -/
def layoutNum (ds : List Char) (k : Int) : List Char :=
  if 0 < k ∧ k ≤ 14 ∧ ds.length ≤ k.toNat then ds ++ List.replicate (k.toNat - ds.length) '0' else layoutFloat 14 ds k

/-- `tostring` of a positive number -/
def tostringPos (q : Rat) : List Char :=
  let ds := Nat.toDigits 10 (digits14 q)
  layoutNum (trimZeros ds) (leading10 q - 13 + ds.length)

/-- `tostring` of a number -/
def tostring (q : Rat) : List Char :=
  if q = 0 then ['0'] else if q < 0 then '-' :: tostringPos (-q) else tostringPos q

/-- `tonumber` of a text of digits, point and exponent -/
def tonumber (t : List Char) : Option Rat := (readDecimal t).bind toDouble

end Verif.Lua
