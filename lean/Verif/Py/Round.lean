import Verif.Py.Num
/-!
# Rounding to IEEE 754 binary64

Models the arithmetic of the machine: `float` is a C `double`.
-/
set_option autoImplicit false

namespace Verif

/-- `2 ^ e` -/
def pow2 (e : Int) : Rat := if 0 ≤ e then ((2 ^ e.toNat : Nat) : Rat) else 1 / ((2 ^ (-e).toNat : Nat) : Rat)

/-- The exponent of the leading bit of a positive number. -/
def leading (q : Rat) : Int :=
  let d : Int := (q.num.natAbs.log2 : Int) - q.den.log2
  if pow2 d ≤ q then d else d - 1

/-- The nearest integer, the even one of two. -/
def halfEven (q : Rat) : Int :=
  let f := q.floor
  let r := q - f
  if r < 1/2 then f else if 1/2 < r then f + 1 else if f % 2 = 0 then f else f + 1

/-- The exponent of the last place of the floats beside a positive number: 53 bits, and none below `2 ^ -1074`. -/
def lastPlace (q : Rat) : Int := max (leading q) (-1022) - 52

/-- Rounding to the nearest number of 53 bits with an exponent of at least -1074, ties to even.  There is no largest
exponent here. -/
def nearestDouble (q : Rat) : Rat :=
  if q = 0 then 0
  else
    let u := pow2 (lastPlace (if q < 0 then -q else q))
    (halfEven (q / u) : Rat) * u

/-- The `double` next to a number; `none` where that is an infinity. -/
def toDouble (q : Rat) : Option Rat :=
  let r := nearestDouble q
  if -pow2 1024 < r ∧ r < pow2 1024 then some r else none

end Verif
