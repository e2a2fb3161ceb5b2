import Verif.Py.Text
import Verif.Py.Json
/-!
# `float.__repr__`

Models the Python runtime: `PyOS_double_to_string` with the format `r` (`float_repr_style` `short`), that is the
shortest digits that are read back as the float, of these the nearest to it.  The sign of a zero is not modelled.
-/
set_option autoImplicit false

namespace Verif

/-- How often `n` can be divided by ten before it is below ten; `fuel` steps at most. -/
def tens : Nat → Nat → Nat
  | 0, _ => 0
  | fuel + 1, n => if n < 10 then 0 else tens fuel (n / 10) + 1

/-- The number of decimal digits, less one. -/
def log10 (n : Nat) : Nat := tens n.log2 n

/-- The exponent of the leading decimal digit of a positive number. -/
def leading10 (q : Rat) : Int :=
  let d : Int := (log10 q.num.natAbs : Int) - log10 q.den
  if pow10 d ≤ q then d else d - 1

/-- The decimal of `n` digits that stands for the positive float `q`, in units of its last digit; the nearer of two, the
even one of two that are equally near. -/
def pickDigits (q : Rat) (n : Nat) : Option Nat :=
  let u := pow10 (leading10 q + 1 - n)
  let c := (q / u).floor.toNat
  let below := q - c * u
  let above := (c + 1 : Nat) * u - q
  if toDouble (c * u) = some q then
    if toDouble ((c + 1 : Nat) * u) = some q ∧ (above < below ∨ (above = below ∧ c % 2 = 1)) then some (c + 1) else some c
  else if toDouble ((c + 1 : Nat) * u) = some q then some (c + 1)
  else none

/-- The least number of digits that is enough: the digits and the exponent of the last of them. -/
def shortestDigits (q : Rat) : Option (Nat × Int) :=
  (List.range 17).findSome? (fun i => (pickDigits q (i + 1)).map (fun c => (c, leading10 q - i)))

/-- The digits of a number without the zeros at their end. -/
def trimZeros (ds : List Char) : List Char := (ds.reverse.dropWhile (· == '0')).reverse

/-- At least two digits. -/
def twoDigits (n : Nat) : List Char := if n < 10 then '0' :: Nat.toDigits 10 n else Nat.toDigits 10 n

/-- `0.ds` times `10 ^ k` (`format_float_short`), with an exponent from `10 ^ top` on. -/
def layoutFloat (top : Int) (ds : List Char) (k : Int) : List Char :=
  if k ≤ -4 ∨ top < k then
    (match ds with
      | d :: e :: r => d :: '.' :: e :: r
      | ds => ds) ++ 'e' :: (if k - 1 < 0 then '-' else '+') :: twoDigits (k - 1).natAbs
  else if k ≤ 0 then '0' :: '.' :: (List.replicate (-k).toNat '0' ++ ds)
  else if ds.length ≤ k.toNat then ds ++ List.replicate (k.toNat - ds.length) '0' ++ ['.', '0']
  else ds.take k.toNat ++ '.' :: ds.drop k.toNat

/-- The text of a positive float. -/
def reprPos (q : Rat) : List Char :=
  match shortestDigits q with
  | some (c, e) => layoutFloat 16 (trimZeros (Nat.toDigits 10 c)) (e + (Nat.toDigits 10 c).length)
  | none => []

/-- `repr(q)`; for floats only (a number that is no float has no text here). -/
def floatRepr (q : Rat) : List Char :=
  if q = 0 then ['0', '.', '0'] else if q < 0 then '-' :: reprPos (-q) else reprPos q

/-- The text of floats in Python. -/
def pyFloats : FloatText where
  repr := floatRepr
  read := fun t => (readDecimal t).bind toDouble

end Verif
