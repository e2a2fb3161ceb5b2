import Verif.Spec.Text
import Mathlib.Algebra.Order.Field.Power
import Mathlib.Data.Rat.Cast.Order
/-!
# Floats of 64 bits and the decimal texts that stand for them (C79)
-/
set_option autoImplicit false

namespace Verif.Spec

/-- A finite number of IEEE 754 binary64: 53 bits and an exponent in its range. -/
def Binary64 (q : Rat) : Prop :=
  ∃ m j : Int, |m| < 2 ^ 53 ∧ -1074 ≤ j ∧ j ≤ 971 ∧ q = (m : Rat) * (2 : Rat) ^ j

/-- The last of the bits is zero. -/
def EvenLast (q : Rat) : Prop :=
  ∃ m j : Int, q = ((2 * m : Int) : Rat) * (2 : Rat) ^ j ∧ |2 * m| ≤ 2 ^ 53 ∧ -1074 ≤ j ∧ (j = -1074 ∨ 2 ^ 52 ≤ |2 * m|)

/-- `d` is the float for `q`: every other is farther away, or as far and does not have the even last bit that `d`
has. -/
def Rounded (q d : Rat) : Prop :=
  Binary64 d ∧ ∀ p, Binary64 p → p ≠ d → |d - q| < |p - q| ∨ (|d - q| = |p - q| ∧ EvenLast d ∧ ¬ EvenLast p)

/-- The number is too large for a finite float: it is not below the midpoint of the largest one and `2 ^ 1024`. -/
def TooLarge (q : Rat) : Prop := (2 : Rat) ^ (1024 : Int) - (2 : Rat) ^ (970 : Int) ≤ |q|

/-- Digits as in `DigitRun`, or none; `k` of them. -/
def DigitPart (l : List Char) (n k : Nat) : Prop :=
  (l = [] ∧ n = 0 ∧ k = 0) ∨ (DigitRun l n ∧ k = (l.filter (· ≠ '_')).length)

/-- Digits, with a point among them or not. -/
def Mantissa (l : List Char) (q : Rat) : Prop :=
  (∃ n, DigitRun l n ∧ q = n) ∨
  ∃ a b n f k j, l = a ++ '.' :: b ∧ (a ≠ [] ∨ b ≠ []) ∧ DigitPart a n j ∧ DigitPart b f k ∧
    q = n + (f : Rat) / (10 : Rat) ^ k

/-- A sign or none. -/
def Sign (s : List Char) (z : Int) : Prop := s = [] ∧ z = 1 ∨ s = ['+'] ∧ z = 1 ∨ s = ['-'] ∧ z = -1

/-- The exponent, or none. -/
def ExponentPart (l : List Char) (e : Int) : Prop :=
  (l = [] ∧ e = 0) ∨ ∃ c s m n z, (c = 'e' ∨ c = 'E') ∧ l = c :: s ++ m ∧ Sign s z ∧ DigitRun m n ∧ e = z * n

/-- `t` stands for the number `q`: blanks, a sign or none, digits, an exponent or none, blanks. -/
def Decimal (t : String) (q : Rat) : Prop :=
  ∃ (a s l x b : List Char) (z e : Int) (m : Rat), t.toList = a ++ s ++ l ++ x ++ b ∧ (∀ c ∈ a, BlankChar c) ∧
    (∀ c ∈ b, BlankChar c) ∧ Sign s z ∧ Mantissa l m ∧ ExponentPart x e ∧ q = z * m * (10 : Rat) ^ e

/-- `t` is infinity or not a number. -/
def NamedFloat (t : String) : Prop :=
  ∃ (a s w b : List Char) (z : Int), t.toList = a ++ s ++ w ++ b ∧ (∀ c ∈ a, BlankChar c) ∧ (∀ c ∈ b, BlankChar c) ∧
    Sign s z ∧ w.map Char.toLower ∈ ["inf".toList, "infinity".toList, "nan".toList]

/-- The float that a value stands for. -/
def FloatOf : Val → Rat → Prop
  | .num (.int z), d => ¬ TooLarge z ∧ Rounded z d
  | .num (.flt q), d => d = q
  | .bool b, d => d = if b then 1 else 0
  | .str t, d => ∃ q, Decimal t q ∧ ¬ TooLarge q ∧ Rounded q d
  | _, _ => False

/-- `o` are the parameters that a speaker keeps of `v`: nothing, or the volume as a float and two truth values. -/
def SpeakerParameters (v o : Val) : Prop :=
  (v = .none ∧ o = .none) ∨
  ∃ (kw : Dict) (x g p : Val) (d : Rat), v = .dict kw ∧ List.lookup "playback_volume" kw = some x ∧
    List.lookup "playback_globally" kw = some g ∧ List.lookup "allow_polyphony" kw = some p ∧ FloatOf x d ∧
    o = .dict [("playback_volume", .flt d), ("playback_globally", .bool g.truthy), ("allow_polyphony", .bool p.truthy)]

end Verif.Spec
