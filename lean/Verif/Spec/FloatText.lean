import Verif.Spec.Doubles
import Verif.Spec.Codec
/-!
# Specification vocabulary for the texts of floats (C09)
-/
set_option autoImplicit false

namespace Verif.Spec

/-- The number has a decimal of `n` digits, besides zeros before or after them. -/
def HasDigits (n : Nat) (x : Rat) : Prop := ∃ (d : Nat) (e : Int), d < 10 ^ n ∧ |x| = (d : Rat) * (10 : Rat) ^ e

mutual
/-- A JSON value of Python: no key occurs twice in an object, and floats are finite floats of 64 bits. -/
def PyJson : Val → Prop
  | .num (.flt q) => Binary64 q
  | .list l => PyJsonList l
  | .dict d => (d.map (·.1)).Nodup ∧ PyJsonDict d
  | _ => True
def PyJsonList : List Val → Prop
  | [] => True
  | v :: l => PyJson v ∧ PyJsonList l
def PyJsonDict : List (String × Val) → Prop
  | [] => True
  | (_, v) :: d => PyJson v ∧ PyJsonDict d
end

/-- An integer, or a finite float of 64 bits. -/
def PyNum : Num → Prop
  | .int _ => True
  | .flt q => Binary64 q

end Verif.Spec
