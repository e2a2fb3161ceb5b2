import Verif.Model.Color
/-!
# Specification vocabulary for colours
-/
set_option autoImplicit false

namespace Verif
namespace Color

/-- Specification: every component is in `[0, 1]`. -/
def InRange (c : Color) : Prop :=
  (0 ≤ c.r.val ∧ c.r.val ≤ 1) ∧ (0 ≤ c.g.val ∧ c.g.val ≤ 1) ∧
  (0 ≤ c.b.val ∧ c.b.val ≤ 1) ∧ (0 ≤ c.a.val ∧ c.a.val ≤ 1)

/-- Specification: the nearest number to `x` in `[0, 1]`. -/
def nearest (x : Rat) : Rat := if x < 0 then 0 else if 1 < x then 1 else x

/-- An assignment to one component. -/
inductive Assign where
  | r (v : Num) | g (v : Num) | b (v : Num) | a (v : Num)

def assign (c : Color) : Assign → Color
  | .r v => c.setR v
  | .g v => c.setG v
  | .b v => c.setB v
  | .a v => c.setA v

/-- The components of a colour obtained by construction are stored clamped. -/
def Built (c : Color) : Prop := ∃ r g b a, c = Color.new r g b a

end Color
end Verif
