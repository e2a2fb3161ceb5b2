import Verif.Model.World
import Verif.Props.Vectors
import Verif.Spec.Layers
/-!
# Numbers that floats represent exactly (C71)
-/
set_option autoImplicit false

namespace Verif.Spec

/-- A number with at most 53 significant bits, in the range in which binary64 has all of them. -/
def FewBits (q : Rat) : Prop := ∃ (m : Int) (k : Nat), m.natAbs ≤ 2 ^ 53 ∧ k ≤ 1074 ∧ q = (m : Rat) / ((2 ^ k : Nat) : Rat)

/-- A rounding that leaves these numbers as they are. -/
def ExactRounding (rnd : Rat → Rat) : Prop := ∀ q, FewBits q → rnd q = q

/-- A multiple of `1 / 2^k` of magnitude at most `B / 2^k`. -/
def OnGrid (k B : Nat) (q : Rat) : Prop := ∃ m : Int, q = (m : Rat) / ((2 ^ k : Nat) : Rat) ∧ m.natAbs ≤ B

/-- An entity whose coordinates are on the grid; so is its orientation, if it has one. -/
structure Fine (k B : Nat) (e : Entity) : Prop where
  x : OnGrid k B e.pos.x.val
  y : OnGrid k B e.pos.y.val
  orientation : ∀ v n, List.lookup "orientation" e.attrs = some v → v.num? = some n → OnGrid k (2 ^ k) n.val

/-- The operand is a point on the grid, or no point at all. -/
def GridOperand (k C : Nat) (o : Operand) : Prop := ∀ x y, o.parts = some (x, y) → OnGrid k C x.val ∧ OnGrid k C y.val

/-- A rounding that does not change the order of numbers. -/
def MonotoneRounding (rnd : Rat → Rat) : Prop := ∀ p q, p ≤ q → rnd p ≤ rnd q

/-- A border of at most `N` tiles that is a multiple of `1 / 2^k`, or lies between two multiples of the finer `1 / 2^j`
which enclose no multiple of `1 / 2^k`. -/
def ClearBorder (k j N : Nat) (q : Rat) : Prop :=
  OnGrid k (N * 2 ^ k) q ∨
  ∃ lo hi, OnGrid j (N * 2 ^ j) lo ∧ OnGrid j (N * 2 ^ j) hi ∧ lo ≤ q ∧ q ≤ hi ∧
    ∀ m : Int, ¬ (lo ≤ (m : Rat) / ((2 ^ k : Nat) : Rat) ∧ (m : Rat) / ((2 ^ k : Nat) : Rat) ≤ hi)

/-- The borders of the selection box of the entity's prototype are of this kind. -/
def ClearBox (k j N : Nat) (env : Env) (e : Entity) : Prop :=
  ∀ x0 y0 x1 y1, HasBox env e.name x0 y0 x1 y1 → ClearBorder k j N x0.val ∧ ClearBorder k j N y0.val ∧
    ClearBorder k j N x1.val ∧ ClearBorder k j N y1.val

end Verif.Spec
