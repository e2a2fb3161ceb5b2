import Verif.Model.Blueprint
/-!
# Specification vocabulary for the place of an entity and for changes of one thing
-/
set_option autoImplicit false

namespace Verif.Spec

/-- The value gives the point with the coordinates `x` and `y`. -/
def IsPoint (v : Val) (x y : Num) : Prop :=
  ∃ d, v = .dict d ∧ List.lookup "x" d = some (.num x) ∧ List.lookup "y" d = some (.num y)

/-- The direction, one of eight, that a number gives: the number without its fraction and without full turns. -/
def IsDirection (v : Val) (d : Direction) : Prop :=
  0 ≤ d.n ∧ d.n < 8 ∧ ∃ n : Num, v = .num n ∧ ∃ k : Int, ((8 * k + d.n : Int) : Rat) ≤ n.val ∧ n.val < ((8 * k + d.n + 1 : Int) : Rat)

/-- Nothing changed but the one entity. -/
structure OnlyEntity (w w' : World) (r : Ref) : Prop where
  env : w'.env = w.env
  bp : w'.bp = w.bp
  next : w'.next = w.next
  heap : ∀ q, q ≠ r → w'.heap q = w.heap q

/-- Nothing changed but the list of wires of one blueprint, which is now `cs`. -/
structure OnlyWires (w w' : World) (b : BpId) (cs : List Conn) : Prop where
  env : w'.env = w.env
  heap : w'.heap = w.heap
  next : w'.next = w.next
  other : ∀ c, c ≠ b → w'.bp c = w.bp c
  this : w'.bp b = { w.bp b with conns := cs }

end Verif.Spec
