import Verif.Spec.Layers
/-!
# Specification vocabulary for rotations
-/
set_option autoImplicit false

namespace Verif.Spec

/-- `q` is the point `p` turned clockwise by `k` quarter turns around `(cx, cy)` (the `y` axis points
down, so a clockwise turn takes east `(1, 0)` to south `(0, 1)`). -/
def TurnedPoint (k : Int) (cx cy : Rat) (p q : Vec) : Prop :=
  (k % 4 = 0 → q.x.val = p.x.val ∧ q.y.val = p.y.val) ∧
  (k % 4 = 1 → q.x.val - cx = -(p.y.val - cy) ∧ q.y.val - cy = p.x.val - cx) ∧
  (k % 4 = 2 → q.x.val - cx = -(p.x.val - cx) ∧ q.y.val - cy = -(p.y.val - cy)) ∧
  (k % 4 = 3 → q.x.val - cx = p.y.val - cy ∧ q.y.val - cy = -(p.x.val - cx))

/-- `q` is a fraction of a turn congruent to `o` modulo whole turns. -/
def FractionOf (o q : Rat) : Prop := 0 ≤ q ∧ q < 1 ∧ ∃ z : Int, q = o + z

/-- `e'` is `e` turned clockwise by `k` quarter turns around `(cx, cy)`: the position is turned, the
direction advances by two steps of eight per quarter turn if the class has `Rotatable`, the orientation
by a quarter if it has `Orientation`; nothing else changes except possibly the exported number. -/
structure TurnedEntity (k : Int) (cx cy : Rat) (e e' : Entity) : Prop where
  pos : TurnedPoint k cx cy e.pos e'.pos
  dir : (.Rotatable ∈ e.klass.chain → e'.dir.n = (e.dir.n + 2 * k) % 8) ∧
    (.Rotatable ∉ e.klass.chain → e'.dir = e.dir)
  orientation : .Orientation ∈ e.klass.chain → ∃ (v : Val) (n : Num) (q : Rat),
    List.lookup "orientation" e.attrs = some v ∧ v.num? = some n ∧
    List.lookup "orientation" e'.attrs = some (.flt q) ∧ FractionOf (n.val + (k : Rat) / 4) q
  attrs : ∀ key, key ≠ "orientation" ∨ .Orientation ∉ e.klass.chain →
    List.lookup key e'.attrs = List.lookup key e.attrs
  rest : { e' with pos := e.pos, dir := e.dir, attrs := e.attrs, auto := e.auto } = e

/-- `e'` is `e` except that the coordinates of its position may be represented by other numbers of the same
value (`1` and `1.0`). -/
def SameUpToRepr (e e' : Entity) : Prop := { e with pos := e'.pos } = e' ∧ SamePos e.pos e'.pos

/-- Two worlds that differ at most in the representation of entity coordinates. -/
structure SameWorldUpToRepr (w w' : World) : Prop where
  env : w.env = w'.env
  next : w.next = w'.next
  bp : w.bp = w'.bp
  heap : ∀ r, SameUpToRepr (w.heap r) (w'.heap r)

/-- Whether `(px, py)` is `(x, y)` turned by `k` quarter turns around `(cx, cy)`; for points given by
rationals. -/
def TurnedXY (k : Int) (cx cy x y px py : Rat) : Prop :=
  TurnedPoint k cx cy ⟨.flt x, .flt y⟩ ⟨.flt px, .flt py⟩

end Verif.Spec
