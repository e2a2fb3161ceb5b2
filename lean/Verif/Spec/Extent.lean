import Verif.Spec.Layers
/-!
# Specification vocabulary for the extent of a blueprint

The borders of the selection box of a placed entity, as rational numbers.
-/
set_option autoImplicit false

namespace Verif.Spec

/-- The selection box of the entity, where it stands, spans from `(x0, y0)` to `(x1, y1)`. -/
def Borders (env : Env) (e : Entity) (x0 y0 x1 y1 : Rat) : Prop :=
  ∃ a b c d, HasBox env e.name a b c d ∧
    ((¬ Transposed e.dir ∧ x0 = e.pos.x.val + a.val ∧ y0 = e.pos.y.val + b.val ∧
        x1 = e.pos.x.val + c.val ∧ y1 = e.pos.y.val + d.val) ∨
     (Transposed e.dir ∧ x0 = e.pos.x.val + b.val ∧ y0 = e.pos.y.val + a.val ∧
        x1 = e.pos.x.val + d.val ∧ y1 = e.pos.y.val + c.val))

/-- One of the four borders. -/
inductive Side where
  | left | top | right | bottom
deriving DecidableEq, Repr

def Side.pick (s : Side) (x0 y0 x1 y1 : Rat) : Rat :=
  match s with
  | .left => x0
  | .top => y0
  | .right => x1
  | .bottom => y1

/-- `q` is the border on side `s` of an entity of blueprint `b`. -/
def BorderAt (w : World) (b : BpId) (s : Side) (q : Rat) : Prop :=
  ∃ r ∈ (w.bp b).objs, ∃ x0 y0 x1 y1, Borders w.env (w.heap r) x0 y0 x1 y1 ∧ q = s.pick x0 y0 x1 y1

def Greatest (S : Rat → Prop) (m : Rat) : Prop := S m ∧ ∀ q, S q → q ≤ m
def Least (S : Rat → Prop) (m : Rat) : Prop := S m ∧ ∀ q, S q → m ≤ q

/-- `z` is `q` with its fraction cut off. -/
def TowardZero (q : Rat) (z : Int) : Prop :=
  (0 ≤ q ∧ (z : Rat) ≤ q ∧ q < (z : Rat) + 1) ∨ (q < 0 ∧ (z : Rat) - 1 < q ∧ q ≤ (z : Rat))

/-- The integer box from `(x0, y0)` to `(x1, y1)` contains the boxes of all entities, and it is contained
in every integer box that does. -/
def TightBounds (w : World) (b : BpId) (x0 y0 x1 y1 : Int) : Prop :=
  (∀ q, BorderAt w b .left q → (x0 : Rat) ≤ q) ∧ (∀ q, BorderAt w b .top q → (y0 : Rat) ≤ q) ∧
  (∀ q, BorderAt w b .right q → q ≤ (x1 : Rat)) ∧ (∀ q, BorderAt w b .bottom q → q ≤ (y1 : Rat)) ∧
  (∀ z : Int, (∀ q, BorderAt w b .left q → (z : Rat) ≤ q) → z ≤ x0) ∧
  (∀ z : Int, (∀ q, BorderAt w b .top q → (z : Rat) ≤ q) → z ≤ y0) ∧
  (∀ z : Int, (∀ q, BorderAt w b .right q → q ≤ (z : Rat)) → x1 ≤ z) ∧
  (∀ z : Int, (∀ q, BorderAt w b .bottom q → q ≤ (z : Rat)) → y1 ≤ z)

/-- Every border of every entity is an integer. -/
def IntegerBorders (w : World) (b : BpId) : Prop :=
  ∀ s q, BorderAt w b s q → ∃ z : Int, q = (z : Rat)

/-- Every entity of blueprint `b` is moved by `(-dx, -dy)`, nothing else is changed. -/
def ShiftedBy (w w' : World) (b : BpId) (dx dy : Rat) : Prop :=
  w'.env = w.env ∧ w'.next = w.next ∧ w'.bp = w.bp ∧
  (∀ r, r ∉ (w.bp b).objs → w'.heap r = w.heap r) ∧
  ∀ r ∈ (w.bp b).objs, ∃ p : Vec, w'.heap r = { w.heap r with pos := p } ∧
    p.x.val = (w.heap r).pos.x.val - dx ∧ p.y.val = (w.heap r).pos.y.val - dy

/-- `z` is `q` rounded up. -/
def RoundedUp (q : Rat) (z : Int) : Prop := (z : Rat) - 1 < q ∧ q ≤ (z : Rat)

end Verif.Spec
