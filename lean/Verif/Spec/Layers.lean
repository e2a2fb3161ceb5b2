import Verif.Model.World
/-!
# Specification vocabulary for layers

Stated over rational coordinates and plain lists, without the functions of the model.
-/
set_option autoImplicit false

namespace Verif.Spec

/-- Reading order: row by row, left to right. -/
def Before (p q : Vec) : Prop := p.y.val < q.y.val ∨ (p.y.val = q.y.val ∧ p.x.val ≤ q.x.val)

/-- Two vectors denote the same point. -/
def SamePos (p q : Vec) : Prop := p.x.val = q.x.val ∧ p.y.val = q.y.val

instance (p q : Vec) : Decidable (SamePos p q) := inferInstanceAs (Decidable (_ ∧ _))
instance (p q : Vec) : Decidable (Before p q) := inferInstanceAs (Decidable (_ ∨ _))

/-- The entities of blueprint `b` are those of the list `before`, in reading order, entities at the same
point as in `before`, numbered from one. -/
structure InOrder (w : World) (b : BpId) (before : List Ref) : Prop where
  same : (w.bp b).objs.Perm before
  sorted : (w.bp b).objs.Pairwise (fun r s => Before (w.heap r).pos (w.heap s).pos)
  stable : ∀ p : Vec, (w.bp b).objs.filter (fun r => decide (SamePos (w.heap r).pos p)) =
    before.filter (fun r => decide (SamePos (w.heap r).pos p))
  numbered : ∀ i (h : i < (w.bp b).objs.length), (w.heap (w.bp b).objs[i]).auto = some ((i : Int) + 1)

/-- The same entity up to the exported number. -/
def SameButNumber (e e' : Entity) : Prop := { e with auto := none } = { e' with auto := none }

/-- The prototype data describe the selection box of `name` with the given corners. -/
def HasBox (env : Env) (name : String) (x0 y0 x1 y1 : Num) : Prop :=
  ∃ d box lt rb, List.lookup name env.entities = some (.dict d) ∧
    List.lookup "selection_box" d = some (.dict box) ∧
    List.lookup "left_top" box = some (.dict lt) ∧ List.lookup "right_bottom" box = some (.dict rb) ∧
    List.lookup "x" lt = some (.num x0) ∧ List.lookup "y" lt = some (.num y0) ∧
    List.lookup "x" rb = some (.num x1) ∧ List.lookup "y" rb = some (.num y1)

/-- An entity facing east or west (or between) has its box transposed. -/
def Transposed (d : Direction) : Prop := (d.n / 2) % 2 = 1

/-- The point `(px, py)` lies strictly inside the selection box of the entity. -/
def Covers (env : Env) (e : Entity) (px py : Rat) : Prop :=
  ∃ x0 y0 x1 y1, HasBox env e.name x0 y0 x1 y1 ∧
    ((¬ Transposed e.dir ∧
        e.pos.x.val + x0.val < px ∧ px < e.pos.x.val + x1.val ∧
        e.pos.y.val + y0.val < py ∧ py < e.pos.y.val + y1.val) ∨
     (Transposed e.dir ∧
        e.pos.x.val + y0.val < px ∧ px < e.pos.x.val + y1.val ∧
        e.pos.y.val + x0.val < py ∧ py < e.pos.y.val + x1.val))

/-- Python `==` between a stored number (or `None`) and an id given as JSON value: `None` equals
`None`, numbers compare by value, `True` is one and `False` zero. -/
inductive IdIs : Option Int → Val → Prop where
  | none : IdIs Option.none Val.none
  | num (z : Int) (n : Num) : n.val = (z : Rat) → IdIs (some z) (.num n)
  | true : IdIs (some 1) (.bool true)
  | false : IdIs (some 0) (.bool false)

/-- `r` is the first entity of the list with the given id. -/
def FirstWithId (w : World) (l : List Ref) (id : Val) (r : Ref) : Prop :=
  ∃ before after, l = before ++ r :: after ∧ IdIs (w.heap r).number id ∧
    ∀ s ∈ before, ¬ IdIs (w.heap s).number id

end Verif.Spec
