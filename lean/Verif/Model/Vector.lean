import Verif.Py.Val
/-!
# `Vector` — `/repo/py_factorio_blueprints/util.py:359-561`
-/
set_option autoImplicit false

namespace Verif

/-- A `Vector` instance with numeric coordinates (`util.py:359-388`).
Simplification: the class stores any two objects; the model only has numeric coordinates. -/
structure Vec where
  x : Num
  y : Num
deriving DecidableEq, Repr, Inhabited

/-- The right (or left) operand of a binary operator applied to a `Vector`: the code dispatches on
`type(other)` (e.g. `util.py:411-418`).  `other` stands for any type the code does not list (this
includes `bool`, because the tests are `type(other) is int`). -/
inductive Operand where
  | vec (v : Vec)
  | num (n : Num)
  | tup (l : List Num)
  | other
deriving DecidableEq, Repr

namespace Vec

/-- Arguments of the constructor call `Vector(...)` (`util.py:360-388`). -/
inductive Args where
  | nothing                                  -- Vector()
  | noneArg                                  -- Vector(None)
  | both                                     -- positional and keyword arguments together
  | one (a : Operand)                        -- Vector(tuple) / Vector(vector) / Vector(3)
  | dict (d : Dict)                          -- Vector({...})
  | two (x y : Num)                          -- Vector(x, y)
  | many (n : Nat)                           -- three or more positional arguments (n = extra)
  | kw (d : Dict)                            -- Vector(x=.., y=..), non-empty

/-- A coordinate taken from a JSON value.  Simplification: the Python class accepts any object as a
coordinate; a non-numeric coordinate is outside of the model. -/
def coord (v : Val) : Except Exc Num :=
  match v with
  | .num n => .ok n
  | _ => .error .unmodelled

/-- `util.py:360-388` (`__new__` and `__init__`): `none` is the Python value `None`. -/
def new : Args → Except Exc (Option Vec)
  | .both => .error .typeError
  | .nothing => .ok none
  | .noneArg => .ok none
  | .one (.vec v) => .ok (some v)
  | .one (.tup [x, y]) => .ok (some ⟨x, y⟩)
  | .one _ => .error .valueError
  | .dict d => do
      let x ← coord (← Dict.getItem d "x")
      let y ← coord (← Dict.getItem d "y")
      return some ⟨x, y⟩
  | .two x y => .ok (some ⟨x, y⟩)
  | .many _ => .error .valueError
  | .kw d => do
      let x ← coord (← Dict.getItem d "x")
      let y ← coord (← Dict.getItem d "y")
      return some ⟨x, y⟩

/-- `Vector(value)` for a JSON value: `util.py:360-385`.  A JSON list is neither `dict`, `tuple` nor
`Vector`, so it raises `ValueError`; so do strings, numbers and booleans. -/
def ofVal : Val → Except Exc (Option Vec)
  | .none => new .noneArg
  | .dict d => new (.dict d)
  | _ => .error .valueError

/-- `util.py:390-394` -/
def toJson (v : Vec) : Val := .dict [("x", .num v.x), ("y", .num v.y)]

/-- `util.py:399-401` -/
def xy (v : Vec) : Vec := ⟨v.x, v.y⟩
/-- `util.py:403-405` -/
def yx (v : Vec) : Vec := ⟨v.y, v.x⟩

/-- Lift a total number operation to the operator dispatch shared by `__add__`, `__sub__`, `__mul__`
(`util.py:410-418`, `423-431`, `441-449`): `NotImplemented` becomes `TypeError`, unpacking a tuple
whose length is not two raises `ValueError`. -/
def lift (f : Num → Num → Num) (v : Vec) : Operand → Except Exc Vec
  | .vec w => .ok ⟨f v.x w.x, f v.y w.y⟩
  | .num n => .ok ⟨f v.x n, f v.y n⟩
  | .tup [x, y] => .ok ⟨f v.x x, f v.y y⟩
  | .tup _ => .error .valueError
  | .other => .error .typeError

/-- Same dispatch for operations that can raise (`util.py:454-462`, `472-480`, `490-498`). -/
def liftE (f : Num → Num → Except Exc Num) (v : Vec) : Operand → Except Exc Vec
  | .vec w => do return ⟨← f v.x w.x, ← f v.y w.y⟩
  | .num n => do return ⟨← f v.x n, ← f v.y n⟩
  | .tup [x, y] => do return ⟨← f v.x x, ← f v.y y⟩
  | .tup _ => .error .valueError
  | .other => .error .typeError

/-- `util.py:410-418` -/
def add (v : Vec) (o : Operand) : Except Exc Vec := lift Num.add v o
/-- `util.py:420-421`: `other + v` is `v.__add__(other)`. -/
def radd (v : Vec) (o : Operand) : Except Exc Vec := add v o
/-- `util.py:423-431` -/
def sub (v : Vec) (o : Operand) : Except Exc Vec := lift Num.sub v o
/-- `util.py:433-439` (`other - v`; a `Vector` left operand is handled by its own `__sub__`). -/
def rsub (v : Vec) : Operand → Except Exc Vec
  | .num n => .ok ⟨n.sub v.x, n.sub v.y⟩
  | .tup [x, y] => .ok ⟨x.sub v.x, y.sub v.y⟩
  | .tup _ => .error .valueError
  | .vec w => sub w (.vec v)
  | .other => .error .typeError
/-- `util.py:441-449` -/
def mul (v : Vec) (o : Operand) : Except Exc Vec := lift Num.mul v o
/-- `util.py:451-452` -/
def rmul (v : Vec) (o : Operand) : Except Exc Vec := mul v o
/-- `util.py:454-462` -/
def truediv (v : Vec) (o : Operand) : Except Exc Vec := liftE Num.truediv v o
/-- `util.py:464-470` -/
def rtruediv (v : Vec) : Operand → Except Exc Vec
  | .num n => do return ⟨← n.truediv v.x, ← n.truediv v.y⟩
  | .tup [x, y] => do return ⟨← x.truediv v.x, ← y.truediv v.y⟩
  | .tup _ => .error .valueError
  | .vec w => truediv w (.vec v)
  | .other => .error .typeError
/-- `util.py:472-480` -/
def floordiv (v : Vec) (o : Operand) : Except Exc Vec := liftE Num.floordiv v o
/-- `util.py:482-488` -/
def rfloordiv (v : Vec) : Operand → Except Exc Vec
  | .num n => do return ⟨← n.floordiv v.x, ← n.floordiv v.y⟩
  | .tup [x, y] => do return ⟨← x.floordiv v.x, ← y.floordiv v.y⟩
  | .tup _ => .error .valueError
  | .vec w => floordiv w (.vec v)
  | .other => .error .typeError
/-- `util.py:490-498` -/
def mod (v : Vec) (o : Operand) : Except Exc Vec := liftE Num.mod v o
/-- `util.py:500-505`: only `int` and `tuple` are handled; for a `float` (or anything else) the method
falls off its end and the expression `other % v` evaluates to `None` (here `none`). -/
def rmod (v : Vec) : Operand → Except Exc (Option Vec)
  | .num (.int n) => do return some ⟨← (Num.int n).mod v.x, ← (Num.int n).mod v.y⟩
  | .num (.flt _) => .ok none
  | .tup [x, y] => do return some ⟨← x.mod v.x, ← y.mod v.y⟩
  | .tup _ => .error .valueError
  | .vec w => do return some (← mod w (.vec v))
  | .other => .ok none

/-- `v == other`, `util.py:507-518`: unpacking a tuple of another length raises `ValueError`;
`NotImplemented` on both sides falls back to identity, i.e. `False`. -/
def eqOp (v : Vec) : Operand → Except Exc Bool
  | .tup [x, y] => .ok (v.x.eq x && v.y.eq y)
  | .tup _ => .error .valueError
  | .vec w => .ok (v.x.eq w.x && v.y.eq w.y)
  | .num _ => .ok false
  | .other => .ok false

/-- `v < other`, `util.py:520-527` -/
def ltOp (v : Vec) : Operand → Except Exc Bool
  | .tup [x, y] => .ok (v.x.lt x && v.y.lt y)
  | .tup _ => .error .valueError
  | .vec w => .ok (v.x.lt w.x && v.y.lt w.y)
  | .num _ => .error .typeError
  | .other => .error .typeError

/-- `v > other`, `util.py:529-536` -/
def gtOp (v : Vec) : Operand → Except Exc Bool
  | .tup [x, y] => .ok (x.lt v.x && y.lt v.y)
  | .tup _ => .error .valueError
  | .vec w => .ok (w.x.lt v.x && w.y.lt v.y)
  | .num _ => .error .typeError
  | .other => .error .typeError

/-- `v == w` for two vectors (`util.py:516-518`). -/
def eqv (v w : Vec) : Bool := v.x.eq w.x && v.y.eq w.y
/-- `v < w` for two vectors (`util.py:525-527`). -/
def lt (v w : Vec) : Bool := v.x.lt w.x && v.y.lt w.y
/-- `v + w` for two vectors (`util.py:411-412`). -/
def addV (v w : Vec) : Vec := ⟨v.x.add w.x, v.y.add w.y⟩
/-- `v - w` for two vectors (`util.py:424-425`). -/
def subV (v w : Vec) : Vec := ⟨v.x.sub w.x, v.y.sub w.y⟩

/-- `util.py:538-541` -/
def ceil (v : Vec) : Vec := ⟨.int v.x.ceil, .int v.y.ceil⟩
/-- `util.py:543-546` -/
def floor (v : Vec) : Vec := ⟨.int v.x.floor, .int v.y.floor⟩
/-- `util.py:548-551` -/
def round (v : Vec) : Vec :=
  ⟨.int (v.x.add (.flt (1/2))).floor, .int (v.y.add (.flt (1/2))).floor⟩

/-- `util.py:553-554` -/
def copy (v : Vec) : Vec := ⟨v.x, v.y⟩

/-- One pass of the loop `v.x, v.y = -v.y, v.x` (`util.py:559-560`); also the local helper `r` of
`Entity.rotate` (`entity.py:244-245`) and `Tile.rotate` (`util.py:618-619`). -/
def quarter (v : Vec) : Vec := ⟨v.y.neg, v.x⟩

/-- `for _ in range(n)` applied to `quarter`. -/
def quarters : Nat → Vec → Vec
  | 0, v => v
  | n + 1, v => quarters n (quarter v)

/-- `util.py:556-561`; the argument is reduced modulo 4 first, the receiver is copied. -/
def rotate (v : Vec) (amount : Int) : Vec := quarters (amount % 4).toNat v.copy

end Vec
end Verif
