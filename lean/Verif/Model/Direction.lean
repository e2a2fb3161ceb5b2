import Verif.Model.Vector
/-!
# `Direction` — `/repo/py_factorio_blueprints/util.py:114-208`
-/
set_option autoImplicit false

namespace Verif

/-- A `Direction` instance: an `int` that `__new__` (`util.py:118-119`) reduced modulo 8. The raw
integer is stored; that it is in range is a theorem, not a subtype. -/
structure Direction where
  n : Int
deriving DecidableEq, Repr, Inhabited

namespace Direction

/-- `Direction.CLOCKWISE`, `util.py:115` -/
def CLOCKWISE : Int := 0
/-- `Direction.COUNTER_CLOCKWISE`, `util.py:116` -/
def COUNTER_CLOCKWISE : Int := 1

/-- `Direction(value)`, `util.py:118-119`.  Python's `%` by 8 is the Euclidean remainder. -/
def new (value : Int) : Direction := ⟨value % 8⟩

/-- `s % x` for a string and a number is string formatting: without a `%` in the string there is no place for the
number (`TypeError`).  Strings with a `%` are outside of the model. -/
def strMod (s : String) : Exc := if s.toList.contains '%' then .unmodelled else .typeError

/-- `Direction(value)` for a JSON value: numbers only (`int.__new__` truncates a float remainder);
`None` has no `%`. -/
def ofVal : Val → Except Exc Direction
  | .num (.int z) => .ok (new z)
  | .num (.flt q) =>
      match Num.mod (.flt q) (.int 8) with
      | .ok r => .ok ⟨r.trunc⟩
      | .error e => .error e
  | .bool b => .ok (new (if b then 1 else 0))
  | .str s => .error (strMod s)
  | _ => .error .typeError

/-- `util.py:121-123` -/
def add (a : Direction) (b : Int) : Direction := new (a.n + b)
/-- `util.py:125-127` -/
def sub (a : Direction) (b : Int) : Direction := new (a.n - b)

/-- `util.py:145-159` -/
def up : Direction := new 0
def right : Direction := new 2
def down : Direction := new 4
def left : Direction := new 6

/-- `util.py:161-175` -/
def isUp (d : Direction) : Bool := d.n == 0
def isRight (d : Direction) : Bool := d.n == 2
def isDown (d : Direction) : Bool := d.n == 4
def isLeft (d : Direction) : Bool := d.n == 6

/-- `util.py:177-181`; `turn` is the `direction` argument. -/
def rotate45 (d : Direction) (amount : Int) (turn : Int := CLOCKWISE) : Direction :=
  let amount := if turn ≠ CLOCKWISE then 8 - amount else amount
  new (d.add amount).n

/-- `util.py:183-188` -/
def rotate (d : Direction) (amount : Int) (turn : Int := CLOCKWISE) : Direction :=
  let amount := amount * 2
  let amount := if turn ≠ CLOCKWISE then 8 - amount else amount
  new (d.add amount).n

/-- `util.py:190-208`.  The last line *returns* (not raises) a `ValueError` object: `none` here. -/
def vector (d : Direction) : Option Vec :=
  let v (x y : Int) : Option Vec := some ⟨.int x, .int y⟩
  if d.n = 0 then v 0 (-1)
  else if d.n = 1 then v 1 (-1)
  else if d.n = 2 then v 1 0
  else if d.n = 3 then v 1 1
  else if d.n = 4 then v 0 1
  else if d.n = 5 then v (-1) 1
  else if d.n = 6 then v (-1) 0
  else if d.n = 7 then v (-1) (-1)
  else none

/-- `d // 2` as used in `Entity.selection_box` (`entity.py:227`): `Direction.__floordiv__` returns
`NotImplemented` (`util.py:129-130`), so Python falls back to `int`'s reflected floor division. -/
def half (d : Direction) : Int := d.n / 2

end Direction
end Verif
