import Verif.Py.Text
/-!
# `Connection` — `/repo/py_factorio_blueprints/util.py:307-356`
-/
set_option autoImplicit false

namespace Verif

/-- Identity of an entity object. -/
abbrev Ref := Nat

/-- A `Connection` instance (`util.py:308-314`).  An end is an entity object or `None` (an id that was
not found).  Simplification: the colour is a string. -/
structure Conn where
  fromE : Option Ref
  toE : Option Ref
  fromSide : Int
  toSide : Int
  color : String
deriving DecidableEq, Repr

namespace Conn

/-- `Connection(from_entity, to_entity, from_side, to_side, color)` (`util.py:308-314`): the sides go
through `int(…)`. -/
def new (f t : Option Ref) (fromSide toSide : Val) (color : String) : Except Exc Conn := do
  let a ← pyInt fromSide
  let b ← pyInt toSide
  return ⟨f, t, a, b, color⟩

/-- `util.py:321-324` -/
def attachedTo (c : Conn) (e : Ref) : Bool := c.fromE == some e || c.toE == some e

/-- `util.py:326-328` -/
def flip (c : Conn) : Conn :=
  { c with fromE := c.toE, toE := c.fromE, fromSide := c.toSide, toSide := c.fromSide }

/-- `util.py:330-333` -/
def orientate (c : Conn) (e : Ref) : Conn := if c.toE == some e then c.flip else c

/-- `util.py:335-339` -/
def flipColor (c : Conn) : Conn :=
  if c.color == "green" then { c with color := "red" } else { c with color := "green" }

/-- `util.py:341-356`; entities are compared by identity (`Entity` defines no `__eq__`). -/
def eqv (c d : Conn) : Bool :=
  if c.color != d.color then false
  else if c.fromE == d.fromE && c.toE == d.toE && c.fromSide == d.fromSide && c.toSide == d.toSide then
    true
  else if c.fromE == d.toE && c.toE == d.fromE && c.fromSide == d.toSide && c.toSide == d.fromSide then
    true
  else false

end Conn
end Verif
