import Verif.Py.Val
/-!
# `Color` — `/repo/py_factorio_blueprints/util.py:50-111`
-/
set_option autoImplicit false

namespace Verif

/-- A `Color` instance; the fields are `_r`, `_g`, `_b`, `_a`. -/
structure Color where
  r : Num
  g : Num
  b : Num
  a : Num
deriving DecidableEq, Repr, Inhabited

namespace Color

/-- `max(min(1, value), 0)` (`util.py:78,86,94,102`).  Python's `min(1, v)` keeps the first argument
unless `v < 1`; `max(w, 0)` keeps `w` unless `0 > w`. -/
def clamp (v : Num) : Num :=
  let w := if v.lt (.int 1) then v else .int 1
  if w.lt (.int 0) then .int 0 else w

/-- The setters, `util.py:76-102`. -/
def setR (c : Color) (v : Num) : Color := { c with r := clamp v }
def setG (c : Color) (v : Num) : Color := { c with g := clamp v }
def setB (c : Color) (v : Num) : Color := { c with b := clamp v }
def setA (c : Color) (v : Num) : Color := { c with a := clamp v }

/-- `Color(r, g, b, a)`, `util.py:51-55`. -/
def new (r : Num := .int 1) (g : Num := .int 1) (b : Num := .int 1) (a : Num := .int 1) : Color :=
  ⟨clamp r, clamp g, clamp b, clamp a⟩

/-- The colours a program can hold: `__init__` and the setters store clamped components only. -/
def Made (c : Color) : Prop := ∃ r g b a, c = new r g b a

/-- A component given as a JSON value; anything but a number fails in the comparison `v < 1`.
Simplification: a `bool` is read as the int it equals. -/
def component (v : Val) : Except Exc Num :=
  match v.num? with
  | some n => .ok n
  | none => .error .typeError

/-- `Color(**d)`, `util.py:51-55`: an unexpected keyword raises `TypeError`. -/
def ofKwargs (d : Dict) : Except Exc Color := do
  if d.any (fun p => !(p.1 == "r" || p.1 == "g" || p.1 == "b" || p.1 == "a")) then
    throw .typeError
  let r ← component (Dict.getD d "r" (.int 1))
  let g ← component (Dict.getD d "g" (.int 1))
  let b ← component (Dict.getD d "b" (.int 1))
  let a ← component (Dict.getD d "a" (.int 1))
  return new r g b a

/-- `Color(**value)` for a JSON value. -/
def ofVal (v : Val) : Except Exc Color := do ofKwargs (← v.kwargs)

/-- `util.py:63-70` (both operands `Color`). -/
def eqv (c d : Color) : Bool := c.r.eq d.r && c.g.eq d.g && c.b.eq d.b && c.a.eq d.a

/-- `util.py:104-111` -/
def toJson (c : Color) : Val :=
  .dict [("r", .num c.r), ("g", .num c.g), ("b", .num c.b), ("a", .num c.a)]

end Color
end Verif
