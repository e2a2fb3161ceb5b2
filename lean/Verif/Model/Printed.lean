import Verif.Model.Codec
import Verif.Model.Color
import Verif.Model.Condition
/-!
# Printed forms: the methods `__repr__` and `__str__`

`/repo/py_factorio_blueprints/util.py:57-58, 135-143, 299-300, 316-319, 407-408` and `entity.py:109-114`.
The text of floats is a parameter, as in `Model/Codec`.
-/
set_option autoImplicit false

namespace Verif.Printed

/-- `f"{n}"` for a number. -/
def num (f : FloatText) : Num → List Char
  | .int z => Json.intText z
  | .flt q => f.repr q

/-- `Vector.__repr__`, `util.py:407-408` -/
def vec (f : FloatText) (v : Vec) : List Char :=
  "<Vector (".toList ++ num f v.x ++ ", ".toList ++ num f v.y ++ ")>".toList

/-- `Color.__repr__`, `util.py:57-58` -/
def color (f : FloatText) (c : Color) : List Char :=
  "<Color (r:".toList ++ num f c.r ++ ", g:".toList ++ num f c.g ++ ", b:".toList ++ num f c.b ++ ", a:".toList ++
    num f c.a ++ ")>".toList

/-- The tuple of names, `util.py:136-139`. -/
def dirNames : List String :=
  ["Up", "Up-Right", "Right", "Down-Right", "Down", "Down-Left", "Left", "Up-Left"]

/-- `t[i]` for a tuple: negative indices count from the end, others out of range raise `IndexError`. -/
def tupleGet (t : List String) (i : Int) : Except Exc String :=
  let j := if i < 0 then i + t.length else i
  if j < 0 then .error .indexError
  else match t[j.toNat]? with
    | some s => .ok s
    | none => .error .indexError

/-- `Direction.__repr__`, `util.py:135-140` -/
def dirRepr (d : Direction) : Except Exc (List Char) := do
  let s ← tupleGet dirNames d.n
  return "<Direction (".toList ++ s.toList ++ ")>".toList

/-- `Direction.__str__`, `util.py:142-143`; also what an f-string writes for a direction. -/
def dirStr (d : Direction) : List Char := Json.intText d.n

/-- `Entity.__str__`, `entity.py:113-114` -/
def entStr (e : Entity) : List Char := "<Entity (name: \"".toList ++ e.name.toList ++ "\")>".toList

/-- `Entity.__repr__`, `entity.py:109-111` -/
def entRepr (f : FloatText) (e : Entity) : List Char :=
  "<Entity (name: \"".toList ++ e.name.toList ++ "\", position: ".toList ++ vec f e.pos ++ ", direction: ".toList ++
    dirStr e.dir ++ ")>".toList

/-- `f"{entity}"` for an end of a wire; an end may be `None`. -/
def endStr (w : World) : Option Ref → List Char
  | none => "None".toList
  | some r => entStr (w.heap r)

/-- `Connection.__repr__`, `util.py:316-319` -/
def conn (w : World) (c : Conn) : List Char :=
  "<Connection (".toList ++ c.color.toList ++ " from:(".toList ++ endStr w c.fromE ++ ", ".toList ++
    Json.intText c.fromSide ++ ") to:(".toList ++ endStr w c.toE ++ ", ".toList ++ Json.intText c.toSide ++
    "))>".toList

/-- `SignalID.__repr__`, `util.py:293-300`: a name that is `None` is no key of the table. -/
def signalId (env : Env) (name : Val) : Except Exc (List Char) :=
  match name with
  | .str s => do
      match ← (← Dict.getItem env.defaults s).subscript "type" with
      | .str t => return "<SignalID (".toList ++ s.toList ++ ", type: ".toList ++ t.toList ++ ")>".toList
      | _ => throw .unmodelled
  | _ => .error .keyError

end Verif.Printed
