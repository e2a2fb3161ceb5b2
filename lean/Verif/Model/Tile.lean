import Verif.Model.Vector
/-!
# `Tile` — `/repo/py_factorio_blueprints/util.py:564-623`
-/
set_option autoImplicit false

namespace Verif

/-- A `Tile` instance.  It has *no* `_blueprint_layer` attribute. -/
structure Tile where
  name : String
  pos : Vec
deriving DecidableEq, Repr, Inhabited

/-- The `direction` argument of `rotate` as a user can pass it: `Entity.rotate` compares it with the
integer `Direction.CLOCKWISE` (`entity.py:241`), `Tile.rotate` with the string `'clockwise'`
(`util.py:615`). -/
inductive DirArg where
  | int (z : Int)
  | str (s : String)
deriving DecidableEq, Repr

namespace Tile

/-- `TileName.__set__`, `util.py:574-583`, with the check on: `value not in Blueprint.tile_prototypes`. -/
def setName (tiles : List String) : Val → Except Exc String
  | .str s => if tiles.contains s then .ok s else .error .unknownTile
  | v => if v.hashable then .error .unknownTile else .error .typeError

/-- `Tile(**kwargs)`, `util.py:592-595`, with the strict name check of `TileName.__set__`
(`util.py:574-583`; a tile has no attribute `strict`, so the check is always on).  After `name` and
`position` are popped, any remaining keyword goes to `object.__init__`, which raises `TypeError`. -/
def new (tiles : List String) (kw : Dict) : Except Exc Tile := do
  let name ← Dict.getItem kw "name"
  let name ← setName tiles name
  let p ← Dict.getItem (Dict.erase kw "name") "position"
  let pos ← Vec.ofVal p
  if !(Dict.erase (Dict.erase kw "name") "position").isEmpty then .error .typeError
  else
    match pos with
    | some v => .ok ⟨name, v⟩
    | none => .error .unmodelled     -- `Vector(None)` is `None`: a tile without position

/-- `util.py:597-599` -/
def toJson (t : Tile) : Val := .dict [("name", .str t.name), ("position", t.pos.toJson)]

/-- `Tile.collides(position)`, `util.py:607-608`: `top_left` and `bottom_right` are methods that are
not called, so `method < position` always raises `TypeError`. -/
def collides (_t : Tile) (_p : Vec) : Except Exc Bool := .error .typeError

/-- Number of quarter turns performed by `Tile.rotate` (`util.py:614-616`).  With a direction other
than `'clockwise'` this is `4 - amount % 4`, a number in `1..4`. -/
def turns (amount : Int) (dir : DirArg) : Nat :=
  let a := amount % 4
  if dir ≠ .str "clockwise" then (4 - a).toNat else a.toNat

/-- `util.py:610-623` -/
def rotate (t : Tile) (amount : Int) (around : Vec := ⟨.int 0, .int 0⟩)
    (dir : DirArg := .str "clockwise") : Tile :=
  { t with pos := (Vec.quarters (turns amount dir) (t.pos.subV around)).addV around }

end Tile
end Verif
