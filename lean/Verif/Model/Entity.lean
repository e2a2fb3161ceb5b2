import Verif.Model.Control
import Verif.Model.Tile
/-!
# `Entity` — `/repo/py_factorio_blueprints/entity.py`

Everything that concerns one entity object; wires and layers are in `Verif/Model/World.lean`.
-/
set_option autoImplicit false

namespace Verif

/-- The blueprint (its entity layer) that an entity refers to. -/
abbrev BpId := Nat

/-- An entity object: the attributes set in `Entity.__init__` (`entity.py:124-143`), the class it
currently has (`klass`, changed by `add_mixins`), the number of classes created for it so far (names the
next one), the attributes set by mixins, and the control behaviour object if any.

Simplifications: `strict` is kept as its truth value; `entity_number` is `None` or an `int`; the name
is a string; the position is a `Vector` (not `None`). -/
structure Entity where
  strict : Bool := true
  layer : Option BpId := none
  number : Option Int := none      -- `entity_number`
  auto : Option Int := none        -- `_auto_entity_number`
  name : String
  pos : Vec
  dir : Direction := ⟨0⟩
  raw : Val := .none               -- `raw_connections`
  klass : Klass := Klass.entity
  depth : Nat := 0
  attrs : Attrs := []
  cb : Option Cb := none
deriving DecidableEq, Repr

instance : Inhabited Entity := ⟨{ name := "", pos := ⟨.int 0, .int 0⟩ }⟩

/-- `custom_entity_prototypes` of a blueprint (`blueprint.py:200-202`): prototype type ↦ `mixins`.
Simplification: only mixins of the library. -/
abbrev Custom := List (String × List Mx)

/-- `entity_prototypes[value]['type']` (`entity.py:87`, and `name.data['type']`). -/
def protoType (env : Env) (name : String) : Except Exc Val := do
  (← Dict.getItem env.entities name).subscript "type"

/-- What `raise TypeError(f"… {self.name.data['type']} …")` raises (`entity_mixins.py:18-28, 35-47`):
computing the message may itself fail. -/
def leftoverExc (env : Env) (name : String) : Exc :=
  match protoType env name with
  | .ok _ => .typeError
  | .error e => e

/-- `entity_prototypes[prototype].get('mixins', [])` for the value of `type`
(`entity.py:90-97`): an unhashable type raises `TypeError`, an unknown one `KeyError`. -/
def mixinsFor (custom : Option Custom) (t : Val) : Except Exc (List Mx) :=
  match t with
  | .str t =>
    match prototypeMixins t with
    | none => .error .keyError
    | some ms => .ok (((custom.getD []).lookup t).getD [] ++ ms)
  | t => if t.hashable then .error .keyError else .error .typeError

namespace Entity

/-- `EntityName.__set__` (`entity.py:77-97`) for a JSON value; `custom` is the mapping of the entity's
blueprint, `none` if it has no blueprint.  The new state is returned also if an exception is raised:
the name is stored before the class is computed. -/
def setName (env : Env) (custom : Option Custom) (e : Entity) (v : Val) : Except Exc Unit × Entity :=
  if !e.strict then
    match v with
    | .str s => (.ok (), { e with name := s })
    | _ => (.error .unmodelled, e)
  else
    match v with
    | .str s =>
      match Dict.get? env.entities s with
      | none => (.error .unknownEntity, e)
      | some data =>
        let e := { e with name := s }
        match data.subscript "type" with
        | .error x => (.error x, e)
        | .ok t =>
          match mixinsFor custom t with
          | .error x => (.error x, e)
          | .ok ms =>
            match Klass.extend e.depth e.klass ms with
            | .error x => (.error x, e)
            | .ok k => (.ok (), { e with klass := k, depth := e.depth + 1 })
    | v => (.error (if v.hashable then .unknownEntity else .typeError), e)

/-- `add_mixins(*mixins)` (`entity.py:120-122`), called by the user.  Simplification: only mixins of the
library.  A class that cannot be made raises `TypeError` before `__class__` is assigned. -/
def addMixins (e : Entity) (ms : List Mx) : Except Exc Unit × Entity :=
  match Klass.extend e.depth e.klass ms with
  | .error x => (.error x, e)
  | .ok k => (.ok (), { e with klass := k, depth := e.depth + 1 })

/-- `set_mixins(*mixins)` (`entity.py:116-118`). -/
def setMixins (e : Entity) (ms : List Mx) : Except Exc Unit × Entity :=
  match Klass.extend e.depth Klass.entity ms with
  | .error x => (.error x, e)
  | .ok k => (.ok (), { e with klass := k, depth := e.depth + 1 })

/-- `entity_number` as a keyword value. -/
def numberOf (v : Val) : Except Exc (Option Int) :=
  match v with
  | .none => .ok none
  | .int z => .ok (some z)
  | _ => .error .unmodelled

/-- The keywords with their own parameter in `Entity.__init__`. -/
def ownKeys : List String := ["name", "position", "strict", "direction", "entity_number"]

/-- `PositionField.__set__` (`entity.py:12-13`) for a JSON value; `Vector(None)` is `None`, an entity
without position is outside the model. -/
def posOf (v : Val) : Except Exc Vec := do
  match ← Vec.ofVal v with
  | some p => return p
  | none => throw .unmodelled

/-- `self.control_behavior = self.ControlBehavior(…)` if the keyword is given (`entity.py:138-141`). -/
def cbOf (env : Env) (e : Entity) (kw : Dict) : Except Exc (Option Cb) :=
  match Dict.get? kw "control_behavior" with
  | some v => do return some (← Cb.new env (leftoverExc env e.name) e.klass v)
  | none => return none

/-- The rest of `Entity.__init__` after the assignment to `name` (`entity.py:132-143`). -/
def finish (env : Env) (e : Entity) (position : Val) (kw : Dict) : Except Exc Entity := do
  let pos ← posOf position
  let dir ← Direction.ofVal (Dict.getD kw "direction" (.int 0))
  let cb ← cbOf env e kw
  let a ← initChain env e.strict e.klass.insFiltersShadowed (leftoverExc env e.name) e.klass.chain false
    (eraseKeys kw (ownKeys ++ ["connections", "control_behavior"])) []
  return { e with pos := pos, dir := dir, raw := Dict.getD kw "connections" .none, cb := cb, attrs := a }

/-- `Entity(blueprint_layer=layer, **kw)` (`entity.py:124-143`).  `custom` is the mapping of the layer's
blueprint.  A keyword `self` or a second `blueprint_layer` is rejected when the arguments are bound.
Simplification: `position` is given as a dict (`Vector` and tuples are equally accepted by the code). -/
def new (env : Env) (custom : Option Custom) (layer : Option BpId) (kw : Dict) : Except Exc Entity :=
  if Dict.mem kw "self" || Dict.mem kw "blueprint_layer" then .error .typeError
  else match Dict.get? kw "name", Dict.get? kw "position" with
  | some name, some position =>
    match numberOf (Dict.getD kw "entity_number" .none) with
    | .error x => .error x
    | .ok number =>
      match setName env custom
          { strict := (Dict.getD kw "strict" (.bool true)).truthy, layer := layer, number := number,
            auto := number, name := "", pos := ⟨.int 0, .int 0⟩ } name with
      | (.error x, _) => .error x
      | (.ok _, e) => finish env e position kw
  | _, _ => .error .typeError

/-- `entity.py:66-71`: `Vector(**self.data['selection_box'][…])`. `Vector()` without arguments is
`None`, which the callers cannot use (outside the model). -/
def boxCorner (box : Val) (corner : String) : Except Exc Vec := do
  let d ← (← box.subscript corner).kwargs
  if d.isEmpty then throw .unmodelled
  match ← Vec.new (.kw d) with
  | some v => return v
  | none => throw .unmodelled

/-- `EntityName.NameStr.selection_box` (`entity.py:66-71`). -/
def protoBox (env : Env) (name : String) : Except Exc (Vec × Vec) := do
  let data ← Dict.getItem env.entities name
  let box ← data.subscript "selection_box"
  let a ← boxCorner box "left_top"
  let b ← boxCorner box "right_bottom"
  return (a, b)

/-- `for _ in range(n): box = r(box)` (`entity.py:223-228`). -/
def swaps : Nat → Vec × Vec → Vec × Vec
  | 0, b => b
  | n + 1, b => swaps n (b.1.yx, b.2.yx)

/-- `Entity.selection_box` (`entity.py:220-230`) -/
def box (env : Env) (e : Entity) : Except Exc (Vec × Vec) := do
  return swaps e.dir.half.toNat (← protoBox env e.name)

/-- `entity.py:200-218` -/
def topLeft (env : Env) (e : Entity) : Except Exc Vec := do
  return e.pos.addV (← e.box env).1
def bottomRight (env : Env) (e : Entity) : Except Exc Vec := do
  return e.pos.addV (← e.box env).2
def topRight (env : Env) (e : Entity) : Except Exc Vec := do
  let b ← e.box env
  return e.pos.addV ⟨b.2.x, b.1.y⟩
def bottomLeft (env : Env) (e : Entity) : Except Exc Vec := do
  let b ← e.box env
  return e.pos.addV ⟨b.1.x, b.2.y⟩

/-- `Entity.collides(position)` (`entity.py:232-235`).  `position -= self.position` with a number or a
tuple on the left uses `Vector.__rsub__`. -/
def collides (env : Env) (e : Entity) (p : Operand) : Except Exc Bool := do
  let b ← e.box env
  let q ← Vec.rsub e.pos p
  return b.1.lt q && q.lt b.2

/-- The number of quarter turns performed by `Entity.rotate` (`entity.py:240-242`). -/
def turns (amount : Int) (dir : DirArg) : Int :=
  let a := amount % 4
  if dir ≠ .int Direction.CLOCKWISE then a % (4 - a) else a

/-- `Orientation.rotate` (`entity_mixins.py:364-365`) with the setter of `Train` (`380-385`). -/
def rotateOrientation (e : Entity) (amount : Int) : Except Exc Entity := do
  match Dict.get? e.attrs "orientation" with
  | none => throw .attributeError
  | some v =>
    match v.num? with
    | none => throw .typeError
    | some n =>
      let step ← (Num.mul (.flt (1/4)) (.int amount)).mod (.int 1)
      let o ← orientationSet (.num (n.add step))
      return { e with attrs := Dict.set e.attrs "orientation" o }

/-- The chain of `rotate` calls of the mixins (`entity_mixins.py:364-368, 862-866`). -/
def rotateChain (amount : Int) : List Mx → Entity → Except Exc Unit × Entity
  | [], e => (.ok (), e)
  | .Rotatable :: ms, e => rotateChain amount ms { e with dir := e.dir.rotate amount }
  | .Orientation :: ms, e =>
      match rotateOrientation e amount with
      | .error x => (.error x, e)
      | .ok e => rotateChain amount ms e
  | _ :: ms, e => rotateChain amount ms e

/-- `Entity.rotate(amount, around, direction)` (`entity.py:237-253`): the position is assigned before
the mixins run. -/
def rotate (e : Entity) (amount : Int) (around : Operand := .vec ⟨.int 0, .int 0⟩)
    (dir : DirArg := .int Direction.CLOCKWISE) : Except Exc Unit × Entity :=
  match e.pos.sub around with
  | .error x => (.error x, e)
  | .ok p =>
    let n := turns amount dir
    match (Vec.quarters n.toNat p).add around with
    | .error x => (.error x, e)
    | .ok p => rotateChain n e.klass.chain { e with pos := p }

/-- `Entity.to_json` without the first lines: `super().to_json(obj)` (`entity.py:264`), i.e. the
mixins in resolution order, then `BaseMixin.to_json` (`entity_mixins.py:49-52`). -/
def emitRest (env : Env) (e : Entity) (obj : Dict) : Except Exc Dict := do
  let obj ← emitChain env e.dir e.klass.chain (Dict.get? e.attrs) obj
  match e.cb with
  | none => return obj
  | some c =>
    match ← (c.seenBy e.klass).toJson env with
    | none => return obj
    | some d => return Dict.set obj "control_behavior" (.dict d)

end Entity
end Verif
