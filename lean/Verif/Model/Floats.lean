import Verif.Model.Blueprint
import Verif.Py.Round
/-!
# Rotation, moving and looking up with rounded floats

The rest of the model computes with exact numbers.  Here the operations on positions are repeated with a rounding
function `rnd`: an operation on two `int`s is exact, any other converts its operands to `float` and rounds the result.
-/
set_option autoImplicit false

namespace Verif

namespace Num

/-- `float(a)` -/
def toFloat (rnd : Rat → Rat) : Num → Rat
  | int z => rnd z
  | flt q => q

/-- `a + b` -/
def addR (rnd : Rat → Rat) : Num → Num → Num
  | int a, int b => int (a + b)
  | a, b => flt (rnd (a.toFloat rnd + b.toFloat rnd))

/-- `a - b` -/
def subR (rnd : Rat → Rat) : Num → Num → Num
  | int a, int b => int (a - b)
  | a, b => flt (rnd (a.toFloat rnd - b.toFloat rnd))

/-- `a * b` -/
def mulR (rnd : Rat → Rat) : Num → Num → Num
  | int a, int b => int (a * b)
  | a, b => flt (rnd (a.toFloat rnd * b.toFloat rnd))

/-- `a % b`; for floats the remainder is computed exactly and rounded once. -/
def modR (rnd : Rat → Rat) (a b : Num) : Except Exc Num :=
  if b.val = 0 then .error .zeroDivisionError
  else match a, b with
    | int a, int b => .ok (int (a.fmod b))
    | a, b => .ok (flt (rnd (a.toFloat rnd - b.toFloat rnd * ((a.toFloat rnd / b.toFloat rnd).floor : Int))))

end Num

namespace Vec

/-- `v + o` (`util.py:410-418`) -/
def addR (rnd : Rat → Rat) (v : Vec) (o : Operand) : Except Exc Vec := lift (Num.addR rnd) v o
/-- `v - o` (`util.py:423-431`) -/
def subR (rnd : Rat → Rat) (v : Vec) (o : Operand) : Except Exc Vec := lift (Num.subR rnd) v o
/-- `o - v` (`util.py:433-439`) -/
def rsubR (rnd : Rat → Rat) (v : Vec) : Operand → Except Exc Vec
  | .num n => .ok ⟨n.subR rnd v.x, n.subR rnd v.y⟩
  | .tup [x, y] => .ok ⟨x.subR rnd v.x, y.subR rnd v.y⟩
  | .tup _ => .error .valueError
  | .vec w => subR rnd w (.vec v)
  | .other => .error .typeError

end Vec

namespace Entity

/-- `Train.orientation.setter` (`entity_mixins.py:380-385`) for a number. -/
def orientationSetR (rnd : Rat → Rat) (n : Num) : Except Exc Val := do return .num (← n.modR rnd (.flt 1))

/-- `Orientation.rotate` (`entity_mixins.py:364-365`) -/
def rotateOrientationR (rnd : Rat → Rat) (e : Entity) (amount : Int) : Except Exc Entity := do
  match Dict.get? e.attrs "orientation" with
  | none => throw .attributeError
  | some v =>
    match v.num? with
    | none => throw .typeError
    | some n =>
      let step ← (Num.mulR rnd (.flt (1/4)) (.int amount)).modR rnd (.int 1)
      let o ← orientationSetR rnd (n.addR rnd step)
      return { e with attrs := Dict.set e.attrs "orientation" o }

/-- The chain of `rotate` calls of the mixins (`entity_mixins.py:364-368, 862-866`). -/
def rotateChainR (rnd : Rat → Rat) (amount : Int) : List Mx → Entity → Except Exc Unit × Entity
  | [], e => (.ok (), e)
  | .Rotatable :: ms, e => rotateChainR rnd amount ms { e with dir := e.dir.rotate amount }
  | .Orientation :: ms, e =>
      match rotateOrientationR rnd e amount with
      | .error x => (.error x, e)
      | .ok e => rotateChainR rnd amount ms e
  | _ :: ms, e => rotateChainR rnd amount ms e

/-- `Entity.rotate(amount, around, direction)` (`entity.py:237-253`) -/
def rotateR (rnd : Rat → Rat) (e : Entity) (amount : Int) (around : Operand) (dir : DirArg) : Except Exc Unit × Entity :=
  match e.pos.subR rnd around with
  | .error x => (.error x, e)
  | .ok p =>
    let n := turns amount dir
    match (Vec.quarters n.toNat p).addR rnd around with
    | .error x => (.error x, e)
    | .ok p => rotateChainR rnd n e.klass.chain { e with pos := p }

/-- `Entity.collides(position)` (`entity.py:232-235`) -/
def collidesR (rnd : Rat → Rat) (env : Env) (e : Entity) (p : Operand) : Except Exc Bool := do
  let b ← e.box env
  let q ← Vec.rsubR rnd e.pos p
  return b.1.lt q && q.lt b.2

end Entity

/-- `entity.rotate(…)` for an entity in the heap. -/
def entRotateR (rnd : Rat → Rat) (amount : Int) (around : Operand) (dir : DirArg) (r : Ref) : M Unit := fun w =>
  let p := (w.heap r).rotateR rnd amount around dir
  (p.1, w.setEnt r p.2)

/-- `BlueprintLayer.rotate` of the entity layer (`blueprint.py:104-107`) -/
def layerRotateR (rnd : Rat → Rat) (b : BpId) (amount : Int) (around : Option Operand) (dir : Option DirArg) : M Unit := do
  let w ← M.get
  M.forEach
    (entRotateR rnd amount (around.getD (.vec ⟨.int 0, .int 0⟩)) (dir.getD (.int Direction.CLOCKWISE)))
    (w.bp b).objs
  M.modify (·.sort b)

/-- `entity.position -= center` -/
def shiftEntR (rnd : Rat → Rat) (c : Operand) (r : Ref) : M Unit := fun w =>
  match (w.heap r).pos.subR rnd c with
  | .error e => (.error e, w)
  | .ok p => (.ok (), w.setEnt r { w.heap r with pos := p })

/-- `self.position + corner` (`entity.py:201-203, 216-218`) -/
def Vec.addVR (rnd : Rat → Rat) (v u : Vec) : Vec := ⟨v.x.addR rnd u.x, v.y.addR rnd u.y⟩

/-- `Entity.top_left` (`entity.py:200-203`) -/
def Entity.topLeftR (rnd : Rat → Rat) (env : Env) (e : Entity) : Except Exc Vec := do
  return e.pos.addVR rnd (← e.box env).1
/-- `Entity.bottom_right` (`entity.py:215-218`) -/
def Entity.bottomRightR (rnd : Rat → Rat) (env : Env) (e : Entity) : Except Exc Vec := do
  return e.pos.addVR rnd (← e.box env).2

/-- `Blueprint.maximum_values` (`blueprint.py:307-323`) over the entities `es`; `int` of a float is exact. -/
def extentAuxR (rnd : Rat → Rat) (env : Env) : List Entity → Extent → Except Exc Extent
  | [], x => .ok x
  | e :: es, x => do
      let tl ← e.topLeftR rnd env
      let br ← e.bottomRightR rnd env
      extentAuxR rnd env es
        { maxx := boundStep (fun v m => m.lt v) x.maxx br.x,
          minx := boundStep (fun v m => v.lt m) x.minx tl.x,
          maxy := boundStep (fun v m => m.lt v) x.maxy br.y,
          miny := boundStep (fun v m => v.lt m) x.miny tl.y }

def maximumValuesR (rnd : Rat → Rat) (w : World) (b : BpId) : Except Exc Extent :=
  extentAuxR rnd w.env ((w.bp b).objs.map w.heap) {}

/-- `Blueprint.center` (`blueprint.py:325-328`): the sums are `int`s, their halves are rounded. -/
def centerR (rnd : Rat → Rat) (w : World) (b : BpId) : Except Exc (Option Vec) := do
  match ← maximumValuesR rnd w b with
  | ⟨some a, some i, some c, some j⟩ =>
      return some ⟨.flt (rnd ((a + i : Int) / 2)), .flt (rnd ((c + j : Int) / 2))⟩
  | _ => return none

/-- `Blueprint.top_left` … (`blueprint.py:338-356`) -/
def cornerR (rnd : Rat → Rat) (w : World) (b : BpId) (x y : Extent → Option Int) : Except Exc (Option Vec) := do
  let e ← maximumValuesR rnd w b
  match x e, y e with
  | some x, some y => return some ⟨.int x, .int y⟩
  | _, _ => return none

/-- The point `recenter` moves to the origin (`blueprint.py:366-369`). -/
def recenterPointR (rnd : Rat → Rat) (w : World) (b : BpId) (around : Option Operand) : Except Exc Operand :=
  match around with
  | some c => .ok c
  | none => do
    match ← centerR rnd w b with
    | some c => .ok (.vec c.ceil)
    | none => .error .valueError

/-- `Blueprint.recenter(around)` (`blueprint.py:365-374`) -/
def recenterR (rnd : Rat → Rat) (b : BpId) (around : Option Operand := none) : M Unit := do
  let w ← M.get
  let c ← M.lift (recenterPointR rnd w b around)
  let z ← M.lift (isOrigin c)
  if z then return ()
  else do
    M.forEach (shiftEntR rnd c) (w.bp b).objs
    M.throw .attributeError

end Verif
