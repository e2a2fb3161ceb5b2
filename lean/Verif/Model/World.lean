import Verif.Model.Entity
import Verif.Model.Connection
import Verif.Py.Sort
/-!
# Layers and wires on a heap of entity objects

`BlueprintLayer` (`/repo/py_factorio_blueprints/blueprint.py:36-134`), the wire methods of `Entity`
(`entity.py:152-198`) and `Entity.to_json` (`entity.py:255-264`).

All operations live in the monad `M`: they take the world and return the result *or exception* together
with the new world, so the effects of a call that fails midway are visible.
-/
set_option autoImplicit false

namespace Verif

/-- The state of a `Blueprint` object (`blueprint.py:184-202`).  `objs` and `tiles` are the lists of
its two layers. -/
structure Bp where
  objs : List Ref := []
  tiles : List Tile := []
  conns : List Conn := []
  item : Val := .str "blueprint"
  label : Val := .str ""
  labelColor : Option Color := none
  /-- `icons`: `None` or an object with the stored value of its `SignalName` -/
  icons : List (Option Val) := []
  version : Val := .int 0
  /-- per `Schedule`: `locomotives` and `schedule` -/
  schedules : List (List Ref × Val) := []
  custom : Custom := []
  /-- `strict`, of the blueprint and its layers; read nowhere -/
  strict : Bool := true
deriving DecidableEq, Repr

/-- All objects.  Entity objects with reference `≥ next` do not exist yet; blueprints that were not
touched yet are fresh `Blueprint()` objects. -/
structure World where
  env : Env
  heap : Ref → Entity
  next : Ref
  bp : BpId → Bp

/-- The world before any object is created. -/
def World.init (env : Env) : World := ⟨env, fun _ => default, 0, fun _ => {}⟩

/-- Computations with state and exceptions; the state survives exceptions. -/
def M (α : Type) := World → Except Exc α × World

namespace M

def pure {α} (a : α) : M α := fun w => (.ok a, w)
def bind {α β} (x : M α) (f : α → M β) : M β := fun w =>
  match x w with
  | (.error e, w) => (.error e, w)
  | (.ok a, w) => f a w

instance : Monad M where
  pure := M.pure
  bind := M.bind

def throw {α} (e : Exc) : M α := fun w => (.error e, w)
def get : M World := fun w => (.ok w, w)
def modify (f : World → World) : M Unit := fun w => (.ok (), f w)
/-- A computation that only raises. -/
def lift {α} (x : Except Exc α) : M α := fun w => (x, w)
/-- A `for` loop. -/
def forEach {α} (f : α → M Unit) : List α → M Unit
  | [] => M.pure ()
  | a :: as => M.bind (f a) (fun _ => forEach f as)
/-- A list comprehension. -/
def mapL {α β} (f : α → M β) : List α → M (List β)
  | [] => M.pure []
  | a :: as => M.bind (f a) (fun b => M.bind (mapL f as) (fun bs => M.pure (b :: bs)))

end M

/-- Attribute assignment on an entity object. -/
def World.setEnt (w : World) (r : Ref) (e : Entity) : World :=
  { w with heap := fun s => if s = r then e else w.heap s }

/-- Attribute assignment on a blueprint object. -/
def World.setBp (w : World) (b : BpId) (p : Bp) : World :=
  { w with bp := fun c => if c = b then p else w.bp c }

/-- `entity.blueprint.custom_entity_prototypes` if there is a blueprint (`entity.py:89-94, 145-150`). -/
def World.customOf (w : World) (layer : Option BpId) : Option Custom :=
  layer.map (fun b => (w.bp b).custom)

/-! ## Layer -/

/-- `(a.position.y, a.position.x) <= (b.position.y, b.position.x)` (tuple comparison;
`blueprint.py:130`). -/
def posLe (p q : Vec) : Bool := p.y.lt q.y || (p.y.eq q.y && p.x.le q.x)

/-- `blueprint.py:132-134` -/
def reindexFrom (heap : Ref → Entity) : Nat → List Ref → (Ref → Entity)
  | _, [] => heap
  | i, r :: rs =>
      reindexFrom (fun s => if s = r then { heap r with auto := some ((i : Int) + 1) } else heap s)
        (i + 1) rs

/-- `BlueprintLayer.sort` (`blueprint.py:92-94, 129-134`) of the entity layer of blueprint `b`. -/
def World.sort (w : World) (b : BpId) : World :=
  let objs := sortBy (fun r s => posLe (w.heap r).pos (w.heap s).pos) (w.bp b).objs
  { w.setBp b { w.bp b with objs := objs } with heap := reindexFrom w.heap 0 objs }

/-- An argument for `BlueprintLayer.add` / `remove` / `del`: an entity object, a tile, or any other
object. -/
inductive Obj where
  | ent (r : Ref)
  | tile (t : Tile)
  | other
deriving DecidableEq, Repr

/-- `BlueprintLayer.add` of the entity layer (`blueprint.py:67-78`). -/
def layerAdd (b : BpId) (o : Obj) : M Unit := fun w =>
  match o with
  | .ent r =>
    if (w.heap r).layer ≠ none ∧ (w.heap r).layer ≠ some b then (.error .duplicateEntity, w)
    else if r ∈ (w.bp b).objs then (.ok (), w)
    else
      let w := w.setBp b { w.bp b with objs := (w.bp b).objs ++ [r] }
      let w := w.setEnt r { w.heap r with layer := some b }
      (.ok (), w.sort b)
  | _ => (.error .typeError, w)

/-- `self.objs.remove(obj); obj._blueprint_layer = None` (`blueprint.py:59-60, 84-85`). -/
def layerDrop (b : BpId) (r : Ref) : M Unit := fun w =>
  if r ∈ (w.bp b).objs then
    let w := w.setBp b { w.bp b with objs := (w.bp b).objs.erase r }
    (.ok (), w.setEnt r { w.heap r with layer := none })
  else (.error .valueError, w)

/-- `BlueprintLayer.remove` of the entity layer (`blueprint.py:80-85`). -/
def layerRemove (b : BpId) (o : Obj) : M Unit :=
  match o with
  | .ent r => layerDrop b r
  | _ => M.throw .typeError

/-- `[obj for obj in self.objs if obj.collides(vector)]` (`blueprint.py:54-55`). -/
def filterCollides (env : Env) (heap : Ref → Entity) (p : Operand) : List Ref → Except Exc (List Ref)
  | [] => .ok []
  | r :: rs => do
      let c ← (heap r).collides env p
      let rest ← filterCollides env heap p rs
      return if c then r :: rest else rest

/-- `BlueprintLayer.__getitem__` of the entity layer (`blueprint.py:50-55`). -/
def layerGet (b : BpId) (p : Operand) : M (List Ref) := fun w =>
  match p with
  | .tup [x, y] => (filterCollides w.env w.heap (.vec ⟨x, y⟩) (w.bp b).objs, w)
  | .tup _ => (.error .valueError, w)
  | p => (filterCollides w.env w.heap p (w.bp b).objs, w)

/-- `BlueprintLayer.__delitem__` with a position (`blueprint.py:61-65`). -/
def layerDelAt (b : BpId) (p : Operand) : M Unit := do
  let rs ← layerGet b p
  M.forEach (layerDrop b) rs

/-- Object creation. -/
def alloc (e : Entity) : M Ref := fun w =>
  (.ok w.next, { w.setEnt w.next e with next := w.next + 1 })

/-- `Entity(blueprint_layer=…, **kw)`. -/
def newEntity (layer : Option BpId) (kw : Dict) : M Ref := fun w =>
  match Entity.new w.env (w.customOf layer) layer kw with
  | .error e => (.error e, w)
  | .ok e => alloc e w

/-- `BlueprintLayer.make(**kw)` (`blueprint.py:87-90`). -/
def layerMake (b : BpId) (kw : Dict) : M Ref := do
  let r ← newEntity (some b) kw
  layerAdd b (.ent r)
  return r

/-- `BlueprintLayer._load(**kw)` (`blueprint.py:96-98`), for the JSON value after `**`. -/
def layerLoad (b : BpId) (v : Val) : M Unit := do
  let kw ← M.lift v.kwargs
  let r ← newEntity (some b) kw
  M.modify (fun w => w.setBp b { w.bp b with objs := (w.bp b).objs ++ [r] })

/-- `Entity.rotate` on an object. -/
def entRotate (amount : Int) (around : Operand) (dir : DirArg) (r : Ref) : M Unit := fun w =>
  let p := (w.heap r).rotate amount around dir
  (p.1, w.setEnt r p.2)

/-- `BlueprintLayer.rotate` of the entity layer (`blueprint.py:104-107`); arguments that are not passed
take the defaults of `Entity.rotate` (`entity.py:237-238`). -/
def layerRotate (b : BpId) (amount : Int) (around : Option Operand) (dir : Option DirArg) : M Unit := do
  let w ← M.get
  M.forEach
    (entRotate amount (around.getD (.vec ⟨.int 0, .int 0⟩)) (dir.getD (.int Direction.CLOCKWISE)))
    (w.bp b).objs
  M.modify (·.sort b)

/-- Python `==` between a stored `entity_number` and a JSON value. -/
def idEq (n : Option Int) (v : Val) : Bool :=
  match n, v with
  | none, .none => true
  | some z, v => match v.num? with
    | some m => m.eq (.int z)
    | none => false
  | none, _ => false

/-- `BlueprintLayer.get_by_id` (`blueprint.py:118-124`; `Entity.ID` is `'entity_number'`,
`entity.py:104`) and `Blueprint.get_entity_by_id` (`blueprint.py:302-305`): the same loop. -/
def getById (w : World) (b : BpId) (v : Val) : Option Ref :=
  (w.bp b).objs.find? (fun r => idEq (w.heap r).number v)

/-! ## Wires -/

/-- The key by which `get_connections` sorts (`entity.py:156-159`), without the first component, which
is the same for all (every wire has been oriented to start at the entity): the number of the other end. -/
def otherAuto (heap : Ref → Entity) (c : Conn) : Except Exc (Option Int) :=
  match c.toE with
  | none => .error .attributeError
  | some r => .ok (heap r).auto

/-- `a <= b` between two such keys of the same type. -/
def autoLe (a b : Option Int) : Bool :=
  match a, b with
  | some x, some y => decide (x ≤ y)
  | _, _ => true

/-- Comparing `None` with an `int` raises `TypeError`; a sort of a list with both kinds compares two
elements of different kinds at some point. -/
def mixedKeys (ks : List (Option Int)) : Bool := ks.any (·.isNone) && ks.any (·.isSome)

/-- `Entity.get_connections` (`entity.py:152-159`).  `orientate` mutates the wire objects of the
blueprint. -/
def getConnections (r : Ref) : M (List Conn) := fun w =>
  match (w.heap r).layer with
  | none => (.error .attributeError, w)
  | some b =>
    let conns := (w.bp b).conns.map (fun c => if c.attachedTo r then c.orientate r else c)
    let mine := ((w.bp b).conns.filter (·.attachedTo r)).map (·.orientate r)
    let w := w.setBp b { w.bp b with conns := conns }
    match mine.mapM (fun c => do return ((← otherAuto w.heap c), c)) with
    | .error e => (.error e, w)
    | .ok keyed =>
      if mixedKeys (keyed.map (·.1)) then (.error .typeError, w)
      else (.ok ((sortBy (fun x y => autoLe x.1 y.1) keyed).map (·.2)), w)

/-- `conn not in connections` … `append` (`blueprint.py:392-393`, `entity.py:168-169`). -/
def addConn (conns : List Conn) (c : Conn) : List Conn :=
  if conns.any (fun d => d.eqv c) then conns else conns ++ [c]

/-- `Entity.connect` (`entity.py:161-170`). -/
def connect (r : Ref) (to : Option Ref) (fromSide toSide : Val := .str "in")
    (color : String := "red") : M Conn := fun w =>
  match Conn.new (some r) to fromSide toSide color with
  | .error e => (.error e, w)
  | .ok c =>
    match (w.heap r).layer with
    | none => (.error .attributeError, w)
    | some b => (.ok c, w.setBp b { w.bp b with conns := addConn (w.bp b).conns c })

/-- The nested dict built by `connections_to_json`: side ↦ colour ↦ list of references. -/
abbrev WireObj := List (Int × List (String × List Val))

/-- `if color not in m: m[color] = []`, then `m[color] += l`. -/
def colorAppend (m : List (String × List Val)) (color : String) (l : List Val) :
    List (String × List Val) :=
  match m with
  | [] => [(color, l)]
  | (c, x) :: m => if c = color then (c, x ++ l) :: m else (c, x) :: colorAppend m color l

/-- `if side not in obj: obj[side] = {}`, then as above in `obj[side]`. -/
def wireAppend (o : WireObj) (side : Int) (color : String) (l : List Val) : WireObj :=
  match o with
  | [] => [(side, colorAppend [] color l)]
  | (s, m) :: o =>
      if s = side then (s, colorAppend m color l) :: o else (s, m) :: wireAppend o side color l

/-- A value of `_auto_entity_number` in the export. -/
def autoVal : Option Int → Val
  | none => .none
  | some z => .int z

/-- One exported reference (`entity.py:185-189, 192-196`): `circuit_id` is written if the entity named
has two connectors, and its value is `from_side`. -/
def wireRef (e : Entity) (fromSide : Int) : Val :=
  .dict (("entity_id", autoVal e.auto) ::
    (if e.klass.nrConnections = 2 then [("circuit_id", .int fromSide)] else []))

/-- The loop body of `connections_to_json` (`entity.py:176-197`) for the entity `r`; `c` has been
oriented, `to` is its far end. -/
def wireStep (heap : Ref → Entity) (r : Ref) (o : WireObj) (c : Conn) : Except Exc WireObj :=
  match c.toE with
  | none => .error .attributeError
  | some to =>
    let o := wireAppend o c.fromSide c.color []
    let o := if to = r then wireAppend o c.toSide c.color [wireRef (heap r) c.fromSide] else o
    .ok (wireAppend o c.fromSide c.color [wireRef (heap to) c.fromSide])

/-- The dict as JSON: integer keys become decimal strings. -/
def wireJson (o : WireObj) : Val :=
  .dict (o.map (fun p => (p.1.repr, .dict (p.2.map (fun q => (q.1, .list q.2))))))

/-- `Entity.connections_to_json` (`entity.py:172-198`). -/
def connectionsToJson (r : Ref) : M WireObj := do
  let conns ← getConnections r
  let w ← M.get
  M.lift (conns.foldlM (wireStep w.heap r) [])

/-- `Entity.to_json` (`entity.py:255-264`) -/
def entToJson (r : Ref) : M Val := do
  let w ← M.get
  let e := w.heap r
  let obj : Dict := [("entity_number", autoVal e.auto), ("name", .str e.name), ("position", e.pos.toJson)]
  let c ← connectionsToJson r
  let obj := if c.isEmpty then obj else obj ++ [("connections", wireJson c)]
  return .dict (← M.lift (e.emitRest w.env obj))

end Verif
