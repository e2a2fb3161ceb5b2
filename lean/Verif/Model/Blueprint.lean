import Verif.Model.World
import Verif.Model.Assign
/-!
# `Blueprint` — `/repo/py_factorio_blueprints/blueprint.py:15-33, 137-396`
-/
set_option autoImplicit false

namespace Verif

/-! ## Prototype data -/

/-- `{**old, **new}` -/
def mergeTables (old new : Dict) : Dict := setAll old new

/-- The five tables of prototype data. -/
inductive Table where
  | entity | recipe | item | signal | tile
deriving DecidableEq, Repr

/-- `data` of the class attribute. -/
def Env.table (env : Env) : Table → Dict
  | .entity => env.entities
  | .recipe => env.recipes
  | .item => env.items
  | .signal => env.signals
  | .tile => env.tiles

def Env.setTable (env : Env) : Table → Dict → Env
  | .entity, d => { env with entities := d }
  | .recipe, d => { env with recipes := d }
  | .item, d => { env with items := d }
  | .signal, d => { env with signals := d }
  | .tile, d => { env with tiles := d }

/-- `Blueprint.set_entity_prototype_data` … `set_tile_prototype_data` (`blueprint.py:144-172`), the five
methods are the same up to the attribute.  Called on the class `Blueprint` itself (`Model/Subclass` has derived classes),
and with a dict. -/
def setProtos (t : Table) (data : Dict) (append : Bool) : M Unit :=
  M.modify (fun w =>
    { w with env := w.env.setTable t (if append then mergeTables (w.env.table t) data else data) })

/-- `data[key]`, then the corresponding setter (`blueprint.py:178-182`).  A value that is not a dict is a `TypeError` in
`{**cls.entity_prototypes, **data}` with `append`; without, it would be stored as it is, which is outside the model. -/
def importTable (data : Val) (append : Bool) (key : String) (t : Table) : M Unit := do
  match ← M.lift (data.subscript key) with
  | .dict d => setProtos t d append
  | _ => M.throw (if append then .typeError else .unmodelled)

/-- `Blueprint.import_prototype_data` (`blueprint.py:174-182`) after the file was read as JSON. -/
def importProtos (data : Val) (append : Bool) : M Unit := do
  importTable data append "entity" .entity
  importTable data append "recipe" .recipe
  importTable data append "item" .item
  importTable data append "signal" .signal
  importTable data append "tile" .tile

/-! ## Loading -/

/-- Attribute assignment on blueprint `b`. -/
def modBp (b : BpId) (f : Bp → Bp) : M Unit := M.modify (fun w => w.setBp b (f (w.bp b)))

/-- `p in s` on characters. -/
def occursIn (p : List Char) : List Char → Bool
  | [] => p.isEmpty
  | c :: s => p.isPrefixOf (c :: s) || occursIn p s

/-- `if 'blueprint' in data: data = data['blueprint']` followed by `data.get` (`blueprint.py:225-229`).
For a list or a string `in` looks for an element / substring. -/
def unwrapData (data : Val) : Except Exc Dict :=
  match data with
  | .dict d =>
    match Dict.get? d "blueprint" with
    | some v => v.asDict
    | none => .ok d
  | .list l => if l.contains (.str "blueprint") then .error .typeError else .error .attributeError
  | .str s => if occursIn "blueprint".toList s.toList then .error .typeError else .error .attributeError
  | _ => .error .typeError

/-- `l[i] = x` with Python's index rule: `-len ≤ i < len`. -/
def setPy {α} (l : List α) (i : Int) (x : α) : Except Exc (List α) :=
  if 0 ≤ i ∧ i < l.length then .ok (l.set i.toNat x)
  else if -(l.length : Int) ≤ i ∧ i < 0 then .ok (l.set (i + l.length).toNat x)
  else .error .indexError

/-- `icon['index'] - 1` used as a list index. -/
def iconIndex (v : Val) : Except Exc Int :=
  match v with
  | .num (.int z) => .ok (z - 1)
  | .bool b => .ok (if b then 0 else -1)
  | _ => .error .typeError

/-- The body of the loop over `icons` (`blueprint.py:241-245`). -/
def loadIcon (b : BpId) (icon : Val) : M Unit := do
  let w ← M.get
  let s ← M.lift (icon.subscript "signal")
  let s ← M.lift (signalSet w.env s)
  let i ← M.lift (icon.subscript "index")
  let i ← M.lift (iconIndex i)
  let icons ← M.lift (setPy (w.bp b).icons i (some s))
  modBp b (fun p => { p with icons := icons })

/-- One reference in the connection data (`blueprint.py:384-393`). -/
def loadRef (b : BpId) (r : Ref) (side color : String) (c : Val) : M Unit := do
  let w ← M.get
  let id ← M.lift (c.subscript "entity_id")
  let d ← M.lift c.asDict
  let conn ← M.lift (Conn.new (some r) (getById w b id) (.str side)
    (Dict.getD d "circuit_id" (.str "1")) color)
  modBp b (fun p => { p with conns := addConn p.conns conn })

/-- The wires of one entity (`blueprint.py:379-393`). -/
def loadWires (b : BpId) (r : Ref) : M Unit := do
  let w ← M.get
  match (w.heap r).raw with
  | .none => return ()
  | raw =>
    let sides ← M.lift raw.asDict
    M.forEach (fun (side, cp) => do
      let colors ← M.lift (Val.asDict cp)
      M.forEach (fun (color, cs) => do
        let cs ← M.lift (Val.iter cs)
        M.forEach (loadRef b r side color) cs) colors) sides

/-- `Blueprint.parse_connections` (`blueprint.py:376-396`) -/
def parseConnections (b : BpId) : M Unit := do
  modBp b (fun p => { p with conns := [] })
  let w ← M.get
  M.forEach (loadWires b) (w.bp b).objs
  M.forEach (fun r => do let _ ← getConnections r; return ()) (w.bp b).objs

/-- `self.tiles._load(**tile)` (`blueprint.py:255`, `96-98`): the `Tile` constructor gets the keyword
`blueprint_layer`. -/
def tileLoad (b : BpId) (v : Val) : M Unit := do
  let kw ← M.lift v.kwargs
  if Dict.mem kw "self" || Dict.mem kw "blueprint_layer" then M.throw .typeError
  else do
    let w ← M.get
    let t ← M.lift (Tile.new (Dict.keys w.env.tiles) (kw ++ [("blueprint_layer", .none)]))
    modBp b (fun p => { p with tiles := p.tiles ++ [t] })

/-- `tiles.add(obj)` (`blueprint.py:67-78`): a `Tile` has no attribute `_blueprint_layer`
(`util.py:589-623`), so line 71 raises. -/
def tilesAdd (_b : BpId) (o : Obj) : M Unit :=
  match o with
  | .tile _ => M.throw .attributeError
  | _ => M.throw .typeError

/-- `tiles.make(**kw)` (`blueprint.py:87-90`). -/
def tilesMake (b : BpId) (kw : Dict) : M Tile := do
  if Dict.mem kw "self" || Dict.mem kw "blueprint_layer" then M.throw .typeError
  else do
    let w ← M.get
    let t ← M.lift (Tile.new (Dict.keys w.env.tiles) (kw ++ [("blueprint_layer", .none)]))
    tilesAdd b (.tile t)
    return t

/-- `tiles.remove(obj)` (`blueprint.py:80-85`).  Simplification: tiles are compared by value, not by
identity. -/
def tilesRemove (b : BpId) (o : Obj) : M Unit := fun w =>
  match o with
  | .tile t =>
    if t ∈ (w.bp b).tiles then
      (.ok (), w.setBp b { w.bp b with tiles := (w.bp b).tiles.erase t })
    else (.error .valueError, w)
  | _ => (.error .typeError, w)

/-- `[obj for obj in self.objs if obj.collides(vector)]` on tiles (`blueprint.py:54-55`). -/
def filterTiles (p : Vec) : List Tile → Except Exc (List Tile)
  | [] => .ok []
  | t :: ts => do
      let c ← t.collides p
      let rest ← filterTiles p ts
      return if c then t :: rest else rest

/-- `tiles[p]` (`blueprint.py:50-55`) for a vector `p`. -/
def tilesGet (b : BpId) (p : Vec) : M (List Tile) := fun w => (filterTiles p (w.bp b).tiles, w)

/-- `tiles.sort()`; tiles have no exported number. -/
def tilesSort (b : BpId) : M Unit :=
  modBp b (fun p => { p with tiles := sortBy (fun s t => posLe s.pos t.pos) p.tiles })

/-- `Schedule(self, **schedule)` (`blueprint.py:16-25`): exactly the two keywords. -/
def scheduleNew (w : World) (b : BpId) (v : Val) : Except Exc (List Ref × Val) := do
  let kw ← v.kwargs
  if kw.any (fun p => p.1 != "schedule" && p.1 != "locomotives") then throw .typeError
  else match Dict.get? kw "schedule", Dict.get? kw "locomotives" with
  | some s, some l => do
    let ids ← l.iter
    return ((ids.filterMap (getById w b)), s)
  | _, _ => throw .typeError

/-- `label_color = data.get('label_color', None); if label_color is not None: …`
(`blueprint.py:231-233`) -/
def loadColor (b : BpId) (v : Val) : M Unit :=
  match v with
  | .none => pure ()
  | c => do
    let c ← M.lift (Color.ofVal c)
    modBp b (fun p => { p with labelColor := some c })

/-- `Blueprint.load(data)` (`blueprint.py:224-261`). -/
def load (b : BpId) (data : Val) : M Unit := do
  let d ← M.lift (unwrapData data)
  modBp b (fun p => { p with
    item := Dict.getD d "item" (.str "blueprint"), label := Dict.getD d "label" .none })
  loadColor b (Dict.getD d "label_color" .none)
  modBp b (fun p => { p with
    version := Dict.getD d "version" (.int 0), icons := [none, none, none, none] })
  let icons ← M.lift (Dict.getD d "icons" (.list [])).iter
  M.forEach (loadIcon b) icons
  let ents ← M.lift (Dict.getD d "entities" (.list [])).iter
  M.forEach (layerLoad b) ents
  M.modify (·.sort b)
  parseConnections b
  let tiles ← M.lift (Dict.getD d "tiles" (.list [])).iter
  M.forEach (tileLoad b) tiles
  tilesSort b
  let scheds ← M.lift (Dict.getD d "schedules" (.list [])).iter
  let w ← M.get
  let scheds ← M.lift (scheds.mapM (scheduleNew w b))
  modBp b (fun p => { p with schedules := scheds })

/-- `set_label(label, color)` (`blueprint.py:263-268`); the colour is a `Color`, a JSON value or `None`. -/
def setLabel (b : BpId) (label : Val) (color : Color ⊕ Val) : M Unit := do
  modBp b (fun p => { p with label := label })
  match color with
  | .inl c => modBp b (fun p => { p with labelColor := some c })
  | .inr .none => pure ()
  | .inr v => do
    let c ← M.lift (Color.ofVal v)
    modBp b (fun p => { p with labelColor := some c })

/-! ## Rotation -/

/-- `Tile.rotate` (`util.py:610-623`) with the centre given as any operand. -/
def tileRotate (amount : Int) (around : Option Operand) (dir : Option DirArg) (t : Tile) :
    Except Exc Tile := do
  let around := around.getD (.vec ⟨.int 0, .int 0⟩)
  let p ← t.pos.sub around
  let p ← (Vec.quarters (Tile.turns amount (dir.getD (.str "clockwise"))) p).add around
  return { t with pos := p }

/-- `for obj in self.objs: obj.rotate(…)` on the tile layer. -/
def tilesRotateAux (amount : Int) (around : Option Operand) (dir : Option DirArg) :
    List Tile → Except Exc Unit × List Tile
  | [] => (.ok (), [])
  | t :: ts =>
    match tileRotate amount around dir t with
    | .error e => (.error e, t :: ts)
    | .ok t =>
      let r := tilesRotateAux amount around dir ts
      (r.1, t :: r.2)

/-- `self.tiles.rotate(amount, **kwargs)` without the final sort (`blueprint.py:104-106, 272`). -/
def tilesRotate (b : BpId) (amount : Int) (around : Option Operand) (dir : Option DirArg) : M Unit :=
  fun w =>
    let r := tilesRotateAux amount around dir (w.bp b).tiles
    (r.1, w.setBp b { w.bp b with tiles := r.2 })

/-- `Blueprint.rotate(amount, **kwargs)` (`blueprint.py:270-272`); `around` and `direction` are passed
to both layers if given.  Simplification: no other keyword is passed. -/
def bpRotate (b : BpId) (amount : Int) (around : Option Operand := none) (dir : Option DirArg := none) :
    M Unit := do
  layerRotate b amount around dir
  tilesRotate b amount around dir
  tilesSort b

/-! ## Export -/

/-- `{'index': i + 1, 'signal': icon.name.to_json()}` for the icons that are not `None`
(`blueprint.py:282-285`). -/
def iconsJson (env : Env) : Nat → List (Option Val) → Except Exc (List Val)
  | _, [] => .ok []
  | i, none :: is => iconsJson env (i + 1) is
  | i, some s :: is => do
      let j ← signalToJson env (signalGet s)
      let rest ← iconsJson env (i + 1) is
      return Val.dict [("index", .int ((i : Int) + 1)), ("signal", j)] :: rest

/-- `Schedule.to_json` (`blueprint.py:27-33`) -/
def scheduleJson (heap : Ref → Entity) (s : List Ref × Val) : Val :=
  .dict [("locomotives", .list (s.1.map (fun r => autoVal (heap r).auto))), ("schedule", s.2)]

/-- `[… for … in …]`, `None` if empty (`blueprint.py:109-116`). -/
def layerJson (key : String) (l : List Val) : Dict := if l.isEmpty then [] else [(key, .list l)]

/-- `Blueprint.to_json` (`blueprint.py:274-293`) -/
def toJson (b : BpId) : M Val := do
  let w ← M.get
  let p := w.bp b
  let head : Dict := ("item", p.item) :: objSet "label" p.label ++
    (match p.labelColor with | some c => [("label_color", c.toJson)] | none => [])
  let ents ← M.mapL entToJson p.objs
  let icons ← M.lift (iconsJson w.env 0 p.icons)
  let scheds := p.schedules.map (scheduleJson w.heap)
  return .dict [("blueprint", .dict (head ++ layerJson "entities" ents ++
    layerJson "tiles" (p.tiles.map Tile.toJson) ++
    [("icons", .list icons), ("version", p.version)] ++ layerJson "schedules" scheds))]

/-! ## Extent -/

/-- One step of the loop in `maximum_values` (`blueprint.py:311-322`) for one bound: `none` is the
initial infinity; `better new old` is the comparison. -/
def boundStep (better : Num → Num → Bool) (acc : Option Int) (v : Num) : Option Int :=
  match acc with
  | none => some v.trunc
  | some m => if better v (.int m) then some v.trunc else some m

/-- `(maxx, minx, maxy, miny)`; `none` for the infinities of an empty blueprint. -/
structure Extent where
  maxx : Option Int := none
  minx : Option Int := none
  maxy : Option Int := none
  miny : Option Int := none
deriving DecidableEq, Repr

/-- `Blueprint.maximum_values` (`blueprint.py:307-323`) over the entities `es`. -/
def extentAux (env : Env) : List Entity → Extent → Except Exc Extent
  | [], x => .ok x
  | e :: es, x => do
      let tl ← e.topLeft env
      let br ← e.bottomRight env
      extentAux env es
        { maxx := boundStep (fun v m => m.lt v) x.maxx br.x,
          minx := boundStep (fun v m => v.lt m) x.minx tl.x,
          maxy := boundStep (fun v m => m.lt v) x.maxy br.y,
          miny := boundStep (fun v m => v.lt m) x.miny tl.y }

def maximumValues (w : World) (b : BpId) : Except Exc Extent :=
  extentAux w.env ((w.bp b).objs.map w.heap) {}

/-- `Blueprint.center` (`blueprint.py:325-328`); `none`: both coordinates are NaN (`inf + -inf`). -/
def center (w : World) (b : BpId) : Except Exc (Option Vec) := do
  match ← maximumValues w b with
  | ⟨some a, some i, some c, some j⟩ =>
      return some ⟨.flt ((a + i : Int) / 2), .flt ((c + j : Int) / 2)⟩
  | _ => return none

/-- `Blueprint.top_left` … (`blueprint.py:338-356`); `none` for infinite coordinates. -/
def corner (w : World) (b : BpId) (x y : Extent → Option Int) : Except Exc (Option Vec) := do
  let e ← maximumValues w b
  match x e, y e with
  | some x, some y => return some ⟨.int x, .int y⟩
  | _, _ => return none

/-- `len(self.entities)` (`blueprint.py:335`): a `BlueprintLayer` has no `__len__` (`blueprint.py:36-134`). -/
def layerLen (_p : Bp) : Except Exc Num := .error .typeError

/-- `Blueprint.weighted_center` (`blueprint.py:330-336`). -/
def weightedCenter (w : World) (b : BpId) : Except Exc Vec := do
  let sum : Vec := (w.bp b).objs.foldl (fun (c : Vec) r => c.addV (w.heap r).pos) ⟨.int 0, .int 0⟩
  let n ← layerLen (w.bp b)
  sum.truediv (.num n)

/-- `entity.position -= center` -/
def shiftEnt (c : Operand) (r : Ref) : M Unit := fun w =>
  match (w.heap r).pos.sub c with
  | .error e => (.error e, w)
  | .ok p => (.ok (), w.setEnt r { w.heap r with pos := p })

/-- `center == Vector(0, 0)` (`blueprint.py:370`). -/
def isOrigin (c : Operand) : Except Exc Bool := Vec.eqOp ⟨.int 0, .int 0⟩ c

/-- The point `recenter` moves to the origin (`blueprint.py:366-369`). -/
def recenterPoint (w : World) (b : BpId) (around : Option Operand) : Except Exc Operand :=
  match around with
  | some c => .ok c
  | none => do
    match ← center w b with
    | some c => .ok (.vec c.ceil)
    | none => .error .valueError

/-- `Blueprint.recenter(around)` (`blueprint.py:365-374`); there is no method `replace_entities`. -/
def recenter (b : BpId) (around : Option Operand := none) : M Unit := do
  let w ← M.get
  let c ← M.lift (recenterPoint w b around)
  let z ← M.lift (isOrigin c)
  if z then return ()
  else do
    M.forEach (shiftEnt c) (w.bp b).objs
    M.throw .attributeError

/-! ## Attribute assignments by the user, and histories -/

/-- `entity.position = v` with a dict -/
def setPos (r : Ref) (v : Val) : M Unit := fun w =>
  match Vec.ofVal v with
  | .error e => (.error e, w)
  | .ok none => (.error .unmodelled, w)
  | .ok (some p) => (.ok (), w.setEnt r { w.heap r with pos := p })

/-- `entity.direction = v` -/
def setDir (r : Ref) (v : Val) : M Unit := fun w =>
  match Direction.ofVal v with
  | .error e => (.error e, w)
  | .ok d => (.ok (), w.setEnt r { w.heap r with dir := d })

/-- `entity.name = v` -/
def entSetName (r : Ref) (v : Val) : M Unit := fun w =>
  let p := (w.heap r).setName w.env (w.customOf (w.heap r).layer) v
  (p.1, w.setEnt r p.2)

/-- `entity.entity_number = n` (a plain attribute) -/
def setNumber (r : Ref) (n : Option Int) : M Unit := fun w =>
  (.ok (), w.setEnt r { w.heap r with number := n })

/-- `entity.orientation = v` on rolling stock (`Train.orientation.setter`, `entity_mixins.py:380-385`).  On
another entity this would create an attribute nobody reads; outside the model. -/
def setOrientation (r : Ref) (v : Val) : M Unit := fun w =>
  if (w.heap r).klass.has .Train then
    match orientationSet v with
    | .error e => (.error e, w)
    | .ok o => (.ok (), w.setEnt r { w.heap r with attrs := Dict.set (w.heap r).attrs "orientation" o })
  else (.error .unmodelled, w)

/-- `blueprint.icons[i].name = v`: the list is empty before the first import and holds `None` in the free slots; the
name is a `SignalName` (`blueprint.py:236-245`). -/
def setIcon (b : BpId) (i : Nat) (v : Val) : M Unit := do
  let w ← M.get
  match (w.bp b).icons[i]? with
  | none => M.throw .indexError
  | some none => M.throw .attributeError
  | some (some _) => do
    let s ← M.lift (signalSet w.env v)
    modBp b (fun p => { p with icons := p.icons.set i (some s) })

/-- `blueprint.icons[i] = None` -/
def dropIcon (b : BpId) (i : Nat) : M Unit := do
  let w ← M.get
  if i < (w.bp b).icons.length then modBp b (fun p => { p with icons := p.icons.set i none })
  else M.throw .indexError

/-- `blueprint.schedules.append(Schedule(blueprint, **v))` (`blueprint.py:15-25`) -/
def addSchedule (b : BpId) (v : Val) : M Unit := do
  let w ← M.get
  let s ← M.lift (scheduleNew w b v)
  modBp b (fun p => { p with schedules := p.schedules ++ [s] })

/-- A call on one entity object. -/
def onEnt (r : Ref) (f : Env → Entity → Except Exc Unit × Entity) : M Unit := fun w =>
  ((f w.env (w.heap r)).1, w.setEnt r (f w.env (w.heap r)).2)

/-- `conn.flip()` / `conn.flip_color()` on the `i`-th recorded wire of a blueprint. -/
def modConn (b : BpId) (i : Nat) (f : Conn → Conn) : M Unit :=
  modBp b (fun p => { p with conns := p.conns.modify i f })

/-- One call of the API by the user. -/
inductive Op where
  | newEntity (layer : Option BpId) (kw : Dict)
  | make (b : BpId) (kw : Dict)
  | add (b : BpId) (o : Obj)
  | remove (b : BpId) (o : Obj)
  | delObj (b : BpId) (r : Ref)
  | delAt (b : BpId) (p : Operand)
  | get (b : BpId) (p : Operand)
  | rotate (b : BpId) (amount : Int) (around : Option Operand) (dir : Option DirArg)
  | entRotate (r : Ref) (amount : Int) (around : Operand) (dir : DirArg)
  | connect (r : Ref) (to : Option Ref) (fromSide toSide : Val) (color : String)
  | flip (b : BpId) (i : Nat)
  | flipColor (b : BpId) (i : Nat)
  | getConnections (r : Ref)
  | entToJson (r : Ref)
  | toJson (b : BpId)
  | load (b : BpId) (data : Val)
  | recenter (b : BpId) (around : Option Operand)
  | setPos (r : Ref) (v : Val)
  | setDir (r : Ref) (v : Val)
  | setName (r : Ref) (v : Val)
  | addMixins (r : Ref) (ms : List Mx)
  | setMixins (r : Ref) (ms : List Mx)
  | setNumber (r : Ref) (n : Option Int)
  | setOrientation (r : Ref) (v : Val)
  | setAttr (r : Ref) (k : String) (v : Val)
  | setControl (r : Ref) (k : String) (v : Val)
  | newControl (r : Ref) (v : Val)
  | setLabel (b : BpId) (label : Val) (color : Color ⊕ Val)
  | setProtos (t : Table) (data : Dict) (append : Bool)
  | importProtos (data : Val) (append : Bool)
  | setCustom (b : BpId) (c : Custom)
  | tilesMake (b : BpId) (kw : Dict)
  | tilesAdd (b : BpId) (o : Obj)
  | tilesRemove (b : BpId) (o : Obj)
  | tilesGet (b : BpId) (p : Vec)
  | sort (b : BpId)
  | parse (b : BpId)
  | rotateLayer (b : BpId) (amount : Int) (around : Option Operand) (dir : Option DirArg)
  | setItem (b : BpId) (v : Val)
  | setVersion (b : BpId) (v : Val)
  | setStrict (b : BpId) (s : Bool)
  | setIcon (b : BpId) (i : Nat) (v : Val)
  | dropIcon (b : BpId) (i : Nat)
  | addSchedule (b : BpId) (v : Val)

/-- The effect of one call; the result value is dropped. -/
def Op.run : Op → M Unit
  | .newEntity l kw => do let _ ← Verif.newEntity l kw; return ()
  | .make b kw => do let _ ← layerMake b kw; return ()
  | .add b o => layerAdd b o
  | .remove b o => layerRemove b o
  | .delObj b r => layerDrop b r
  | .delAt b p => layerDelAt b p
  | .get b p => do let _ ← layerGet b p; return ()
  | .rotate b n a d => bpRotate b n a d
  | .entRotate r n a d => Verif.entRotate n a d r
  | .connect r t f s c => do let _ ← Verif.connect r t f s c; return ()
  | .flip b i => modConn b i Conn.flip
  | .flipColor b i => modConn b i Conn.flipColor
  | .getConnections r => do let _ ← Verif.getConnections r; return ()
  | .entToJson r => do let _ ← Verif.entToJson r; return ()
  | .toJson b => do let _ ← Verif.toJson b; return ()
  | .load b d => Verif.load b d
  | .recenter b a => Verif.recenter b a
  | .setPos r v => Verif.setPos r v
  | .setDir r v => Verif.setDir r v
  | .setName r v => entSetName r v
  | .addMixins r ms => onEnt r (fun _ e => e.addMixins ms)
  | .setMixins r ms => onEnt r (fun _ e => e.setMixins ms)
  | .setNumber r n => Verif.setNumber r n
  | .setOrientation r v => Verif.setOrientation r v
  | .setAttr r k v => onEnt r (fun env e => e.setAttr env k v)
  | .setControl r k v => onEnt r (fun env e => e.setControl env k v)
  | .newControl r v => onEnt r (fun env e => e.newControl env v)
  | .setLabel b l c => Verif.setLabel b l c
  | .setProtos t d a => Verif.setProtos t d a
  | .importProtos d a => Verif.importProtos d a
  | .setCustom b c => modBp b (fun p => { p with custom := c })
  | .tilesMake b kw => do let _ ← Verif.tilesMake b kw; return ()
  | .tilesAdd b o => Verif.tilesAdd b o
  | .tilesRemove b o => Verif.tilesRemove b o
  | .tilesGet b p => do let _ ← Verif.tilesGet b p; return ()
  | .sort b => M.modify (·.sort b)                                   -- `blueprint.entities.sort()`
  | .parse b => parseConnections b
  | .rotateLayer b n a d => layerRotate b n a d                       -- `blueprint.entities.rotate(n, …)`
  | .setItem b v => modBp b (fun p => { p with item := v })
  | .setVersion b v => modBp b (fun p => { p with version := v })
  | .setStrict b s => modBp b (fun p => { p with strict := s })
  | .setIcon b i v => Verif.setIcon b i v
  | .dropIcon b i => Verif.dropIcon b i
  | .addSchedule b v => Verif.addSchedule b v

/-- Does the call only mention entity objects that exist? -/
def Op.refsOk (w : World) : Op → Prop
  | .add _ (.ent r) | .remove _ (.ent r) | .delObj _ r | .entRotate r _ _ _ | .getConnections r
  | .entToJson r | .setPos r _ | .setDir r _ | .setName r _ | .addMixins r _ | .setMixins r _ | .setNumber r _
  | .setOrientation r _ | .setAttr r _ _ | .setControl r _ _ | .newControl r _ => r < w.next
  | .connect r t _ _ _ => r < w.next ∧ ∀ s, t = some s → s < w.next
  | .setLabel _ _ (.inl c) => c.Made
  | _ => True

/-- The worlds a user can reach: any sequence of calls on existing objects, whether they succeed or
raise. -/
inductive Reachable (env : Env) : World → Prop where
  | init : Reachable env (World.init env)
  | step {w : World} (op : Op) : Reachable env w → op.refsOk w → Reachable env (op.run w).2

end Verif
