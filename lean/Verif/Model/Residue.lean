import Verif.Model.Blueprint
/-!
# What `load` leaves in the caller's data

`Blueprint.load` (`blueprint.py:224-261`) works on the caller's own dicts.  `**entity` and
`**kwargs.pop('control_behavior')` copy one level (`blueprint.py:249`, `entity.py:139-141`), so the only
objects of the caller that are changed are the conditions dict of a combinator (`conditions.pop`,
`entity_mixins.py:214-231, 276-278`) and the blueprint's dict itself (`data.pop('schedules', [])`,
`blueprint.py:260`).  Everything else that is popped is popped from a copy.

Simplification: the data are a tree, no dict object occurs in it twice.
-/
set_option autoImplicit false

namespace Verif

/-- What one control behaviour `__init__` leaves in the conditions dict it is given. -/
def condLeft (env : Env) (ctx : CbCtx) (m : Mx) (cond : Dict) : Dict :=
  match m with
  | .Decider => Dict.erase cond "copy_count_from_input"      -- `entity_mixins.py:277-278`
  | .Combinator => (combinatorBody env ctx cond).2           -- `entity_mixins.py:215, 229-231`
  | _ => cond

/-- The caller's `control_behavior` dict `c` after one `__init__` that got the keywords `kw`: the conditions
under `ctx.field` in `kw`, if any, are the caller's own dict. -/
def fieldLeft (env : Env) (ctx : CbCtx) (m : Mx) (kw c : Dict) : Dict :=
  match Dict.get? kw ctx.field with
  | some (.dict cond) => Dict.set c ctx.field (.dict (condLeft env ctx m cond))
  | _ => c

/-- The caller's `control_behavior` dict `c` after the chain of `__init__` calls got the keywords `kw`. -/
def cbLeft (env : Env) (ctx : CbCtx) : List Mx → Dict → Dict → Dict
  | [], _, c => c
  | m :: ms, kw, c =>
    let c := fieldLeft env ctx m kw c
    match cbInit env ctx m kw with
    | .error _ => c
    | .ok (_, kw) => if cbStops m then c else cbLeft env ctx ms kw c

/-- The entity data after `Entity(blueprint_layer=layer, **kw)` (`entity.py:124-143`): the control
behaviour is constructed after name, position and direction were accepted. -/
def entLeft (env : Env) (custom : Option Custom) (layer : Option BpId) (kw : Dict) : Dict :=
  if Dict.mem kw "self" || Dict.mem kw "blueprint_layer" then kw
  else match Dict.get? kw "name", Dict.get? kw "position" with
  | some name, some position =>
    match Entity.numberOf (Dict.getD kw "entity_number" .none) with
    | .error _ => kw
    | .ok number =>
      match Entity.setName env custom
          { strict := (Dict.getD kw "strict" (.bool true)).truthy, layer := layer, number := number,
            auto := number, name := "", pos := ⟨.int 0, .int 0⟩ } name with
      | (.error _, _) => kw
      | (.ok _, e) =>
        match Entity.posOf position, Direction.ofVal (Dict.getD kw "direction" (.int 0)),
            Dict.get? kw "control_behavior" with
        | .ok _, .ok _, some (.dict c) =>
          if Dict.mem c "self" || Dict.mem c "_entity" then kw
          else Dict.set kw "control_behavior" (.dict (cbLeft env e.klass.ctx e.klass.cbChain c c))
        | _, _, _ => kw
  | _, _ => kw

/-- The elements of `entities` after the loop of `blueprint.py:248-249`, which ends at the first entity
that is rejected. -/
def entsLeft (env : Env) (custom : Option Custom) (b : BpId) : List Val → List Val
  | [] => []
  | .dict kw :: vs =>
    .dict (entLeft env custom (some b) kw) ::
      (match Entity.new env custom (some b) kw with
       | .ok _ => entsLeft env custom b vs
       | .error _ => vs)
  | v :: vs => v :: vs

/-- `load` up to the icons (`blueprint.py:229-246`). -/
def loadHead (b : BpId) (d : Dict) : M Unit := do
  modBp b (fun p => { p with
    item := Dict.getD d "item" (.str "blueprint"), label := Dict.getD d "label" .none })
  loadColor b (Dict.getD d "label_color" .none)
  modBp b (fun p => { p with
    version := Dict.getD d "version" (.int 0), icons := [none, none, none, none] })
  let icons ← M.lift (Dict.getD d "icons" (.list [])).iter
  M.forEach (loadIcon b) icons

/-- `load` from the entities to the tiles (`blueprint.py:248-256`). -/
def loadBody (b : BpId) (d : Dict) : M Unit := do
  let ents ← M.lift (Dict.getD d "entities" (.list [])).iter
  M.forEach (layerLoad b) ents
  M.modify (·.sort b)
  parseConnections b
  let tiles ← M.lift (Dict.getD d "tiles" (.list [])).iter
  M.forEach (tileLoad b) tiles
  tilesSort b

/-- The schedules (`blueprint.py:258-261`). -/
def loadTail (b : BpId) (d : Dict) : M Unit := do
  let scheds ← M.lift (Dict.getD d "schedules" (.list [])).iter
  let w ← M.get
  let scheds ← M.lift (scheds.mapM (scheduleNew w b))
  modBp b (fun p => { p with schedules := scheds })

/-- The blueprint's dict after `load`; the schedules are popped before they are read. -/
def dictLeft (b : BpId) (d : Dict) (w : World) : Dict :=
  match loadHead b d w with
  | (.error _, _) => d
  | (.ok _, w) =>
    let d' := match Dict.get? d "entities" with
      | some (.list l) => Dict.set d "entities" (.list (entsLeft w.env (w.customOf (some b)) b l))
      | _ => d
    match loadBody b d w with
    | (.error _, _) => d'
    | (.ok _, _) => Dict.erase d' "schedules"

/-- The caller's data after `load b data` was called in the world `w`. -/
def loadLeft (b : BpId) (data : Val) (w : World) : Val :=
  match data with
  | .dict o =>
    match Dict.get? o "blueprint" with
    | some (.dict d) => .dict (Dict.set o "blueprint" (.dict (dictLeft b d w)))
    | some _ => data
    | none => .dict (dictLeft b o w)
  | _ => data

end Verif
