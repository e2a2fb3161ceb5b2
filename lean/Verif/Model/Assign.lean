import Verif.Model.Entity
/-!
# Assigning settings after construction

`entity.recipe = "gear"`, `entity.control_behavior.first = "iron"`: the property setters and descriptors of
`entity_mixins.py`.  A setter may have stored something before it raises, so a setter is modelled by the writes it
performs, in order, together with its outcome.

Values are JSON values.  Lists of filter, item or parameter objects (`items`, the `filters` of filter inserters and
constant combinators, `circuit_parameters`) are assigned as the constructors do, from objects made of JSON values:
`entity.filters = [entity.Filter(**f) for f in v]`.  Creating an attribute that the class of the object does not use is
outside the model.
-/
set_option autoImplicit false

namespace Verif

/-- The outcome of a setter and the attributes it has written. -/
abbrev Setter := Except Exc Unit × Attrs

/-- A setter that computes a value and stores it. -/
def setOne (k : String) (x : Except Exc Val) : Setter :=
  match x with
  | .error e => (.error e, [])
  | .ok v => (.ok (), [(k, v)])

/-- One entry of `Cargo.inventory` (`entity_mixins.py:432-433`): index and stored data. -/
def cargoStep (env : Env) (f : Val) : Except Exc (Val × Dict) := do
  let n ← nameStr env (← f.subscript "name")
  let i ← f.subscript "index"
  if !i.hashable then throw .typeError else return (i, [("name", n)])

/-- One entry of `InfinityContainer.infinity_settings_filters` (`entity_mixins.py:698-705`). -/
def infinityStep (env : Env) (f : Val) : Except Exc (Val × Dict) := do
  let mode ← f.subscript "mode"
  if !(mode == .str "at-least" || mode == .str "at-most" || mode == .str "exactly") then throw .valueError
  else do
    let count ← f.subscript "count"
    let n ← nameStr env (← f.subscript "name")
    let i ← f.subscript "index"
    if !i.hashable then throw .typeError else return (i, [("count", count), ("mode", mode), ("name", n)])

/-- One entry of `Requester.request_filters` (`entity_mixins.py:801-805`). -/
def requestStep (env : Env) (f : Val) : Except Exc (Val × Dict) := do
  let n ← nameStr env (← f.subscript "name")
  let c ← pyInt (← f.subscript "count")
  let i ← f.subscript "index"
  if !i.hashable then throw .typeError else return (i, [("name", n), ("count", .int c)])

/-- `for f in fs: d[f["index"]] = …`: the dict as it is when the loop ends or raises. -/
def fill (step : Val → Except Exc (Val × Dict)) : List Val → List (Val × Dict) →
    Except Exc Unit × List (Val × Dict)
  | [], acc => (.ok (), acc)
  | f :: fs, acc =>
    match step f with
    | .error e => (.error e, acc)
    | .ok p => fill step fs (setIdx acc p.1 p.2)

/-- The loop as a setter of attribute `k`; the attribute is reset to an empty dict before it. -/
def fillSetter (k : String) (step : Val → Except Exc (Val × Dict)) (fs : Except Exc (List Val)) : Setter :=
  match fs with
  | .error e => (.error e, [(k, idxJson [])])
  | .ok fs => ((fill step fs []).1, [(k, idxJson (fill step fs []).2)])

/-- One setter after the other. -/
def Setter.andThen (x : Setter) (y : Setter) : Setter :=
  match x.1 with
  | .error _ => x
  | .ok _ => (y.1, x.2 ++ y.2)

/-- `Cargo.inventory.setter` (`entity_mixins.py:424-433`). -/
def setInventory (env : Env) (v : Val) : Setter :=
  match v with
  | .none => (.ok (), [("inventory_filters", .list []), ("inventory_bar", .none)])
  | v =>
    match v.asDict with
    | .error e => (.error e, [("inventory_filters", .list [])])
    | .ok d =>
      Setter.andThen (.ok (), [("inventory_filters", .list []), ("inventory_bar", Dict.getD d "bar" .none)])
        (fillSetter "inventory_filters" (cargoStep env) (Dict.getD d "filters" (.list [])).iter)

/-- `InfinityContainer.infinity_settings_filters.setter` (`entity_mixins.py:693-705`). -/
def setInfinityFilters (env : Env) (v : Val) : Setter :=
  fillSetter "infinity_settings_filters" (infinityStep env) (iterOrNone v)

/-- `InfinityContainer.infinity_settings.setter` (`entity_mixins.py:675-679`). -/
def setInfinity (env : Env) (v : Val) : Setter :=
  match v.subscript "remove_unfiltered_items" with
  | .error e => (.error e, [])
  | .ok r =>
    Setter.andThen (.ok (), [("infinity_settings_remove_unfiltered_items", .bool r.truthy)])
      (match v.subscript "filters" with
        | .error e => (.error e, [])
        | .ok fs => setInfinityFilters env fs)

/-- `Requester.request_filters.setter` (`entity_mixins.py:796-805`). -/
def setRequestFilters (env : Env) (v : Val) : Setter :=
  fillSetter "request_filters" (requestStep env) (iterOrNone v)

/-- `Underground.type.setter` (`entity_mixins.py:1061-1065`). -/
def readType (v : Val) : Except Exc Val :=
  match v with
  | .str s => if s == "input" || s == "output" then .ok v else .error .valueError
  | _ => .error .valueError

/-- `entity.items = [entity.Item(name=n, count=c) for n, c in v.items()]` (`entity_mixins.py:136-140`). -/
def setItems (env : Env) (v : Val) : Setter :=
  setOne "items" (do return Dict.getD (← readItems env v) "items" .none)

/-- `entity.filters = [entity.Filter(**f) for f in v]`, for no value an empty list (`entity_mixins.py:634-639`). -/
def readInsFilters (env : Env) (filtersShadowed : Bool) (v : Val) : Except Exc Val := do
  let fs ← iterOrNone v
  if filtersShadowed && !fs.isEmpty then throw .unmodelled
  return .list (← fs.mapM (readInsFilter env))

/-- The mixin whose setter, descriptor or plain attribute `k` is. -/
def attrOwner (k : String) : Option Mx :=
  match k with
  | "orientation" => some .Train
  | "inventory" => some .Cargo
  | "inventory_bar" => some .Cargo
  | "color" => some .Color
  | "bar" => some .Container
  | "override_stack_size" => some .Inserter
  | "pickup_position" => some .Inserter
  | "drop_position" => some .Inserter
  | "filter_mode" => some .FilterInserter
  | "infinity_settings" => some .InfinityContainer
  | "infinity_settings_remove_unfiltered_items" => some .InfinityContainer
  | "infinity_settings_filters" => some .InfinityContainer
  | "recipe" => some .Recipe
  | "request_from_buffers" => some .Requester
  | "request_filters" => some .Requester
  | "auto_launch" => some .Silo
  | "parameters" => some .Speaker
  | "alert_parameters" => some .Speaker
  | "input_priority" => some .Splitter
  | "output_priority" => some .Splitter
  | "filter" => some .Splitter
  | "station" => some .Station
  | "type" => some .Underground
  | "variation" => some .Variation
  | "items" => some .Items
  | "filters" => some .FilterInserter
  | _ => none

/-- The setter of attribute `k`. -/
def mxAssign (env : Env) (strict filtersShadowed : Bool) (k : String) (v : Val) : Setter :=
  match k with
  | "orientation" => setOne k (orientationSet v)
  | "inventory" => setInventory env v
  | "inventory_bar" => setOne k (readIntOrNone v)                 -- 405-410
  | "color" => setOne k (readColor v)
  | "bar" => setOne k (readIntOrNone v)
  | "override_stack_size" => setOne k (readIntOrNone v)
  | "pickup_position" => setOne k (readVector v)
  | "drop_position" => setOne k (readVector v)
  | "filter_mode" => setOne k (readChoice ["whitelist", "blacklist"] v)
  | "infinity_settings" => setInfinity env v
  | "infinity_settings_remove_unfiltered_items" => setOne k (.ok (.bool v.truthy))   -- 685-687
  | "infinity_settings_filters" => setInfinityFilters env v
  | "recipe" => setOne k (recipeSet env strict v)
  | "request_from_buffers" => setOne k (.ok v)                    -- 788-790
  | "request_filters" => setRequestFilters env v
  | "auto_launch" => setOne k (readAutoLaunch v)
  | "parameters" => setOne k (readParameters v)
  | "alert_parameters" => setOne k (readAlert env v)
  | "input_priority" => setOne k (readChoice ["right", "left"] v)
  | "output_priority" => setOne k (readChoice ["right", "left"] v)
  | "filter" => setOne k (nameStr env v)
  | "station" => setOne k (.ok v)
  | "type" => setOne k (readType v)
  | "variation" => setOne k (readVariation v)
  | "items" => setItems env v
  | "filters" => setOne k (readInsFilters env filtersShadowed v)
  | _ => (.error .unmodelled, [])

/-- `entity.<k> = v`.  On an entity whose class does not use the attribute this is outside the model. -/
def Entity.setAttr (env : Env) (e : Entity) (k : String) (v : Val) : Except Exc Unit × Entity :=
  match attrOwner k with
  | none => (.error .unmodelled, e)
  | some m =>
    if e.klass.has m then
      let s := mxAssign env e.strict e.klass.insFiltersShadowed k v
      (s.1, { e with attrs := setAll e.attrs s.2 })
    else (.error .unmodelled, e)

/-- The attributes of control behaviours that are `SignalName` descriptors (`entity_mixins.py:116, 207-209,
311-313, 336, 488-490, 554, 824-827, 1021`). -/
def signalAttrs : List String :=
  ["output_signal", "first", "second", "output", "red_output_signal", "orange_output_signal", "green_output_signal",
   "blue_output_signal", "stack_control_input_signal", "available_logistic_output_signal",
   "total_logistic_output_signal", "available_construction_output_signal", "total_construction_output_signal",
   "train_stopped_signal"]

/-- `control_behavior.filters = [entity.Filter(**f) for f in v]` (`entity_mixins.py:173-178`). -/
def readFilters (env : Env) (ctx : CbCtx) (v : Val) : Except Exc Val := do
  let fs ← v.iter
  if ctx.filtersShadowed && !fs.isEmpty then throw .unmodelled
  return .list (← fs.mapM (readFilter env))

/-- The value stored by the descriptor of attribute `k`, or the plain attribute, of a control behaviour. -/
def cbAssign (env : Env) (ctx : CbCtx) (k : String) (v : Val) : Except Exc Val :=
  if signalAttrs.contains k then signalSet env v
  else if k == "comparator" then operatorSet deciderOps v
  else if k == "operator" then
    match ctx.options with
    | some os => operatorSet os v
    | none => .ok v
  else if k == "filters" then readFilters env ctx v
  else if k == "circuit_parameters" then readCircuitParameters v   -- `entity.CircuitParameters(**v)`, 899-900
  else .ok v

/-- `control_behavior.<k> = v` -/
def Cb.setAttr (env : Env) (c : Cb) (k : String) (v : Val) : Except Exc Unit × Cb :=
  if c.chain.any (fun m => (cbAttrs m).contains k) then
    match cbAssign env c.ctx k v with
    | .error e => (.error e, c)
    | .ok x => (.ok (), { c with attrs := Dict.set c.attrs k x })
  else (.error .unmodelled, c)

/-- `entity.control_behavior.<k> = v`; without control behaviour the attribute `control_behavior` is missing. -/
def Entity.setControl (env : Env) (e : Entity) (k : String) (v : Val) : Except Exc Unit × Entity :=
  match e.cb with
  | none => (.error .attributeError, e)
  | some c => ((c.setAttr env k v).1, { e with cb := some (c.setAttr env k v).2 })

/-- `entity.control_behavior = entity.ControlBehavior(_entity=entity, **v)`: as in the constructor
(`entity.py:138-141`). -/
def Entity.newControl (env : Env) (e : Entity) (v : Val) : Except Exc Unit × Entity :=
  match Cb.new env (leftoverExc env e.name) e.klass v with
  | .error x => (.error x, e)
  | .ok c => (.ok (), { e with cb := some c })

end Verif
