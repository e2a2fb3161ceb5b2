import Verif.Model.Mixins
/-!
# Control behaviours (`class ControlBehavior` nested in the mixins of `entity_mixins.py`)

Same scheme as `Verif/Model/Mixins.lean`; the keyword `_entity` is threaded implicitly.  The two
combinator classes share one keyword and are modelled directly.
-/
set_option autoImplicit false

namespace Verif

/-- What a control behaviour constructor reads from the entity (`_entity`): the class attributes
`TYPE`, `OPERATOR` (`entity_mixins.py:203-204, 259-260, 268-269`), the options of the `operator`
descriptor found on the control behaviour class (`263, 272`; `none`: a plain attribute), and whether
`entity.Filter` is something else than `Filters.Filter`.  `noOperator`: the class has no attribute `OPERATOR`. -/
structure CbCtx where
  type : String := ""
  operator : String := ""
  noOperator : Bool := false
  options : Option (List String) := none
  filtersShadowed : Bool := false
deriving DecidableEq, Repr

/-- `f"{_entity.TYPE}_conditions"` (`entity_mixins.py:213, 275`) -/
def CbCtx.field (c : CbCtx) : String := c.type ++ "_conditions"

def arithmeticOps : List String := ["*", "/", "+", "-", "%", "^", "<<", ">>", "AND", "OR", "XOR"]
def deciderOps : List String := [">", "<", "=", "≥", "≤", "!="]

/-- Attribute lookup along the resolution order of the entity class `k`. -/
def Klass.ctx (k : Klass) : CbCtx :=
  let t := k.first (fun m => m = .Arithmetic || m = .Decider || m = .Combinator)
  let o := k.cbChain.find? (fun m => m = .Arithmetic || m = .Decider)
  let f := k.first (fun m => m = .Filters || m = .FilterInserter)
  { type := match t with
      | some .Arithmetic => "arithmetic" | some .Decider => "decider" | _ => "",
    operator := match t with
      | some .Arithmetic => "operation" | some .Decider => "comparator" | _ => "",
    noOperator := t.isNone,
    options := match o with
      | some .Arithmetic => some arithmeticOps | some .Decider => some deciderOps | _ => none,
    filtersShadowed := f == some .FilterInserter }

/-- `self.Filter` of `FilterInserter` shadowed by `Filters.Filter`? -/
def Klass.insFiltersShadowed (k : Klass) : Bool :=
  k.first (fun m => m = .Filters || m = .FilterInserter) == some .Filters

/-- The keywords consumed by each control behaviour. -/
def cbKeys : Mx → List String
  | .Accumulator => ["output_signal"]
  | .Filters => ["filters"]
  | .ConstantCombinator => ["is_on"]
  | .TransportBelt =>
      ["circuit_enable_disable", "circuit_read_hand_contents", "circuit_contents_read_mode"]
  | .TrainSignal =>
      ["circuit_read_signal", "red_output_signal", "orange_output_signal", "green_output_signal"]
  | .ChainSignal => ["blue_output_signal"]
  | .RailSignal => ["circuit_close_signal"]
  | .CircuitCondition => ["circuit_condition"]
  | .Lamp => ["use_colors"]
  | .MiningDrill =>
      ["circuit_enable_disable", "circuit_read_resources", "circuit_resource_read_mode"]
  | .Inserter =>
      ["circuit_mode_of_operation", "circuit_set_stack_size", "stack_control_input_signal",
       "circuit_hand_read_mode", "circuit_read_hand_contents"]
  | .Requester => ["circuit_mode_of_operation"]
  | .Roboport =>
      ["read_logistics", "read_robot_stats", "available_construction_output_signal",
       "total_construction_output_signal", "available_logistic_output_signal",
       "total_logistic_output_signal"]
  | .Speaker => ["circuit_parameters"]
  | .Station =>
      ["circuit_enable_disable", "read_from_train", "read_stopped_train", "train_stopped_signal"]
  | _ => []

/-- The names under which each control behaviour stores its attributes. -/
def cbAttrs : Mx → List String
  | .CircuitCondition => ["first", "second", "comparator"]
  | .Combinator => ["operator", "first", "second", "output"]
  | .Decider => ["copy_count_from_input"]
  | m => cbKeys m

/-- `Filters.Filter(**filter)` (`entity_mixins.py:156-163`): the stored attributes.  A keyword `self` clashes before
anything is read. -/
def readFilter (env : Env) (f : Val) : Except Exc Val := do
  let d ← f.kwargs
  if Dict.mem d "self" then throw .typeError
  let s ← signalSet env (Dict.getD d "signal" .none)
  if d.any (fun p => p.1 != "signal" && p.1 != "count" && p.1 != "index") then throw .typeError
  return .dict [("signal", s), ("count", Dict.getD d "count" .none),
    ("index", Dict.getD d "index" .none)]

/-- `Filters.Filter.to_json` (`entity_mixins.py:165-170`). -/
def filterJson (env : Env) (f : Val) : Except Exc Val := do
  let s ← f.subscript "signal"
  let c ← f.subscript "count"
  let i ← f.subscript "index"
  let s ← signalToJson env (signalGet s)
  return .dict [("signal", s), ("count", c), ("index", i)]

/-- `Speaker.CircuitParameters(**kwargs)` (`entity_mixins.py:908-915`), in export order (917-921). -/
def readCircuitParameters (v : Val) : Except Exc Val := do
  let d ← v.kwargs
  if d.any (fun p => p.1 != "signal_value_is_pitch" && p.1 != "instrument_id" && p.1 != "note_id") then
    throw .typeError
  return .dict [("instrument_id", Dict.getD d "instrument_id" .none),
    ("note_id", Dict.getD d "note_id" .none),
    ("signal_value_is_pitch", Dict.getD d "signal_value_is_pitch" .none)]

/-- The attribute assignments of each control behaviour `__init__` except the combinators'. -/
def cbRead (env : Env) (ctx : CbCtx) (m : Mx) (g : Kw) : Except Exc Attrs :=
  match m with
  | .Accumulator => do return [("output_signal", ← signalSet env (g.orNone "output_signal"))]
  | .Filters => do      -- 173-179
      let fs ← ((g "filters").getD (.list [])).iter
      if ctx.filtersShadowed && !fs.isEmpty then throw .unmodelled
      return [("filters", .list (← fs.mapM (readFilter env)))]
  | .ConstantCombinator => .ok [("is_on", (g "is_on").getD (.bool true))]
  | .TransportBelt =>
      .ok [("circuit_enable_disable", g.orNone "circuit_enable_disable"),
           ("circuit_read_hand_contents", g.orNone "circuit_read_hand_contents"),
           ("circuit_contents_read_mode", g.orNone "circuit_contents_read_mode")]
  | .TrainSignal => do   -- 315-324
      let r ← signalSet env (g.orNone "red_output_signal")
      let o ← signalSet env (g.orNone "orange_output_signal")
      let gr ← signalSet env (g.orNone "green_output_signal")
      return [("circuit_read_signal", g.orNone "circuit_read_signal"),
        ("red_output_signal", r), ("orange_output_signal", o), ("green_output_signal", gr)]
  | .ChainSignal => do return [("blue_output_signal", ← signalSet env (g.orNone "blue_output_signal"))]
  | .RailSignal => .ok [("circuit_close_signal", g.orNone "circuit_close_signal")]
  | .CircuitCondition =>  -- 492-502
      match g.orNone "circuit_condition" with
      | .none => .ok []
      | v => do
        let d ← v.asDict
        let f ← signalSet env (Dict.getD d "first_signal" .none)
        let s ← signalSet env (Dict.getD d "second_signal" (Dict.getD d "constant" .none))
        let c ← operatorSet deciderOps (Dict.getD d "comparator" .none)
        return [("first", f), ("second", s), ("comparator", c)]
  | .Lamp => .ok [("use_colors", g.orNone "use_colors")]
  | .MiningDrill =>       -- 536-543
      .ok [("circuit_enable_disable", (g "circuit_enable_disable").getD (.bool true)),
           ("circuit_read_resources", (g "circuit_read_resources").getD (.bool true)),
           ("circuit_resource_read_mode", (g "circuit_resource_read_mode").getD (.int 0))]
  | .Inserter => do       -- 556-566
      let s ← signalSet env (g.orNone "stack_control_input_signal")
      return [("circuit_mode_of_operation", g.orNone "circuit_mode_of_operation"),
        ("circuit_set_stack_size", g.orNone "circuit_set_stack_size"),
        ("stack_control_input_signal", s),
        ("circuit_hand_read_mode", g.orNone "circuit_hand_read_mode"),
        ("circuit_read_hand_contents", g.orNone "circuit_read_hand_contents")]
  | .Requester => .ok [("circuit_mode_of_operation", g.orNone "circuit_mode_of_operation")]
  | .Roboport => do       -- 829-842
      let ac ← signalSet env (g.orNone "available_construction_output_signal")
      let tc ← signalSet env (g.orNone "total_construction_output_signal")
      let al ← signalSet env (g.orNone "available_logistic_output_signal")
      let tl ← signalSet env (g.orNone "total_logistic_output_signal")
      return [("read_logistics", g.orNone "read_logistics"),
        ("read_robot_stats", g.orNone "read_robot_stats"),
        ("available_construction_output_signal", ac), ("total_construction_output_signal", tc),
        ("available_logistic_output_signal", al), ("total_logistic_output_signal", tl)]
  | .Speaker => do        -- 897-901
      return [("circuit_parameters",
        ← readCircuitParameters ((g "circuit_parameters").getD (.dict [])))]
  | .Station => do        -- 1023-1032
      let s ← signalSet env (g.orNone "train_stopped_signal")
      return [("circuit_enable_disable", g.orNone "circuit_enable_disable"),
        ("read_from_train", g.orNone "read_from_train"),
        ("read_stopped_train", g.orNone "read_stopped_train"), ("train_stopped_signal", s)]
  | _ => .ok []

/-- `obj_set(obj, key, value)` for the result of a `SignalName` descriptor (`util.py:626-637`): a
name is exported through its `to_json`, an `int` as it is, `None` not at all. -/
def objSetSignal (env : Env) (k : String) (stored : Val) : Except Exc Dict :=
  match signalGet stored with
  | .none => .ok []
  | .str s => do return [(k, ← signalJson env s)]
  | v => .ok [(k, v)]

/-- `if signal: obj[key] = signal.to_json()` (`entity_mixins.py:853-855, 1038-1040`): a non-zero `int`
has no `to_json`. -/
def objSetIfSignal (env : Env) (k : String) (stored : Val) : Except Exc Dict :=
  let v := signalGet stored
  if v.truthy then do return [(k, ← signalToJson env v)] else .ok []

/-- `CircuitCondition.ControlBehavior.to_json` (`entity_mixins.py:504-518`): one operand. -/
def operandJson (env : Env) (constKey sigKey : String) (stored : Val) : Except Exc Dict :=
  match signalGet stored with
  | .none => .ok []
  | .num (.int z) => .ok [(constKey, .int z)]
  | v => do return [(sigKey, ← signalToJson env v)]

/-- What each control behaviour's `to_json` writes, except the combinators'. -/
def cbEmit (env : Env) (m : Mx) (a : Kw) : Except Exc Dict :=
  match m with
  | .Accumulator => objSetSignal env "output_signal" (a.orNone "output_signal")
  | .Filters => do
      let fs ← (← attr a "filters").iter
      if fs.isEmpty then return []
      return [("filters", .list (← fs.mapM (filterJson env)))]
  | .ConstantCombinator => do
      let v ← attr a "is_on"
      return if v.truthy then [] else [("is_on", .bool false)]
  | .TransportBelt => do
      let h ← attr a "circuit_read_hand_contents"
      let e ← attr a "circuit_enable_disable"
      let m ← attr a "circuit_contents_read_mode"
      return [("circuit_read_hand_contents", h), ("circuit_enable_disable", e),
        ("circuit_contents_read_mode", m)]
  | .TrainSignal => do
      let c ← attr a "circuit_read_signal"
      let r ← objSetSignal env "red_output_signal" (a.orNone "red_output_signal")
      let o ← objSetSignal env "orange_output_signal" (a.orNone "orange_output_signal")
      let g ← objSetSignal env "green_output_signal" (a.orNone "green_output_signal")
      return objSet "circuit_read_signal" c ++ r ++ o ++ g
  | .ChainSignal => objSetSignal env "blue_output_signal" (a.orNone "blue_output_signal")
  | .RailSignal => do return objSet "circuit_close_signal" (← attr a "circuit_close_signal")
  | .CircuitCondition => do
      let f ← operandJson env "first_constant" "first_signal" (a.orNone "first")
      let s ← operandJson env "constant" "second_signal" (a.orNone "second")
      let cond := objSet "comparator" (a.orNone "comparator") ++ f ++ s
      return if cond.isEmpty then [] else [("circuit_condition", .dict cond)]
  | .Lamp => do return objSet "use_colors" (← attr a "use_colors")
  | .MiningDrill => do
      let e ← attr a "circuit_enable_disable"
      let r ← attr a "circuit_read_resources"
      let m ← attr a "circuit_resource_read_mode"
      return [("circuit_enable_disable", e), ("circuit_read_resources", r),
        ("circuit_resource_read_mode", m)]
  | .Inserter => do
      let m ← attr a "circuit_mode_of_operation"
      let st ← attr a "circuit_set_stack_size"
      let s ← objSetSignal env "stack_control_input_signal" (a.orNone "stack_control_input_signal")
      let h ← attr a "circuit_hand_read_mode"
      let c ← attr a "circuit_read_hand_contents"
      return objSet "circuit_mode_of_operation" m ++ objSet "circuit_set_stack_size" st ++ s ++
        objSet "circuit_hand_read_mode" h ++ objSet "circuit_read_hand_contents" c
  | .Requester => do
      return objSet "circuit_mode_of_operation" (← attr a "circuit_mode_of_operation")
  | .Roboport => do
      let l ← attr a "read_logistics"
      let r ← attr a "read_robot_stats"
      let ac ← objSetIfSignal env "available_construction_output_signal"
        (a.orNone "available_construction_output_signal")
      let tc ← objSetIfSignal env "total_construction_output_signal"
        (a.orNone "total_construction_output_signal")
      let al ← objSetIfSignal env "available_logistic_output_signal"
        (a.orNone "available_logistic_output_signal")
      let tl ← objSetIfSignal env "total_logistic_output_signal"
        (a.orNone "total_logistic_output_signal")
      return objSet "read_logistics" l ++ objSet "read_robot_stats" r ++ ac ++ tc ++ al ++ tl
  | .Speaker => do return [("circuit_parameters", ← attr a "circuit_parameters")]
  | .Station => do
      let e ← attr a "circuit_enable_disable"
      let f ← attr a "read_from_train"
      let r ← attr a "read_stopped_train"
      let s ← objSetIfSignal env "train_stopped_signal" (a.orNone "train_stopped_signal")
      return objSet "circuit_enable_disable" e ++ objSet "read_from_train" f ++
        objSet "read_stopped_train" r ++ s
  | _ => .ok []

/-! ## Combinators -/

/-- `x.pop(…)` on something that is not a dict: a list has a `pop` that rejects these arguments. -/
def Val.asPopDict : Val → Except Exc Dict
  | .dict d => .ok d
  | .list _ => .error .typeError
  | _ => .error .attributeError

/-- `get_from(d, key)` (`entity_mixins.py:217-227`): the operand and the keys popped from `d`. -/
def getFrom (ctx : CbCtx) (d : Dict) (key : String) : Except Exc Val × Dict :=
  let constKey := if ctx.type == "decider" && key == "first" then "constant" else key ++ "_constant"
  let value := Dict.getD d constKey .none
  let d := Dict.erase d constKey
  match value with
  | .none =>
    let value := Dict.getD d (key ++ "_signal") .none
    let d := Dict.erase d (key ++ "_signal")
    match value with
    | .none => (.ok .none, d)
    | v => (v.subscript "name", d)
  | v => (.ok v, d)

/-- The body of `Combinator.ControlBehavior.__init__` on the conditions dict
(`entity_mixins.py:215, 229-231`): the attributes set, and what is left in the dict (which is the
caller's own dict object) — also if an exception is raised. -/
def combinatorBody (env : Env) (ctx : CbCtx) (cond : Dict) : Except Exc Attrs × Dict :=
  match Dict.get? cond ctx.operator with
  | none => (.error .keyError, cond)
  | some op =>
    let cond := Dict.erase cond ctx.operator
    match (match ctx.options with | some os => operatorSet os op | none => .ok op) with
    | .error e => (.error e, cond)
    | .ok op =>
      match getFrom ctx cond "first" with
      | (.error e, cond) => (.error e, cond)
      | (.ok f, cond) =>
        match signalSet env f with
        | .error e => (.error e, cond)
        | .ok f =>
          match getFrom ctx cond "second" with
          | (.error e, cond) => (.error e, cond)
          | (.ok s, cond) =>
            match signalSet env s with
            | .error e => (.error e, cond)
            | .ok s =>
              match getFrom ctx cond "output" with
              | (.error e, cond) => (.error e, cond)
              | (.ok o, cond) =>
                match signalSet env o with
                | .error e => (.error e, cond)
                | .ok o => (.ok [("operator", op), ("first", f), ("second", s), ("output", o)], cond)

/-- `Combinator.ControlBehavior.__init__` (`entity_mixins.py:211-234`): attributes and remaining
keywords. -/
def combinatorInit (env : Env) (ctx : CbCtx) (kw : Dict) : Except Exc (Attrs × Dict) := do
  let cond ← (Dict.getD kw ctx.field (.dict [])).asPopDict
  let kw := Dict.erase kw ctx.field
  match combinatorBody env ctx cond with
  | (.error e, _) => .error e
  | (.ok a, rest) => return (a, if rest.isEmpty then kw else Dict.set kw ctx.field (.dict rest))

/-- `Decider.ControlBehavior.__init__` (`entity_mixins.py:273-281`). -/
def deciderInit (ctx : CbCtx) (kw : Dict) : Except Exc (Attrs × Dict) := do
  let cond ← (← Dict.getItem kw ctx.field).asPopDict
  let kw := Dict.erase kw ctx.field
  let c := Dict.getD cond "copy_count_from_input" (.bool false)
  let cond := Dict.erase cond "copy_count_from_input"
  return ([("copy_count_from_input", c)],
    if cond.isEmpty then kw else Dict.set kw ctx.field (.dict cond))

/-- `set_to` (`entity_mixins.py:237-244`) followed by `obj_set`: one operand of a combinator. -/
def setTo (env : Env) (ctx : CbCtx) (settings : Dict) (key : String) (stored : Val) :
    Except Exc Dict :=
  match signalGet stored with
  | .num (.int z) =>
      .ok (Dict.set settings (if ctx.field == "decider_conditions" then "constant" else key ++ "_constant")
        (.int z))
  | v => do return setAll settings (← objSetSignal env (key ++ "_signal") v)

/-- `combinator_settings[self.__entity.OPERATOR] = self.operator` (`entity_mixins.py:247`): the value is computed first,
then the class attribute of the entity is read. -/
def operatorRead (ctx : CbCtx) (a : Kw) : Except Exc Val :=
  match (match ctx.options with | some _ => Except.ok (a.orNone "operator") | none => attr a "operator") with
  | .error x => .error x
  | .ok op => if ctx.noOperator then .error .attributeError else .ok op

/-- `Combinator.ControlBehavior.to_json` (`entity_mixins.py:236-255`) on `obj`.  A value other than a
dict under the field in `obj` cannot occur (only `Decider` writes it). -/
def combinatorEmit (env : Env) (ctx : CbCtx) (a : Kw) (obj : Dict) : Except Exc Dict := do
  let op ← operatorRead ctx a
  let s ← setTo env ctx [(ctx.operator, op)] "first" (a.orNone "first")
  let s ← setTo env ctx s "second" (a.orNone "second")
  let s ← setTo env ctx s "output" (a.orNone "output")
  let old ← (Dict.getD obj ctx.field (.dict [])).kwargs
  return Dict.set obj ctx.field (.dict (setAll s old))

/-- `Decider.ControlBehavior.to_json` (`entity_mixins.py:283-288`). -/
def deciderEmit (ctx : CbCtx) (a : Kw) (obj : Dict) : Except Exc Dict := do
  let v := Dict.getD obj ctx.field .none
  let old ← if v.truthy then v.asDict else .ok []
  let c ← attr a "copy_count_from_input"
  return Dict.set obj ctx.field (.dict (Dict.set old "copy_count_from_input" c))

/-! ## The chain -/

/-- One `__init__` of the chain: attributes set and keywords left. -/
def cbInit (env : Env) (ctx : CbCtx) (m : Mx) (kw : Dict) : Except Exc (Attrs × Dict) :=
  match m with
  | .Combinator => combinatorInit env ctx kw
  | .Decider => deciderInit ctx kw
  | m => do
      let a ← cbRead env ctx m (Dict.get? kw)
      return (a, eraseKeys kw (cbKeys m))

/-- `Inserter.ControlBehavior.__init__` does not call `super().__init__`
(`entity_mixins.py:556-566`). -/
def cbStops (m : Mx) : Bool := m = .Inserter

/-- The chain of control behaviour `__init__` calls; `BaseMixin.ControlBehavior.__init__`
(`entity_mixins.py:13-28`) raises `leftover` if keywords are left. -/
def cbInitChain (env : Env) (ctx : CbCtx) (leftover : Exc) : List Mx → Dict → Attrs → Except Exc Attrs
  | [], kw, a => if kw.isEmpty then .ok a else .error leftover
  | m :: ms, kw, a =>
      match cbInit env ctx m kw with
      | .error e => .error e
      | .ok (w, kw) =>
        if cbStops m then .ok (setAll a w) else cbInitChain env ctx leftover ms kw (setAll a w)

/-- A control behaviour object: the nested classes of its class in resolution order, what it reads from
its entity when exporting, and its attributes. -/
structure Cb where
  chain : List Mx
  ctx : CbCtx
  attrs : Attrs
deriving DecidableEq, Repr

/-- `self.ControlBehavior(_entity=self, **value)` (`entity.py:139-141`) for an entity of class `k`.
A keyword `self` or `_entity` clashes. -/
def Cb.new (env : Env) (leftover : Exc) (k : Klass) (v : Val) : Except Exc Cb := do
  let kw ← v.kwargs
  if Dict.mem kw "self" || Dict.mem kw "_entity" then throw .typeError
  let a ← cbInitChain env k.ctx leftover k.cbChain kw []
  return ⟨k.cbChain, k.ctx, a⟩

/-- One `to_json` of the chain. -/
def cbEmit1 (env : Env) (ctx : CbCtx) (m : Mx) (a : Kw) (obj : Dict) : Except Exc Dict :=
  match m with
  | .Combinator => combinatorEmit env ctx a obj
  | .Decider => deciderEmit ctx a obj
  | m => do return setAll obj (← cbEmit env m a)

def cbEmitChain (env : Env) (ctx : CbCtx) : List Mx → Kw → Dict → Except Exc Dict
  | [], _, obj => .ok obj
  | m :: ms, a, obj =>
      match cbEmit1 env ctx m a obj with
      | .error e => .error e
      | .ok obj => cbEmitChain env ctx ms a obj

/-- `control_behavior.to_json({})` (`entity_mixins.py:30-33, 51`): `None` if nothing was written. -/
def Cb.toJson (env : Env) (c : Cb) : Except Exc (Option Dict) := do
  let obj ← cbEmitChain env c.ctx c.chain (Dict.get? c.attrs) []
  return if obj.isEmpty then none else some obj

/-- The control behaviour of an entity that is now of class `k`: its own class stays, but `self.__entity.OPERATOR`
(`entity_mixins.py:247`) is looked up in the class that the entity has when it is exported. -/
def Cb.seenBy (k : Klass) (c : Cb) : Cb :=
  { c with ctx := { c.ctx with operator := k.ctx.operator, noOperator := k.ctx.noOperator } }

end Verif
