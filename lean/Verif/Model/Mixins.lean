import Verif.Model.Classes
import Verif.Model.Env
import Verif.Model.Color
import Verif.Model.Direction
/-!
# Entity-level constructors and `to_json` of the mixins (`entity_mixins.py`)

Every mixin `__init__` removes some keywords from `kwargs`, sets attributes and passes the rest to
`super().__init__`.  So a mixin is modelled by

* `mxKeys m`: the keywords it removes,
* `mxRead env … m get`: the attributes it sets, computed from the removed keywords (`get k` is the value
  passed for keyword `k`, if any),
* `mxEmit env m attrs dir`: the keys its `to_json` writes into `obj`.

Attributes are stored under their Python names without mangling, objects (`Vector`, `Color`, filter
objects) as the JSON value their `to_json` produces.
-/
set_option autoImplicit false

namespace Verif

/-- The attributes of an object (`__dict__`), as far as the mixins use them. -/
abbrev Attrs := Dict

/-- Keyword lookup function. -/
abbrev Kw := String → Option Val

/-- `kwargs.pop(k, None)` and keyword parameters with default `None`. -/
def Kw.orNone (g : Kw) (k : String) : Val := (g k).getD .none

/-- `d[k] = …` for a dict keyed by an arbitrary hashable JSON value (an existing equal key is kept, its
value replaced); used for the index-keyed dicts of `Cargo`, `InfinityContainer`, `Requester`. -/
def setIdx : List (Val × Dict) → Val → Dict → List (Val × Dict)
  | [], k, f => [(k, f)]
  | (k', f') :: l, k, f => if k'.keyEq k then (k', f) :: l else (k', f') :: setIdx l k f

/-- The list `[{"index": index, …} for index, … in d.items()]`. -/
def idxJson (l : List (Val × Dict)) : Val := .list (l.map (fun p => .dict (("index", p.1) :: p.2)))

/-- The keywords consumed by each mixin (parameter lists and `kwargs.pop` calls). -/
def mxKeys : Mx → List String
  | .Items => ["items"]
  | .Train => ["orientation"]
  | .Cargo => ["inventory"]
  | .Color => ["color"]
  | .Container => ["bar"]
  | .Inserter => ["override_stack_size", "drop_position", "pickup_position"]
  | .FilterInserter => ["filters", "filter_mode"]
  | .InfinityContainer => ["infinity_settings"]
  | .Recipe => ["recipe"]
  | .Requester => ["request_from_buffers", "request_filters"]
  | .Silo => ["auto_launch"]
  | .Speaker => ["parameters", "alert_parameters"]
  | .Splitter => ["input_priority", "output_priority", "filter"]
  | .Station => ["station"]
  | .Underground => ["type"]
  | .Variation => ["variation"]
  | _ => []

/-- The names under which each mixin stores its attributes. -/
def mxAttrs : Mx → List String
  | .Cargo => ["inventory_bar", "inventory_filters"]
  | .InfinityContainer => ["infinity_settings_remove_unfiltered_items", "infinity_settings_filters"]
  | m => mxKeys m

/-- `Items.__init__` (`entity_mixins.py:136-140`). -/
def readItems (env : Env) (v : Val) : Except Exc Attrs := do
  let d ← v.asDict
  let d ← d.mapM (fun p => do
    let s ← signalSet env (.str p.1)
    match signalGet s with
    | .str s => return (s, p.2)
    | _ => throw .unmodelled)
  return [("items", .dict d)]

/-- `Train.orientation.setter` (`entity_mixins.py:380-385`): `value % 1.0`. -/
def orientationSet (v : Val) : Except Exc Val :=
  match v with
  | .none => .ok .none
  | .str s => .error (Direction.strMod s)
  | v =>
    match v.num? with
    | some n => do return .num (← n.mod (.flt 1))
    | Option.none => .error .typeError

/-- `Cargo.inventory.setter` (`entity_mixins.py:424-433`). -/
def readCargo (env : Env) (v : Val) : Except Exc Attrs :=
  match v with
  | .none => .ok [("inventory_bar", .none), ("inventory_filters", .list [])]
  | v => do
    let d ← v.asDict
    let fs ← (Dict.getD d "filters" (.list [])).iter
    let l ← fs.foldlM (fun acc f => do
      let n ← nameStr env (← f.subscript "name")
      let i ← f.subscript "index"
      if !i.hashable then throw .typeError
      return setIdx acc i [("name", n)]) []
    return [("inventory_bar", Dict.getD d "bar" .none), ("inventory_filters", idxJson l)]

/-- `Vector(value)` in the setters of `pickup_position` / `drop_position`
(`entity_mixins.py:591-601`). -/
def readVector (v : Val) : Except Exc Val := do
  match ← Vec.ofVal v with
  | some p => return p.toJson
  | none => return .none

/-- `ColorField.__set__` (`entity_mixins.py:444-448`). -/
def readColor (v : Val) : Except Exc Val :=
  match v with
  | .none => .ok .none
  | v => do return (← Color.ofVal v).toJson

/-- `int(value)` unless `None` (`entity_mixins.py:476-479, 608-611`). -/
def readIntOrNone (v : Val) : Except Exc Val :=
  match v with
  | .none => .ok .none
  | v => do return .int (← pyInt v)

/-- `FilterInserter.Filter(**filter)` (`entity_mixins.py:624-629`), stored in export order
(`to_json`, 631-632).  A keyword `self` clashes before anything is read. -/
def readInsFilter (env : Env) (f : Val) : Except Exc Val := do
  let d ← f.kwargs
  if Dict.mem d "self" then throw .typeError
  let s ← signalSet env (Dict.getD d "name" .none)
  if d.any (fun p => p.1 != "name" && p.1 != "index") then throw .typeError
  return .dict [("index", Dict.getD d "index" .none), ("name", signalGet s)]

/-- `value not in [None, "a", "b"]` → `ValueError`. -/
def readChoice (options : List String) (v : Val) : Except Exc Val :=
  match v with
  | .none => .ok .none
  | .str s => if options.contains s then .ok v else .error .valueError
  | _ => .error .valueError

/-- `if value is None: value = []` before the loop over it (`entity_mixins.py:634-636, 694-698, 796-800`). -/
def iterOrNone (v : Val) : Except Exc (List Val) :=
  match v with
  | .none => .ok []
  | v => v.iter

/-- `InfinityContainer.infinity_settings.setter` (`entity_mixins.py:675-705`). -/
def readInfinity (env : Env) (v : Val) : Except Exc Attrs := do
  let r ← v.subscript "remove_unfiltered_items"
  let fs ← iterOrNone (← v.subscript "filters")
  let l ← fs.foldlM (fun acc f => do
    let mode ← f.subscript "mode"
    if !(mode == .str "at-least" || mode == .str "at-most" || mode == .str "exactly") then
      throw .valueError
    let count ← f.subscript "count"
    let n ← nameStr env (← f.subscript "name")
    let i ← f.subscript "index"
    if !i.hashable then throw .typeError
    return setIdx acc i [("count", count), ("mode", mode), ("name", n)]) []
  return [("infinity_settings_remove_unfiltered_items", .bool r.truthy),
          ("infinity_settings_filters", idxJson l)]

/-- `Requester.request_filters.setter` (`entity_mixins.py:796-805`). -/
def readRequestFilters (env : Env) (v : Val) : Except Exc Val := do
  let fs ← iterOrNone v
  let l ← fs.foldlM (fun acc f => do
    let n ← nameStr env (← f.subscript "name")
    let c ← pyInt (← f.subscript "count")
    let i ← f.subscript "index"
    if !i.hashable then throw .typeError
    return setIdx acc i [("name", n), ("count", .int c)]) []
  return idxJson l

/-- `value not in [None, True, False]` → `ValueError` (`entity_mixins.py:885-888`); `1`, `0`, `1.0`,
`0.0` equal `True`/`False`. -/
def readAutoLaunch (v : Val) : Except Exc Val :=
  match v with
  | .none => .ok .none
  | v =>
    match v.num? with
    | some n => if n.val = 0 ∨ n.val = 1 then .ok v else .error .valueError
    | Option.none => .error .valueError

/-- `Speaker.parameters.setter` (`entity_mixins.py:932-941`). -/
def readParameters (v : Val) : Except Exc Val :=
  match v with
  | .none => .ok .none
  | v => do
    let vol ← pyFloat (← v.subscript "playback_volume")
    let glob ← v.subscript "playback_globally"
    let poly ← v.subscript "allow_polyphony"
    return .dict [("playback_volume", .flt vol), ("playback_globally", .bool glob.truthy),
      ("allow_polyphony", .bool poly.truthy)]

/-- `Speaker.alert_parameters.setter` (`entity_mixins.py:947-958`). -/
def readAlert (env : Env) (v : Val) : Except Exc Val :=
  match v with
  | .none => .ok .none
  | v => do
    let sa ← v.subscript "show_alert"
    let sm ← v.subscript "show_on_map"
    let d ← v.asDict
    let icon ← (Dict.getD d "icon_signal_id" (.dict [])).asDict
    let n ← nameStr env (Dict.getD icon "name" .none)
    let msg ← v.subscript "alert_message"
    return .dict [("show_alert", .bool sa.truthy), ("show_on_map", .bool sm.truthy),
      ("icon_signal_id", n), ("alert_message", msg)]

/-- `Variation.variation.setter` (`entity_mixins.py:1085-1090`): the test is
`(value is not None and value < 0) or value > 255`, so `None` raises `TypeError`. -/
def readVariation (v : Val) : Except Exc Val :=
  match v.num? with
  | some n => if n.lt (.int 0) || (Num.int 255).lt n then .error .valueError else .ok v
  | Option.none => .error .typeError

/-- The attribute assignments of each mixin's `__init__`.  `strict` is the entity's attribute.
`filtersShadowed` says that `self.Filter` is not `FilterInserter.Filter` because another class comes
first in the resolution order (only possible with custom mixins); that case is outside the model. -/
def mxRead (env : Env) (strict : Bool) (filtersShadowed : Bool) (m : Mx) (g : Kw) :
    Except Exc Attrs :=
  match m with
  | .Items => readItems env ((g "items").getD (.dict []))
  | .Train => do return [("orientation", ← orientationSet (g.orNone "orientation"))]
  | .Cargo => readCargo env (g.orNone "inventory")
  | .Color => do return [("color", ← readColor (g.orNone "color"))]
  | .Container => do return [("bar", ← readIntOrNone (g.orNone "bar"))]
  | .Inserter => do
      let o ← readIntOrNone (g.orNone "override_stack_size")
      let p ← readVector (g.orNone "pickup_position")
      let d ← readVector (g.orNone "drop_position")
      return [("override_stack_size", o), ("pickup_position", p), ("drop_position", d)]
  | .FilterInserter => do
      let fs ← iterOrNone (g.orNone "filters")
      if filtersShadowed && !fs.isEmpty then throw .unmodelled
      let l ← fs.mapM (readInsFilter env)
      let mode ← readChoice ["whitelist", "blacklist"] (g.orNone "filter_mode")
      return [("filters", .list l), ("filter_mode", mode)]
  | .InfinityContainer => readInfinity env (g.orNone "infinity_settings")
  | .Recipe => do return [("recipe", ← recipeSet env strict (g.orNone "recipe"))]
  | .Requester => do
      let l ← readRequestFilters env (g.orNone "request_filters")
      return [("request_from_buffers", (g "request_from_buffers").getD (.bool false)),
              ("request_filters", l)]
  | .Silo => do return [("auto_launch", ← readAutoLaunch (g.orNone "auto_launch"))]
  | .Speaker => do
      let p ← readParameters (g.orNone "parameters")
      let a ← readAlert env (g.orNone "alert_parameters")
      return [("parameters", p), ("alert_parameters", a)]
  | .Splitter => do
      let i ← readChoice ["right", "left"] (g.orNone "input_priority")
      let o ← readChoice ["right", "left"] (g.orNone "output_priority")
      let f ← nameStr env (g.orNone "filter")
      return [("input_priority", i), ("output_priority", o), ("filter", f)]
  | .Station => .ok [("station", g.orNone "station")]
  | .Underground =>
      match g "type" with
      | none => .error .typeError
      | some (.str s) =>
          if s == "input" || s == "output" then .ok [("type", .str s)] else .error .valueError
      | some _ => .error .valueError
  | .Variation => do return [("variation", ← readVariation (g.orNone "variation"))]
  | _ => .ok []

/-- Attribute access: a missing attribute raises `AttributeError`. -/
def attr (a : Kw) (k : String) : Except Exc Val :=
  match a k with
  | some v => .ok v
  | none => .error .attributeError

/-- `obj_set(obj, key, value)` for a value without `to_json` (`util.py:626-637`): the keys written. -/
def objSet (k : String) (v : Val) : Dict :=
  match v with
  | .none => []
  | v => [(k, v)]

/-- `Cargo.inventory` (`entity_mixins.py:412-422`). -/
def cargoInventory (bar fs : Val) : Val :=
  if bar = .none ∧ fs.truthy = false then .none
  else .dict (objSet "bar" bar ++ (if fs.truthy then [("filters", fs)] else []))

/-- The entry `icon_signal_id` (`entity_mixins.py:967-970`). -/
def alertIcon (env : Env) (icon : Val) : Except Exc Dict :=
  match icon with
  | .none => .ok []
  | .str s => do
      let t ← (Dict.getD env.defaults s .none).subscript "type"
      return [("icon_signal_id", Val.dict [("name", .str s), ("type", t)])]
  | _ => .error .unmodelled

/-- `Speaker.to_json`, the alert part (`entity_mixins.py:962-971`). -/
def alertJson (env : Env) (v : Val) : Except Exc Dict :=
  match v with
  | .none => .ok []
  | v => do
    let sa ← v.subscript "show_alert"
    let sm ← v.subscript "show_on_map"
    let msg ← v.subscript "alert_message"
    let icon ← v.subscript "icon_signal_id"
    let extra ← alertIcon env icon
    return [("alert_parameters",
      .dict ([("show_alert", sa), ("show_on_map", sm), ("alert_message", msg)] ++ extra))]

/-- What each mixin's `to_json` writes into `obj`, in order; `a` gives the attributes of the entity,
`dir` its direction. -/
def mxEmit (env : Env) (m : Mx) (a : Kw) (dir : Direction) : Except Exc Dict :=
  match m with
  | .Items => do
      let d ← attr a "items"
      return if d.truthy then [("items", d)] else []
  | .Train => do return objSet "orientation" (← attr a "orientation")
  | .Cargo => do
      let bar ← attr a "inventory_bar"
      let fs ← attr a "inventory_filters"
      return objSet "inventory" (cargoInventory bar fs)
  | .Color => .ok (objSet "color" (a.orNone "color"))
  | .Container => do return objSet "bar" (← attr a "bar")
  | .Inserter => do
      let o ← attr a "override_stack_size"
      let p ← attr a "pickup_position"
      let d ← attr a "drop_position"
      return objSet "override_stack_size" o ++ objSet "pickup_position" p ++
        objSet "drop_position" d
  | .FilterInserter => do
      let mode ← attr a "filter_mode"
      let fs ← attr a "filters"
      return objSet "filter_mode" mode ++ (if fs.truthy then [("filters", fs)] else [])
  | .InfinityContainer => do
      let r ← attr a "infinity_settings_remove_unfiltered_items"
      let fs ← attr a "infinity_settings_filters"
      return [("infinity_settings", .dict [("remove_unfiltered_items", r), ("filters", fs)])]
  | .Recipe => .ok (objSet "recipe" (a.orNone "recipe"))
  | .Requester => do
      let b ← attr a "request_from_buffers"
      let fs ← attr a "request_filters"
      return (if b.truthy then [("request_from_buffers", b)] else []) ++
        (if fs.truthy then [("request_filters", fs)] else [])
  | .Rotatable => .ok (if dir.isUp then [] else [("direction", .int dir.n)])
  | .Silo => do return objSet "auto_launch" (← attr a "auto_launch")
  | .Speaker => do
      let p ← attr a "parameters"
      let al ← alertJson env (← attr a "alert_parameters")
      return objSet "parameters" p ++ al
  | .Splitter => do
      let i ← attr a "input_priority"
      let o ← attr a "output_priority"
      let f ← attr a "filter"
      return objSet "input_priority" i ++ objSet "output_priority" o ++ objSet "filter" f
  | .Station => do return objSet "station" (← attr a "station")
  | .Underground => do return objSet "type" (← attr a "type")
  | .Variation => do return objSet "variation" (← attr a "variation")
  | _ => .ok []

/-- `obj.update(writes)`, one `obj[k] = v` after the other. -/
def setAll (obj : Dict) (writes : Dict) : Dict :=
  writes.foldl (fun o p => Dict.set o p.1 p.2) obj

/-- `d` without the listed keys. -/
def eraseKeys (d : Dict) (ks : List String) : Dict := d.filter (fun p => !ks.contains p.1)

/-- The chain of `__init__` calls along the resolution order (`super().__init__(*args, **kwargs)`),
starting after `Entity`.  `args` tells whether positional arguments are being passed:
`Items.__init__` passes the remaining keywords as positional arguments (`*kwargs`,
`entity_mixins.py:141`), so they are lost as keywords.  At the end `BaseMixin.__init__`
(`entity_mixins.py:35-47`) raises `leftover` if anything is left. -/
def initChain (env : Env) (strict shadowed : Bool) (leftover : Exc) :
    List Mx → Bool → Dict → Attrs → Except Exc Attrs
  | [], args, kw, a => if args || !kw.isEmpty then .error leftover else .ok a
  | m :: ms, args, kw, a =>
      match mxRead env strict shadowed m (Dict.get? kw) with
      | .error e => .error e
      | .ok w =>
        let kw := eraseKeys kw (mxKeys m)
        if m = .Items then initChain env strict shadowed leftover ms (args || !kw.isEmpty) [] (setAll a w)
        else initChain env strict shadowed leftover ms args kw (setAll a w)

/-- The chain of `to_json` calls along the resolution order, up to `BaseMixin.to_json`. -/
def emitChain (env : Env) (dir : Direction) : List Mx → Kw → Dict → Except Exc Dict
  | [], _, obj => .ok obj
  | m :: ms, a, obj =>
      match mxEmit env m a dir with
      | .error e => .error e
      | .ok w => emitChain env dir ms a (setAll obj w)

end Verif
