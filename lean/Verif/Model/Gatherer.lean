import Verif.Model.Blueprint
/-!
# The data gatherer — `/repo/blueprint_data_gatherer/control.lua`

The Lua mod that writes the prototype data which `Blueprint.import_prototype_data` reads.  The Lua tables are
given as the JSON values they are written as (`Model/LuaJson`, C58).  Not modelled: the event handler and the
file system.
-/
set_option autoImplicit false

namespace Verif

/-- `gatherer_entity_prototypes` (`control.lua:24-88`) -/
def gathererTypes : List String :=
  ["accumulator", "artillery-turret", "beacon", "boiler", "burner-generator", "arithmetic-combinator",
   "decider-combinator", "constant-combinator", "container", "logistic-container", "infinity-container", "assembling-machine", "rocket-silo", "furnace", "electric-energy-interface", "electric-pole", "gate", "generator", "heat-interface", "heat-pipe", "inserter", "lab", "lamp", "land-mine",
   "market", "mining-drill", "offshore-pump", "pipe", "infinity-pipe", "pipe-to-ground", "player-port",
   "power-switch", "programmable-speaker", "pump", "radar", "curved-rail", "straight-rail", "rail-chain-signal", "rail-signal", "reactor", "roboport", "simple-entity", "simple-entity-with-owner",
   "simple-entity-with-force", "solar-panel", "storage-tank", "train-stop", "loader-1x1", "loader",
   "splitter", "transport-belt", "underground-belt", "turret", "ammo-turret", "electric-turret",
   "fluid-turret", "vehicle", "car", "artillery-wagon", "cargo-wagon", "fluid-wagon", "locomotive",
   "wall"]

/-- `gatherer_entity_fields` (`control.lua:90-98`) -/
def entityFields : List String :=
  ["name", "type", "localised_name", "localised_description", "flags", "selection_box",
   "items_to_place_this"]

/-- `gatherer_recipe_fields` (`control.lua:100-104`) -/
def recipeFields : List String :=
  ["name", "localised_name", "localised_description"]

/-- `gatherer_item_fields` (`control.lua:106-110`) -/
def itemFields : List String :=
  ["name", "localised_name", "localised_description"]

/-- `gatherer_tile_fields` (`control.lua:112-117`) -/
def tileFields : List String :=
  ["name", "localised_name", "localised_description", "can_be_part_of_blueprint"]

/-- A prototype of the game: its attributes (absent ones are `nil`), and whether it is hidden. -/
structure GameProto where
  attrs : Dict
  hidden : Bool := false

/-- The prototype tables of the game, in the order in which `pairs` visits them. -/
structure Game where
  entity : List (String × GameProto) := []
  recipe : List (String × GameProto) := []
  item : List (String × GameProto) := []
  tile : List (String × GameProto) := []
  fluid : List (String × GameProto) := []
  virtual : List (String × GameProto) := []

/-- `has_value` (`control.lua:15-22`) -/
def hasValue (l : List String) (v : Option Val) : Bool :=
  match v with
  | some (.str s) => l.contains s
  | _ => false

/-- The inner loop of `gather_prototype_data`: assigning `nil` leaves the key out. -/
def gatherFields (fields : List String) (p : GameProto) : Dict :=
  fields.filterMap (fun f => (Dict.get? p.attrs f).map (fun v => (f, v)))

/-- `gather_prototype_data` (`control.lua:119-132`); `prototypes` is `none` for `false`. -/
def gatherPrototypes (data : List (String × GameProto)) (prototypes : Option (List String))
    (fields : List String) : Dict :=
  data.foldl (fun (out : Dict) (p : String × GameProto) =>
    if prototypes.all (fun l => hasValue l (Dict.get? p.2.attrs "type")) then
      Dict.set out p.1 (.dict (gatherFields fields p.2))
    else out) []

/-- One loop of `gather_signal_data`.  Simplification: the name of a prototype is its key. -/
def gatherSignals (kind : String) (out : Dict) (data : List (String × GameProto)) : Dict :=
  data.foldl (fun (out : Dict) (p : String × GameProto) =>
    if p.2.hidden then out
    else Dict.set out p.1 (.dict [("name", .str p.1), ("type", .str kind)])) out

/-- `gather_signal_data` (`control.lua:134-159`): virtual signals are not checked for being hidden. -/
def gatherSignalData (g : Game) : Dict :=
  let virtual := g.virtual.map (fun (p : String × GameProto) => (p.1, { p.2 with hidden := false }))
  gatherSignals "item" (gatherSignals "fluid" (gatherSignals "virtual" [] virtual) g.fluid) g.item

/-- `gather_data` (`control.lua:161-181`) -/
def gatherData (g : Game) : Dict :=
  [("entity", .dict (gatherPrototypes g.entity (some gathererTypes) entityFields)),
   ("recipe", .dict (gatherPrototypes g.recipe none recipeFields)),
   ("signal", .dict (gatherSignalData g)),
   ("item", .dict (gatherPrototypes g.item none itemFields)),
   ("tile", .dict (gatherPrototypes g.tile none tileFields))]

end Verif
