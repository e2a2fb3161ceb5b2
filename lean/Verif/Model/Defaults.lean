import Verif.Model.Env
/-!
# The static table of names

`defaultentities.defaultentities` (`defaultentities.py:9-1095`), which `util.NameStr` consults.  Only the entry `type`
of each row is modelled; nothing else of a row is read.
-/
set_option autoImplicit false

namespace Verif

/-- The rows of the table: name and type (`defaultentities.py:9-1095`). -/
def defaultNames : List (String × String) := [
  ("programmable-speaker", "item"), ("heat-exchanger", "item"), ("heat-pipe", "item"), ("nuclear-reactor", "item"),
  ("centrifuge", "item"), ("steam-turbine", "item"), ("tank", "item"), ("car", "item"), ("cargo-wagon", "item"),
  ("fluid-wagon", "item"), ("locomotive", "item"), ("light-armor", "item"), ("heavy-armor", "item"),
  ("modular-armor", "item"), ("grenade", "item"), ("cluster-grenade", "item"), ("flamethrower", "item"),
  ("flamethrower-ammo", "item"), ("rocket-launcher", "item"), ("rocket", "item"), ("explosive-rocket", "item"),
  ("atomic-bomb", "item"), ("combat-shotgun", "item"), ("shotgun", "item"), ("shotgun-shell", "item"),
  ("piercing-shotgun-shell", "item"), ("submachine-gun", "item"), ("pistol", "item"), ("firearm-magazine", "item"),
  ("piercing-rounds-magazine", "item"), ("uranium-rounds-magazine", "item"), ("cannon-shell", "item"),
  ("explosive-cannon-shell", "item"), ("uranium-cannon-shell", "item"), ("explosive-uranium-cannon-shell", "item"),
  ("power-armor", "item"), ("power-armor-mk2", "item"), ("energy-shield-equipment", "item"),
  ("energy-shield-mk2-equipment", "item"), ("solar-panel-equipment", "item"), ("fusion-reactor-equipment", "item"),
  ("battery-equipment", "item"), ("battery-mk2-equipment", "item"), ("personal-laser-defense-equipment", "item"),
  ("discharge-defense-equipment", "item"), ("exoskeleton-equipment", "item"),
  ("personal-roboport-equipment", "item"), ("personal-roboport-mk2-equipment", "item"),
  ("night-vision-equipment", "item"), ("discharge-defense-remote", "item"), ("destroyer-capsule", "item"),
  ("distractor-capsule", "item"), ("defender-capsule", "item"), ("slowdown-capsule", "item"),
  ("poison-capsule", "item"), ("stone", "item"), ("solid-fuel", "item"), ("stone-brick", "item"),
  ("stone-path", "tile"), ("landfill", "item"), ("concrete", "tile"), ("hazard-concrete", "item"),
  ("hazard-concrete-left", "tile"), ("hazard-concrete-right", "tile"), ("refined-concrete", "tile"),
  ("refined-hazard-concrete", "item"), ("refined-hazard-concrete-left", "tile"),
  ("refined-hazard-concrete-right", "tile"), ("iron-axe", "item"), ("steel-axe", "item"), ("repair-pack", "item"),
  ("blueprint", "item"), ("deconstruction-planner", "item"), ("blueprint-book", "item"), ("copper-cable", "item"),
  ("red-wire", "item"), ("green-wire", "item"), ("beacon", "item"), ("small-electric-pole", "item"),
  ("medium-electric-pole", "item"), ("substation", "item"), ("big-electric-pole", "item"),
  ("offshore-pump", "item"), ("small-lamp", "item"), ("solar-panel", "item"), ("arithmetic-combinator", "item"),
  ("decider-combinator", "item"), ("constant-combinator", "item"), ("splitter", "item"), ("fast-splitter", "item"),
  ("express-splitter", "item"), ("transport-belt", "item"), ("fast-transport-belt", "item"),
  ("express-transport-belt", "item"), ("underground-belt", "item"), ("fast-underground-belt", "item"),
  ("express-underground-belt", "item"), ("assembling-machine-1", "item"), ("assembling-machine-2", "item"),
  ("assembling-machine-3", "item"), ("wooden-chest", "item"), ("iron-chest", "item"), ("steel-chest", "item"),
  ("infinity-chest", "item"), ("logistic-chest-passive-provider", "item"),
  ("logistic-chest-active-provider", "item"), ("logistic-chest-storage", "item"),
  ("logistic-chest-requester", "item"), ("logistic-chest-buffer", "item"), ("storage-tank", "item"),
  ("burner-inserter", "item"), ("inserter", "item"), ("long-handed-inserter", "item"), ("fast-inserter", "item"),
  ("filter-inserter", "item"), ("stack-inserter", "item"), ("stack-filter-inserter", "item"), ("gate", "item"),
  ("stone-wall", "item"), ("radar", "item"), ("rail", "item"), ("straight-rail", "item"), ("curved-rail", "item"),
  ("land-mine", "item"), ("train-stop", "item"), ("rail-signal", "item"), ("rail-chain-signal", "item"),
  ("lab", "item"), ("rocket-silo", "item"), ("chemical-plant", "item"), ("oil-refinery", "item"),
  ("stone-furnace", "item"), ("steel-furnace", "item"), ("electric-furnace", "item"), ("pumpjack", "item"),
  ("burner-mining-drill", "item"), ("electric-mining-drill", "item"), ("pump", "item"), ("pipe", "item"),
  ("pipe-to-ground", "item"), ("electronic-circuit", "item"), ("advanced-circuit", "item"), ("boiler", "item"),
  ("steam-engine", "item"), ("accumulator", "item"), ("roboport", "item"), ("construction-robot", "item"),
  ("logistic-robot", "item"), ("power-switch", "item"), ("gun-turret", "item"), ("laser-turret", "item"),
  ("flamethrower-turret", "item"), ("productivity-module", "item"), ("productivity-module-2", "item"),
  ("productivity-module-3", "item"), ("effectivity-module", "item"), ("effectivity-module-2", "item"),
  ("effectivity-module-3", "item"), ("speed-module", "item"), ("speed-module-2", "item"),
  ("speed-module-3", "item"), ("water", "fluid"), ("crude-oil", "fluid"), ("petroleum-gas", "fluid"),
  ("heavy-oil", "fluid"), ("light-oil", "fluid"), ("sulfuric-acid", "fluid"), ("lubricant", "fluid"),
  ("steam", "fluid"), ("advanced-oil-processing", "recipe"), ("raw-fish", "item"), ("wood", "item"),
  ("raw-wood", "item"), ("iron-ore", "item"), ("iron-plate", "item"), ("copper-ore", "item"),
  ("copper-plate", "item"), ("steel-plate", "item"), ("coal", "item"), ("uranium-ore", "item"),
  ("plastic-bar", "item"), ("sulfur", "item"), ("crude-oil-barrel", "item"), ("heavy-oil-barrel", "item"),
  ("light-oil-barrel", "item"), ("lubricant-barrel", "item"), ("petroleum-gas-barrel", "item"),
  ("sulfuric-acid-barrel", "item"), ("water-barrel", "item"), ("empty-barrel", "item"),
  ("processing-unit", "item"), ("engine-unit", "item"), ("electric-engine-unit", "item"), ("battery", "item"),
  ("explosives", "item"), ("flying-robot-frame", "item"), ("low-density-structure", "item"),
  ("rocket-fuel", "item"), ("rocket-control-unit", "item"), ("satellite", "item"), ("uranium-235", "item"),
  ("uranium-238", "item"), ("uranium-fuel-cell", "item"), ("used-up-uranium-fuel-cell", "item"),
  ("science-pack-1", "item"), ("science-pack-2", "item"), ("science-pack-3", "item"),
  ("military-science-pack", "item"), ("production-science-pack", "item"), ("high-tech-science-pack", "item"),
  ("space-science-pack", "item"), ("iron-stick", "item"), ("iron-gear-wheel", "item"),
  ("signal-anything", "virtual"), ("signal-each", "virtual"), ("signal-everything", "virtual"),
  ("signal-0", "virtual"), ("signal-1", "virtual"), ("signal-2", "virtual"), ("signal-3", "virtual"),
  ("signal-4", "virtual"), ("signal-5", "virtual"), ("signal-6", "virtual"), ("signal-7", "virtual"),
  ("signal-8", "virtual"), ("signal-9", "virtual"), ("signal-A", "virtual"), ("signal-B", "virtual"),
  ("signal-C", "virtual"), ("signal-D", "virtual"), ("signal-E", "virtual"), ("signal-F", "virtual"),
  ("signal-G", "virtual"), ("signal-H", "virtual"), ("signal-I", "virtual"), ("signal-J", "virtual"),
  ("signal-K", "virtual"), ("signal-L", "virtual"), ("signal-M", "virtual"), ("signal-N", "virtual"),
  ("signal-O", "virtual"), ("signal-P", "virtual"), ("signal-Q", "virtual"), ("signal-R", "virtual"),
  ("signal-S", "virtual"), ("signal-T", "virtual"), ("signal-U", "virtual"), ("signal-V", "virtual"),
  ("signal-W", "virtual"), ("signal-X", "virtual"), ("signal-Y", "virtual"), ("signal-Z", "virtual"),
  ("signal-blue", "virtual"), ("signal-red", "virtual"), ("signal-green", "virtual"), ("signal-yellow", "virtual"),
  ("signal-cyan", "virtual"), ("signal-pink", "virtual"), ("signal-white", "virtual"), ("signal-grey", "virtual"),
  ("signal-black", "virtual")]

/-- The table as `util.NameStr` sees it. -/
def defaultTable : Dict := defaultNames.map (fun p => (p.1, .dict [("type", .str p.2)]))

end Verif
