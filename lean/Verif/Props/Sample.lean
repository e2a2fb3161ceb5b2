import Verif.Model.Blueprint
/-!
# A small data set used by the examples beside the theorems
-/
set_option autoImplicit false

namespace Verif.Sample

def box (a b c d : Rat) : Val :=
  .dict [("left_top", .dict [("x", .flt a), ("y", .flt b)]),
    ("right_bottom", .dict [("x", .flt c), ("y", .flt d)])]

def proto (type : String) (b : Val) : Val := .dict [("type", .str type), ("selection_box", b)]

def env : Env :=
  { entities :=
      [("belt", proto "transport-belt" (box (-1/2) (-1/2) (1/2) (1/2))),
       ("fast-belt", proto "transport-belt" (box (-1/2) (-1/2) (1/2) (1/2))),
       ("dec", proto "decider-combinator" (box (-1/2) (-1) (1/2) 1)),
       ("ari", proto "arithmetic-combinator" (box (-1/2) (-1) (1/2) 1)),
       ("lamp", proto "lamp" (box (-1/2) (-1/2) (1/2) (1/2))),
       ("asm", proto "assembling-machine" (box (-3/2) (-3/2) (3/2) (3/2))),
       ("ins", proto "inserter" (box (-1/2) (-1/2) (1/2) (1/2))),
       ("acc", proto "accumulator" (box (-1) (-1) 1 1)),
       ("loco", proto "locomotive" (box (-1/2) (-3) (1/2) 3))],
    recipes := [("gear", .dict [])],
    items := [("plate", .dict [])],
    tiles := [("stone", .dict [])],
    signals := [("iron", .dict [("type", .str "item")]), ("A", .dict [("type", .str "virtual")])] }

def pos (x y : Int) : Val := .dict [("x", .int x), ("y", .int y)]

def sig (n t : String) : Val := .dict [("name", .str n), ("type", .str t)]

/-- Keywords of a plain entity. -/
def ent (name : String) (x y : Int) : Dict := [("name", .str name), ("position", pos x y)]

def decData : Val :=
  .dict [("entity_number", .int 7), ("name", .str "dec"), ("position", pos 3 4), ("direction", .int 2),
    ("connections", .dict [("1", .dict [("red", .list
      [.dict [("entity_id", .int 9), ("circuit_id", .int 2)]])])])]

def ariData : Val :=
  .dict [("entity_number", .int 9), ("name", .str "ari"), ("position", pos 1 2),
    ("control_behavior", .dict [("arithmetic_conditions", .dict
      [("first_signal", sig "A" "virtual"), ("second_constant", .int 3), ("operation", .str "*"),
       ("output_signal", sig "iron" "item")])])]

def locoData : Val :=
  .dict [("entity_number", .int 12), ("name", .str "loco"), ("position", pos 1 5),
    ("orientation", .flt (1/4))]

/-- A blueprint with three entities, one wire, an icon and a schedule. -/
def data : Val :=
  .dict [("blueprint", .dict
    [("item", .str "blueprint"), ("label", .str "sample"), ("version", .int 5),
     ("icons", .list [.dict [("index", .int 2), ("signal", sig "iron" "item")]]),
     ("entities", .list [decData, ariData, locoData]),
     ("schedules", .list [.dict [("locomotives", .list [.int 12]), ("schedule", .list [])]])])]

/-- A computation with a given result. -/
theorem run_eq {α : Type} {x : M α} {w : World} {a : Except Exc α} (h : (x w).1 = a) : x w = (a, (x w).2) :=
  Prod.ext h rfl

/-- The world after loading `data` into blueprint 0 of an empty world. -/
def loaded : World := (load 0 data (World.init env)).2

/-- The world after placing three belts in blueprint 0 of an empty world. -/
def belts : World :=
  ((Op.make 0 (ent "belt" 5 5)).run
    ((Op.make 0 (ent "belt" 0 0)).run
      ((Op.make 0 (ent "belt" 7 0)).run (World.init env)).2).2).2

theorem loaded_reachable : Reachable env loaded :=
  Reachable.step (.load 0 data) .init trivial

theorem belts_reachable : Reachable env belts :=
  .step (.make 0 (ent "belt" 5 5)) (.step (.make 0 (ent "belt" 0 0))
    (.step (.make 0 (ent "belt" 7 0)) .init trivial) trivial) trivial

/-- The export of the decider of the sample blueprint. -/
def decOut : Dict :=
  [("entity_number", .int 2), ("name", .str "dec"), ("position", pos 3 4),
    ("connections", .dict [("1", .dict [("red", .list
      [.dict [("entity_id", .int 1), ("circuit_id", .int 1)]])])]), ("direction", .int 2)]

def ariOut : Dict :=
  [("entity_number", .int 1), ("name", .str "ari"), ("position", pos 1 2),
    ("connections", .dict [("2", .dict [("red", .list
      [.dict [("entity_id", .int 2), ("circuit_id", .int 2)]])])]),
    ("control_behavior", .dict [("arithmetic_conditions", .dict
      [("operation", .str "*"), ("first_signal", sig "A" "virtual"), ("second_constant", .int 3),
       ("output_signal", sig "iron" "item")])])]

def locoOut : Dict :=
  [("entity_number", .int 3), ("name", .str "loco"), ("position", pos 1 5), ("orientation", .flt (1/4))]

/-- The contents of the export of the sample blueprint, with the given entities. -/
def out (ents : List Val) : Dict :=
  [("item", .str "blueprint"), ("label", .str "sample"), ("entities", .list ents),
   ("icons", .list [.dict [("index", .int 2), ("signal", sig "iron" "item")]]), ("version", .int 5),
   ("schedules", .list [.dict [("locomotives", .list [.int 3]), ("schedule", .list [])]])]

theorem loaded_out : (toJson 0 loaded).1 =
    .ok (.dict [("blueprint", .dict (out [.dict ariOut, .dict decOut, .dict locoOut]))]) := by
  decide +kernel

theorem removed_out : (toJson 0 (layerRemove 0 (.ent 1) loaded).2).1 =
    .ok (.dict [("blueprint", .dict (out [.dict decOut, .dict locoOut]))]) := by
  decide +kernel

end Verif.Sample
