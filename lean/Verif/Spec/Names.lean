import Verif.Spec.Load
/-!
# Specification vocabulary for names and settings
-/
set_option autoImplicit false

namespace Verif.Spec

/-- A name without prototype data. -/
def Unknown (table : Dict) (s : String) : Prop := List.lookup s table = none

/-- The check of names is on: the keyword `strict` is not given or true. -/
def Strict (kw : Dict) : Prop := ∀ v, List.lookup "strict" kw = some v → v.truthy = true

/-- The settings inside `control_behavior` that hold one signal, with the class they belong to. -/
def signalSettings : List (Mx × String) :=
  [(.Accumulator, "output_signal"),
   (.TrainSignal, "red_output_signal"), (.TrainSignal, "orange_output_signal"),
   (.TrainSignal, "green_output_signal"), (.ChainSignal, "blue_output_signal"),
   (.Inserter, "stack_control_input_signal"),
   (.Roboport, "available_construction_output_signal"), (.Roboport, "total_construction_output_signal"),
   (.Roboport, "available_logistic_output_signal"), (.Roboport, "total_logistic_output_signal"),
   (.Station, "train_stopped_signal")]

/-- The attributes of control behaviours that hold one signal: the above and the operands of conditions. -/
def signalAttrs : List String := signalSettings.map (·.2) ++ ["first", "second", "output"]

/-- The ways a setting names a signal: a string, or an object with the name in it. -/
inductive NamesSignal (s : String) : Val → Prop where
  | str : NamesSignal s (.str s)
  | obj (d : Dict) : List.lookup "name" d = some (.str s) → NamesSignal s (.dict d)

/-- The settings every entity understands. -/
def entityKeys : List String :=
  ["name", "position", "strict", "direction", "entity_number", "connections", "control_behavior"]

/-- The settings each behaviour adds. -/
def settings : Mx → List String
  | .Items => ["items"]
  | .Train => ["orientation"]
  | .Cargo => ["inventory"]
  | .Color => ["color"]
  | .Container => ["bar"]
  | .Inserter => ["override_stack_size", "drop_position", "pickup_position"]
  | .FilterInserter => ["filters", "filter_mode"]
  | .InfinityContainer => ["infinity_settings"]
  | .Recipe => ["recipe"]
  | .Requester => ["request_from_buffers", "request_filters"]
  | .Silo => ["auto_launch"]
  | .Speaker => ["parameters", "alert_parameters"]
  | .Splitter => ["input_priority", "output_priority", "filter"]
  | .Station => ["station"]
  | .Underground => ["type"]
  | .Variation => ["variation"]
  | _ => []

/-- The settings inside `control_behavior` that each behaviour adds, apart from the combinators. -/
def controlSettings : Mx → List String
  | .Accumulator => ["output_signal"]
  | .Filters => ["filters"]
  | .ConstantCombinator => ["is_on"]
  | .TransportBelt => ["circuit_enable_disable", "circuit_read_hand_contents", "circuit_contents_read_mode"]
  | .TrainSignal => ["circuit_read_signal", "red_output_signal", "orange_output_signal", "green_output_signal"]
  | .ChainSignal => ["blue_output_signal"]
  | .RailSignal => ["circuit_close_signal"]
  | .CircuitCondition => ["circuit_condition"]
  | .Lamp => ["use_colors"]
  | .MiningDrill => ["circuit_enable_disable", "circuit_read_resources", "circuit_resource_read_mode"]
  | .Inserter =>
      ["circuit_mode_of_operation", "circuit_set_stack_size", "stack_control_input_signal",
       "circuit_hand_read_mode", "circuit_read_hand_contents"]
  | .Requester => ["circuit_mode_of_operation"]
  | .Roboport =>
      ["read_logistics", "read_robot_stats", "available_construction_output_signal",
       "total_construction_output_signal", "available_logistic_output_signal", "total_logistic_output_signal"]
  | .Speaker => ["circuit_parameters"]
  | .Station => ["circuit_enable_disable", "read_from_train", "read_stopped_train", "train_stopped_signal"]
  | _ => []

/-- The two kinds of combinators with a condition. -/
inductive Combi where
  | arithmetic
  | decider
deriving DecidableEq, Repr

/-- The prototype type. -/
def Combi.proto : Combi → String
  | .arithmetic => "arithmetic-combinator"
  | .decider => "decider-combinator"

/-- The setting inside `control_behavior`. -/
def Combi.field : Combi → String
  | .arithmetic => "arithmetic_conditions"
  | .decider => "decider_conditions"

/-- The settings inside the conditions. -/
def Combi.keys : Combi → List String
  | .arithmetic =>
      ["operation", "first_signal", "first_constant", "second_signal", "second_constant", "output_signal",
       "output_constant"]
  | .decider =>
      ["comparator", "first_signal", "constant", "second_signal", "second_constant", "output_signal",
       "output_constant", "copy_count_from_input"]

end Verif.Spec
