import Verif.Spec.Names
/-!
# Specification vocabulary: the settings of each type of entity

Written out by hand, independently of the table of behaviours.
-/
set_option autoImplicit false

namespace Verif.Spec

/-- The settings that the library takes for entities of a type, besides those of every entity. -/
def typeSettings : String → List String
  | "beacon" => ["items"]
  | "logistic-container" => ["request_from_buffers", "request_filters"]
  | "infinity-container" => ["infinity_settings"]
  | "assembling-machine" => ["recipe"]
  | "rocket-silo" => ["auto_launch"]
  | "inserter" => ["filters", "filter_mode", "override_stack_size", "drop_position", "pickup_position"]
  | "programmable-speaker" => ["parameters", "alert_parameters"]
  | "train-stop" => ["station", "color"]
  | "loader" => ["type"]
  | "splitter" => ["input_priority", "output_priority", "filter"]
  | "underground-belt" => ["type"]
  | "artillery-wagon" => ["orientation"]
  | "cargo-wagon" => ["orientation", "inventory"]
  | "fluid-wagon" => ["orientation"]
  | "locomotive" => ["orientation", "items"]
  | _ => []

/-- The settings inside `control_behavior` that the library takes for entities of a type. -/
def typeControls : String → List String
  | "accumulator" => ["output_signal"]
  | "arithmetic-combinator" => ["arithmetic_conditions"]
  | "decider-combinator" => ["decider_conditions"]
  | "constant-combinator" => ["filters", "is_on"]
  | "logistic-container" => ["circuit_mode_of_operation"]
  | "inserter" =>
      ["circuit_condition", "circuit_mode_of_operation", "circuit_set_stack_size", "stack_control_input_signal",
       "circuit_hand_read_mode", "circuit_read_hand_contents"]
  | "lamp" => ["circuit_condition", "use_colors"]
  | "mining-drill" =>
      ["circuit_condition", "circuit_enable_disable", "circuit_read_resources", "circuit_resource_read_mode"]
  | "offshore-pump" => ["circuit_condition"]
  | "power-switch" => ["circuit_condition"]
  | "pump" => ["circuit_condition"]
  | "programmable-speaker" => ["circuit_condition", "circuit_parameters"]
  | "rail-chain-signal" =>
      ["circuit_read_signal", "red_output_signal", "orange_output_signal", "green_output_signal", "blue_output_signal"]
  | "rail-signal" =>
      ["circuit_read_signal", "red_output_signal", "orange_output_signal", "green_output_signal", "circuit_close_signal"]
  | "roboport" =>
      ["read_logistics", "read_robot_stats", "available_construction_output_signal",
       "total_construction_output_signal", "available_logistic_output_signal", "total_logistic_output_signal"]
  | "train-stop" =>
      ["circuit_condition", "circuit_enable_disable", "read_from_train", "read_stopped_train", "train_stopped_signal"]
  | "transport-belt" =>
      ["circuit_condition", "circuit_enable_disable", "circuit_read_hand_contents", "circuit_contents_read_mode"]
  | _ => []

/-- The types of machines that take modules in the game, apart from beacons. -/
def moduleMachines : List String := ["assembling-machine", "furnace", "lab", "mining-drill", "rocket-silo"]

end Verif.Spec
