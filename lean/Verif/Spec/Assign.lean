import Verif.Spec.RoundTrip
/-!
# Specification vocabulary for assigning settings
-/
set_option autoImplicit false

namespace Verif.Spec

/-- The attributes in which a setting is kept. -/
def keptIn (k : String) : List String :=
  if k = "inventory" then ["inventory_bar", "inventory_filters"]
  else if k = "infinity_settings" then ["infinity_settings_remove_unfiltered_items", "infinity_settings_filters"]
  else [k]

/-- The settings made of several parts that are stored one by one. -/
def compoundSettings : List String :=
  ["inventory", "infinity_settings", "infinity_settings_filters", "request_filters"]

/-- `v` is one of the given words or `None`. -/
def OneOf (words : List String) (v : Val) : Prop := v = .none ∨ ∃ s ∈ words, v = .str s

/-- `v` is a number (`True` and `False` are numbers) between `a` and `b`. -/
def Between (a b : Rat) (v : Val) : Prop := ∃ n : Num, (v = .num n ∨ ∃ c : Bool, v = .bool c ∧ n = .int (if c then 1 else 0)) ∧ a ≤ n.val ∧ n.val ≤ b

/-- The settings with a closed range, with the values that are allowed in them. -/
def Allowed (env : Env) (k : String) (v : Val) : Prop :=
  (k = "type" ∧ OneOf ["input", "output"] v ∧ v ≠ .none) ∨
  (k = "filter_mode" ∧ OneOf ["whitelist", "blacklist"] v) ∨
  (k = "input_priority" ∧ OneOf ["left", "right"] v) ∨
  (k = "output_priority" ∧ OneOf ["left", "right"] v) ∨
  (k = "recipe" ∧ OneOf (env.recipes.map (·.1)) v) ∨
  (k = "variation" ∧ Between 0 255 v) ∨
  (k = "auto_launch" ∧ (v = .none ∨ Between 0 0 v ∨ Between 1 1 v)) ∨
  k = "station" ∨ k = "request_from_buffers"

/-- The settings in question. -/
def rangedSettings : List String :=
  ["type", "filter_mode", "input_priority", "output_priority", "recipe", "variation", "auto_launch", "station",
   "request_from_buffers"]

/-- The words for the operator of each kind of control behaviour. -/
def comparators : List String := [">", "<", "=", "≥", "≤", "!="]
def operations : List String := ["*", "/", "+", "-", "%", "^", "<<", ">>", "AND", "OR", "XOR"]

/-- The attributes of each kind of control behaviour. -/
def controlAttrs : Mx → List String
  | .CircuitCondition => ["first", "second", "comparator"]
  | .Combinator => ["operator", "first", "second", "output"]
  | .Decider => ["copy_count_from_input"]
  | m => controlSettings m

/-- The key of a part of a circuit condition. -/
def conditionKey (y : String) : String := if y = "comparator" then y else y ++ "_signal"

/-- The conditions `cond'` of a combinator are `cond` with part `y` given as `v`.  The operator stands under the key
`word`.  An operand that was given as a signal is given as another signal. -/
inductive PartGiven (word : String) (cond : Dict) (v : Val) : String → Dict → Prop where
  | operator : PartGiven word cond v "operator" (Dict.set cond word v)
  | operand {y : String} : y ∈ ["first", "second", "output"] → List.lookup (y ++ "_signal") cond ≠ none →
      PartGiven word cond v y (Dict.set cond (y ++ "_signal") (.dict [("name", v)]))

end Verif.Spec
