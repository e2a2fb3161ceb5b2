import Verif.Spec.Accept
import Verif.Spec.Doubles
import Verif.Spec.Exportable
import Verif.Spec.Behaviours
/-!
# The data from which an entity can be made (C88)

Outside the model, and therefore not counted as good here although the code takes some of them: coordinates that are no
numbers, an entity without position, names that are no texts if nothing is
checked, entity numbers other than whole numbers, texts of digits that are not ASCII, and
infinite volumes.
-/
set_option autoImplicit false

namespace Verif.Spec

/-- If the key is given, its value is good. -/
def Given (d : Dict) (k : String) (P : Val → Prop) : Prop := ∀ v, List.lookup k d = some v → P v

/-- The key must be given with a good value. -/
def Needed (d : Dict) (k : String) (P : Val → Prop) : Prop := ∃ v, List.lookup k d = some v ∧ P v

/-- Null, or a good value. -/
def OrNull (P : Val → Prop) (v : Val) : Prop := v = .none ∨ P v

/-- An object of which this holds. -/
def Having (P : Dict → Prop) (v : Val) : Prop := ∃ d, v = .dict d ∧ P d

/-- A list of good objects. -/
def Each (P : Dict → Prop) (v : Val) : Prop := ∃ l, Series v l ∧ ∀ u ∈ l, Having P u

/-- One of some words. -/
def WordOf (l : List String) (v : Val) : Prop := ∃ s ∈ l, v = .str s

/-- A name of the static table of the library. -/
def ListedName (env : Env) (v : Val) : Prop := ∃ s row, v = .str s ∧ List.lookup s env.defaults = some row ∧ ¬ Nothing row

/-- A point in the plane. -/
def PointOk (v : Val) : Prop := Having (fun d => Needed d "x" IsNum ∧ Needed d "y" IsNum) v

/-- A value that can be understood as a whole number. -/
def WholeOk (v : Val) : Prop := ∃ z, Whole v z

/-- Only these keys. -/
def Only (ks : List String) (d : Dict) : Prop := ∀ k, List.lookup k d ≠ none → k ∈ ks

/-- The settings of each behaviour are good. -/
def BehaviourOk (env : Env) (strict : Bool) (d : Dict) : Mx → Prop
  | .Items => Given d "items" (Having (fun e => ∀ k x, (k, x) ∈ e → k = "" ∨ List.lookup k env.signals ≠ none))
  | .Train => Given d "orientation" (OrNull Countable)
  | .Cargo => Given d "inventory" (OrNull (Having (fun e => Given e "filters" (Each (fun f =>
      Needed f "name" (OrNull (ListedName env)) ∧ Needed f "index" CanBeKey)))))
  | .Color => Given d "color" (OrNull ColorOk)
  | .Container => Given d "bar" (OrNull WholeOk)
  | .Inserter => Given d "override_stack_size" (OrNull WholeOk) ∧ Given d "pickup_position" (OrNull PointOk) ∧
      Given d "drop_position" (OrNull PointOk)
  | .FilterInserter => Given d "filters" (OrNull (Each (fun f => Only ["name", "index"] f ∧ Given f "name" (SignalOk env)))) ∧
      Given d "filter_mode" (OrNull (WordOf ["whitelist", "blacklist"]))
  | .InfinityContainer => Needed d "infinity_settings" (Having (fun e => Needed e "remove_unfiltered_items" IsAny ∧
      Needed e "filters" (OrNull (Each (fun f => Needed f "mode" (WordOf ["at-least", "at-most", "exactly"]) ∧
        Needed f "count" IsAny ∧ Needed f "name" (OrNull (ListedName env)) ∧ Needed f "index" CanBeKey)))))
  | .Recipe => Given d "recipe" (fun v => strict = false ∨
      OrNull (fun v => ∃ s, v = .str s ∧ List.lookup s env.recipes ≠ none) v)
  | .Requester => Given d "request_filters" (OrNull (Each (fun f => Needed f "name" (OrNull (ListedName env)) ∧
      Needed f "count" WholeOk ∧ Needed f "index" CanBeKey)))
  | .Silo => Given d "auto_launch" (OrNull (fun v => (∃ t, v = .bool t) ∨ ∃ n, v = .num n ∧ (n.val = 0 ∨ n.val = 1)))
  | .Speaker => Given d "parameters" (OrNull (Having (fun e => Needed e "playback_volume" (fun v => ∃ q, FloatOf v q) ∧
      Needed e "playback_globally" IsAny ∧ Needed e "allow_polyphony" IsAny))) ∧
      Given d "alert_parameters" (OrNull (Having (fun e => Needed e "show_alert" IsAny ∧ Needed e "show_on_map" IsAny ∧
        Needed e "alert_message" IsAny ∧
        Given e "icon_signal_id" (Having (fun i => Given i "name" (OrNull (ListedName env)))))))
  | .Splitter => Given d "input_priority" (OrNull (WordOf ["right", "left"])) ∧
      Given d "output_priority" (OrNull (WordOf ["right", "left"])) ∧ Given d "filter" (OrNull (ListedName env))
  | .Underground => Needed d "type" (WordOf ["input", "output"])
  | .Variation => Needed d "variation" (fun v => (∃ t, v = .bool t) ∨ ∃ n, v = .num n ∧ 0 ≤ n.val ∧ n.val ≤ 255)
  | _ => True

/-- The settings of each behaviour inside `control_behavior` are good, apart from the combinators. -/
def ControlsOk (env : Env) (d : Dict) : Mx → Prop
  | .Filters => Given d "filters" (Each (fun f => Only ["signal", "count", "index"] f ∧ Given f "signal" (SignalOk env)))
  | .CircuitCondition => Given d "circuit_condition" (OrNull (Having (fun e => Given e "first_signal" (SignalOk env) ∧
      Given e "second_signal" (SignalOk env) ∧
      (List.lookup "second_signal" e = none → Given e "constant" (SignalOk env)) ∧
      Given e "comparator" (OrNull (WordOf [">", "<", "=", "≥", "≤", "!="])))))
  | .Speaker => Given d "circuit_parameters"
      (Having (fun e => Only ["signal_value_is_pitch", "instrument_id", "note_id"] e))
  | m => ∀ k, (m, k) ∈ signalSettings → Given d k (SignalOk env)

/-- An operand of a combinator: a constant without a signal beside it, or a signal, or nothing. -/
def OperandOk (env : Env) (d : Dict) (const signal : String) : Prop :=
  (valueAt d const ≠ .none ∧ SignalOk env (valueAt d const) ∧ List.lookup signal d = none) ∨
  (valueAt d const = .none ∧ Given d signal (OrNull (Having (fun s => Needed s "name" (SignalOk env)))))

/-- The conditions of a combinator: an operator out of `ops`, three operands, and nothing else but the keys of `more`. -/
def ConditionsOk (env : Env) (operator : String) (ops : List String) (first : String) (more : List String) (d : Dict) :
    Prop :=
  Only ([operator, first, "first_signal", "second_constant", "second_signal", "output_constant", "output_signal"] ++ more) d ∧
  Needed d operator (OrNull (WordOf ops)) ∧ OperandOk env d first "first_signal" ∧
  OperandOk env d "second_constant" "second_signal" ∧ OperandOk env d "output_constant" "output_signal"

/-- The data under `control_behavior` of an entity of the class `c` are good. Inserters ignore keys that they do not
know. -/
def ControlOk (env : Env) (c : Klass) (d : Dict) : Prop :=
  List.lookup "self" d = none ∧ List.lookup "_entity" d = none ∧
  if c.cbChain = [.Arithmetic, .Combinator] then
    Only ["arithmetic_conditions"] d ∧ Needed d "arithmetic_conditions" (Having (ConditionsOk env "operation"
      ["*", "/", "+", "-", "%", "^", "<<", ">>", "AND", "OR", "XOR"] "first_constant" []))
  else if c.cbChain = [.Decider, .Combinator] then
    Only ["decider_conditions"] d ∧ Needed d "decider_conditions" (Having (ConditionsOk env "comparator"
      [">", "<", "=", "≥", "≤", "!="] "constant" ["copy_count_from_input"]))
  else
    (.Inserter ∈ c.cbChain ∨ ∀ k, List.lookup k d ≠ none → ∃ m ∈ c.cbChain, k ∈ controlSettings m) ∧
    ∀ m ∈ c.cbChain, ControlsOk env d m

/-- The data of an entity of the class `c` are good. -/
structure Settable (env : Env) (strict : Bool) (c : Klass) (d : Dict) : Prop where
  known : ∀ k, List.lookup k d ≠ none → k ∈ ["name", "position", "strict", "direction", "entity_number", "connections",
    "control_behavior"] ∨ ∃ m ∈ c.chain, k ∈ settings m
  position : Needed d "position" PointOk
  number : Given d "entity_number" (OrNull IsInt)
  direction : Given d "direction" Countable
  behaviours : ∀ m ∈ c.chain, BehaviourOk env strict d m
  control : Given d "control_behavior" (Having (ControlOk env c))

/-- The object is checked against the tables unless `strict` is given as something that counts as nothing. -/
def StrictIn (d : Dict) (s : Bool) : Prop := s = false ↔ Needed d "strict" Nothing

/-- The class of the entities of a name: that of its type with the custom behaviours of the blueprint, or the one without
any behaviour if nothing is checked. -/
def ClassOf (env : Env) (p : Bp) (strict : Bool) (name : String) (k : Klass) : Prop :=
  if strict then ∃ ty ms, TypeOf env name ty ∧ List.lookup ty entityPrototypes = some ms ∧
    Klass.extend 0 Klass.entity (customFor p ty ++ ms) = .ok k
  else k = Klass.entity

/-- The blueprint has at most one custom behaviour for each type, and none that changes the control behaviour. -/
def PlainCustom (env : Env) (p : Bp) : Prop :=
  ∀ name ty, TypeOf env name ty → customFor p ty = [] ∨ ∃ m ∈ plainBehaviours, customFor p ty = [m]

end Verif.Spec
