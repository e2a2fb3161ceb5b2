import Verif.Spec.Behaviours
import Verif.Spec.Load
import Verif.Spec.Doubles
import Verif.Spec.Moved
/-!
# Specification vocabulary: settings as the game writes them, and as they come back in the export
-/
set_option autoImplicit false

namespace Verif.Spec

/-- Python's `==` between JSON values: the order of keys does not matter, numbers are compared by value. -/
inductive PyEq : Val → Val → Prop where
  | refl (v : Val) : PyEq v v
  | num (a b : Num) : a.val = b.val → PyEq (.num a) (.num b)
  | list (l l' : List Val) : List.Forall₂ PyEq l l' → PyEq (.list l) (.list l')
  | dict (d d' : Dict) : (∀ k, (List.lookup k d).isSome = (List.lookup k d').isSome) →
      (∀ k v v', List.lookup k d = some v → List.lookup k d' = some v' → PyEq v v') → PyEq (.dict d) (.dict d')

def IsInt (v : Val) : Prop := ∃ z : Int, v = .int z
def IsNum (v : Val) : Prop := ∃ n : Num, v = .num n
def IsText (v : Val) : Prop := ∃ s : String, v = .str s
def IsFlag (v : Val) : Prop := ∃ b : Bool, v = .bool b
/-- A number between zero and one. -/
def IsShare (v : Val) : Prop := ∃ n : Num, v = .num n ∧ 0 ≤ n.val ∧ n.val ≤ 1
/-- A number that is a float. -/
def IsDouble (v : Val) : Prop := ∃ n : Num, v = .num n ∧ Binary64 n.val
def IsAny (_ : Val) : Prop := True

/-- An object with the keys of `req`, possibly those of `opt`, and no others; the values are of the given forms. -/
def Record (req opt : List (String × (Val → Prop))) (v : Val) : Prop :=
  ∃ d, v = .dict d ∧ (∀ k, List.lookup k d ≠ none → k ∈ req.map (·.1) ++ opt.map (·.1)) ∧
    (∀ p ∈ req, ∃ x, List.lookup p.1 d = some x ∧ p.2 x) ∧ ∀ p ∈ opt, ∀ x, List.lookup p.1 d = some x → p.2 x

/-- The entry `index` of an object. -/
def indexOf : Val → Option Val
  | .dict d => List.lookup "index" d
  | _ => none

/-- A list of objects with different indices. -/
def Slots (P : Val → Prop) (v : Val) : Prop :=
  ∃ l, v = .list l ∧ (∀ x ∈ l, P x) ∧ l.Pairwise (fun x y => indexOf x ≠ indexOf y)

def SomeSlots (P : Val → Prop) (v : Val) : Prop := Slots P v ∧ v ≠ .list []

/-- A list that is not empty. -/
def ListOf (P : Val → Prop) (v : Val) : Prop := ∃ l, v = .list l ∧ l ≠ [] ∧ ∀ x ∈ l, P x

/-- A signal with its type. -/
def IsSignal (env : Env) (v : Val) : Prop :=
  ∃ d s t, v = .dict d ∧ (∀ k, List.lookup k d ≠ none → k = "name" ∨ k = "type") ∧ List.lookup "name" d = some (.str s) ∧
    List.lookup "type" d = some t ∧ s ≠ "" ∧ SignalType env s t

/-- The same with the type from the static table of the library. -/
def IsItemSignal (env : Env) (v : Val) : Prop :=
  ∃ d s t row, v = .dict d ∧ (∀ k, List.lookup k d ≠ none → k = "name" ∨ k = "type") ∧ List.lookup "name" d = some (.str s) ∧
    List.lookup "type" d = some t ∧ List.lookup s env.defaults = some (.dict row) ∧ List.lookup "type" row = some t

/-- The values of the settings of entities, in the form in which the game writes them, apart from default values. -/
inductive GameForm (env : Env) : String → Val → Prop where
  | items (d : Dict) : d ≠ [] → GameForm env "items" (.dict d)
  | orientation (n : Num) : 0 ≤ n.val → n.val < 1 → GameForm env "orientation" (.num n)
  | inventory (v : Val) : v ≠ .dict [] →
      Record [] [("bar", IsInt), ("filters", SomeSlots (Record [("index", IsInt), ("name", IsText)] []))] v →
      GameForm env "inventory" v
  | color (v : Val) : Record [("r", IsShare), ("g", IsShare), ("b", IsShare), ("a", IsShare)] [] v → GameForm env "color" v
  | bar (v : Val) : IsInt v → GameForm env "bar" v
  | override_stack_size (v : Val) : IsInt v → GameForm env "override_stack_size" v
  | drop_position (v : Val) : Record [("x", IsNum), ("y", IsNum)] [] v → GameForm env "drop_position" v
  | pickup_position (v : Val) : Record [("x", IsNum), ("y", IsNum)] [] v → GameForm env "pickup_position" v
  | filters (v : Val) : ListOf (Record [("index", IsAny), ("name", IsText)] []) v → GameForm env "filters" v
  | filter_mode (v : Val) : IsText v → GameForm env "filter_mode" v
  | infinity_settings (v : Val) : Record [("remove_unfiltered_items", IsFlag),
      ("filters", Slots (Record [("index", IsInt), ("count", IsAny), ("mode", IsText), ("name", IsText)] []))] [] v →
      GameForm env "infinity_settings" v
  | recipe (v : Val) : IsText v → GameForm env "recipe" v
  | request_from_buffers : GameForm env "request_from_buffers" (.bool true)
  | request_filters (v : Val) : SomeSlots (Record [("index", IsInt), ("name", IsText), ("count", IsInt)] []) v →
      GameForm env "request_filters" v
  | auto_launch (v : Val) : IsFlag v → GameForm env "auto_launch" v
  | parameters (v : Val) : Record [("playback_volume", IsDouble), ("playback_globally", IsFlag),
      ("allow_polyphony", IsFlag)] [] v → GameForm env "parameters" v
  | alert_parameters (v : Val) : Record [("show_alert", IsFlag), ("show_on_map", IsFlag), ("alert_message", IsAny)]
      [("icon_signal_id", IsItemSignal env)] v → GameForm env "alert_parameters" v
  | input_priority (v : Val) : IsText v → GameForm env "input_priority" v
  | output_priority (v : Val) : IsText v → GameForm env "output_priority" v
  | filter (v : Val) : IsText v → GameForm env "filter" v
  | station (v : Val) : IsText v → GameForm env "station" v
  | type (v : Val) : IsText v → GameForm env "type" v
  | variation (v : Val) : IsInt v → GameForm env "variation" v

/-- The values of the settings inside `control_behavior`, apart from those of combinators. -/
inductive ControlForm (env : Env) : Mx → String → Val → Prop where
  | signal (m : Mx) (k : String) (v : Val) : (m, k) ∈ signalSettings → IsSignal env v → ControlForm env m k v
  | filters (v : Val) : ListOf (Record [("signal", IsSignal env), ("count", IsAny), ("index", IsAny)] []) v →
      ControlForm env .Filters "filters" v
  | off : ControlForm env .ConstantCombinator "is_on" (.bool false)
  | condition (v : Val) : v ≠ .dict [] →
      Record [] [("comparator", IsText), ("first_signal", IsSignal env), ("second_signal", IsSignal env),
        ("constant", IsInt)] v →
      (∀ d, v = .dict d → List.lookup "second_signal" d = none ∨ List.lookup "constant" d = none) →
      ControlForm env .CircuitCondition "circuit_condition" v
  | circuit_parameters (v : Val) :
      Record [("signal_value_is_pitch", IsAny), ("instrument_id", IsAny), ("note_id", IsAny)] [] v →
      ControlForm env .Speaker "circuit_parameters" v
  /-- flags and numbers -/
  | plain (m : Mx) (k : String) (v : Val) : k ∈ controlSettings m → (m, k) ∉ signalSettings →
      (m, k) ∉ [(.Filters, "filters"), (.ConstantCombinator, "is_on"), (.CircuitCondition, "circuit_condition"),
        (.Speaker, "circuit_parameters")] → v ≠ .none → ControlForm env m k v

/-- The conditions of an arithmetic combinator: every operand is a signal or, unless it is the output, a constant. -/
def ArithmeticForm (env : Env) (v : Val) : Prop :=
  Record [("operation", IsText)] [("first_signal", IsSignal env), ("first_constant", IsInt), ("second_signal", IsSignal env),
    ("second_constant", IsInt), ("output_signal", IsSignal env)] v ∧
  ∀ d, v = .dict d → (List.lookup "first_signal" d = none ∨ List.lookup "first_constant" d = none) ∧
    (List.lookup "second_signal" d = none ∨ List.lookup "second_constant" d = none)

/-- The conditions of a decider combinator that compares two signals. -/
def DeciderForm (env : Env) (v : Val) : Prop :=
  Record [("comparator", IsText), ("copy_count_from_input", IsAny)] [("first_signal", IsSignal env),
    ("second_signal", IsSignal env), ("output_signal", IsSignal env)] v

/-- What exported entity data says under a key inside `control_behavior`. -/
def controlOf (d : Dict) (k : String) : Option Val :=
  match List.lookup "control_behavior" d with
  | some (.dict x) => List.lookup k x
  | _ => none

/-- What is exported for a setting inside `control_behavior` that was not given: belts write nulls, mining drills and
speakers write default values, the others nothing. -/
def controlDefault : Mx → String → Option Val
  | .TransportBelt, _ => some .none
  | .MiningDrill, k => some (if k = "circuit_resource_read_mode" then .int 0 else .bool true)
  | .Speaker, _ => some (.dict [("instrument_id", .none), ("note_id", .none), ("signal_value_is_pitch", .none)])
  | _, _ => none

/-- The exported data `d` of an entity of the class `c` says what was given as `kw` when it was made. -/
structure Shows (env : Env) (c : Klass) (kw d : Dict) : Prop where
  name : ∀ s, List.lookup "name" kw = some (.str s) → List.lookup "name" d = some (.str s)
  position : ∀ v, List.lookup "position" kw = some v → Record [("x", IsNum), ("y", IsNum)] [] v →
    ∃ v', List.lookup "position" d = some v' ∧ PyEq v v'
  direction : ∀ z, (List.lookup "direction" kw).getD (.int 0) = .int z → .Rotatable ∈ c.chain → facing d = z % 8
  given : ∀ k v, List.lookup k kw = some v → GameForm env k v → ∃ v', List.lookup k d = some v' ∧ PyEq v v'
  absent : ∀ m k, k ∈ settings m → List.lookup k kw = none ∨ List.lookup k kw = some .none → List.lookup k d = none

/-- The same for `control_behavior`. -/
structure ShowsControl (env : Env) (c : Klass) (kw d : Dict) : Prop where
  given : ∀ x m k v, List.lookup "control_behavior" kw = some (.dict x) → m ∈ c.cbChain → List.lookup k x = some v →
    ControlForm env m k v → ∃ v', controlOf d k = some v' ∧ PyEq v v'
  absent : ∀ x m k, List.lookup "control_behavior" kw = some (.dict x) → m ∈ c.cbChain → k ∈ controlSettings m →
    List.lookup k x = none → controlOf d k = controlDefault m k
  arithmetic : ∀ x v, List.lookup "control_behavior" kw = some (.dict x) → c.cbChain = [.Arithmetic, .Combinator] →
    List.lookup "arithmetic_conditions" x = some v → ArithmeticForm env v →
    ∃ v', controlOf d "arithmetic_conditions" = some v' ∧ PyEq v v'
  decider : ∀ x v, List.lookup "control_behavior" kw = some (.dict x) → c.cbChain = [.Decider, .Combinator] →
    List.lookup "decider_conditions" x = some v → DeciderForm env v →
    ∃ v', controlOf d "decider_conditions" = some v' ∧ PyEq v v'
  none : List.lookup "control_behavior" kw = none → List.lookup "control_behavior" d = none

/-- The filters with slots inside the settings that have them. -/
inductive SlotFilters : String → Val → List Val → Prop where
  | request (l : List Val) : SlotFilters "request_filters" (.list l) l
  | inventory (d : Dict) (l : List Val) : List.lookup "filters" d = some (.list l) → SlotFilters "inventory" (.dict d) l
  | infinity (d : Dict) (l : List Val) : List.lookup "filters" d = some (.list l) →
      SlotFilters "infinity_settings" (.dict d) l

/-- A value that can be a key of a Python dict. -/
def CanBeKey (v : Val) : Prop := (∀ l, v ≠ .list l) ∧ ∀ d, v ≠ .dict d

/-- The control behaviours of the entity are those of the table for its type; custom behaviours leave them as they are. -/
def OwnControls (env : Env) (e : Entity) : Prop :=
  e.strict = true → ∀ t, TypeOf env e.name t → TableControls e.klass t

end Verif.Spec
