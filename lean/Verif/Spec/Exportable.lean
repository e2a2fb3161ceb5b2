import Verif.Spec.Names
import Verif.Spec.Shown
/-!
# The data that can be exported again (C87)
-/
set_option autoImplicit false

namespace Verif.Spec

/-- The value under a key; an absent one counts as null. -/
def valueAt (d : Dict) (k : String) : Val := (List.lookup k d).getD .none

/-- What is kept of a value given for a signal: of an object its name. -/
inductive Stands : Val → Val → Prop where
  | object (d : Dict) : Stands (.dict d) (valueAt d "name")
  | plain (v : Val) : (∀ d, v ≠ .dict d) → Stands v v

/-- The text of what is kept: the name, or what Python prints for a value that counts as false. -/
inductive SignalText : Val → String → Prop where
  | name (s : String) : SignalText (.str s) s
  | false : SignalText (.bool false) "False"
  | zero (q : Rat) : SignalText (.flt q) "0.0"
  | list : SignalText (.list []) "[]"
  | object : SignalText (.dict []) "{}"

/-- The text of what is kept is a signal of the table, and the table has its type. -/
def TypedText (env : Env) (u : Val) : Prop := ∃ n t, SignalText u n ∧ SignalType env n t

/-- A signal can be exported: null, a whole number, or a signal of the table with its type. -/
def SignalOut (env : Env) (v : Val) : Prop := ∃ u, Stands v u ∧ (u = .none ∨ IsInt u ∨ TypedText env u)

/-- The same for the signals of roboports and train stops: no number except zero; an empty name is not written. -/
def OptionalOut (env : Env) (v : Val) : Prop :=
  ∃ u, Stands v u ∧ (u = .none ∨ u = .int 0 ∨ u = .str "" ∨ TypedText env u)

/-- The same for icons and the filters of constant combinators, which must have a signal. -/
def NamedOut (env : Env) (v : Val) : Prop := ∃ u, Stands v u ∧ TypedText env u

/-- The operand of a combinator: a constant if there is one, otherwise the name of the signal. -/
def OperandAt (d : Dict) (const signal : String) (u : Val) : Prop :=
  (u ≠ .none ∧ List.lookup const d = some u) ∨
  (valueAt d const = .none ∧ valueAt d signal = .none ∧ u = .none) ∨
  (valueAt d const = .none ∧ ∃ s, List.lookup signal d = some (.dict s) ∧ List.lookup "name" s = some u)

/-- The data under `control_behavior` of an entity of the class `c` can be exported. -/
structure ExportableControl (env : Env) (c : Klass) (x : Dict) : Prop where
  signal : ∀ m k, m ∈ c.cbChain → (m, k) ∈ signalSettings → m ≠ .Roboport → m ≠ .Station → SignalOut env (valueAt x k)
  optional : ∀ m k, m ∈ c.cbChain → (m, k) ∈ signalSettings → m = .Roboport ∨ m = .Station → OptionalOut env (valueAt x k)
  filters : .Filters ∈ c.cbChain → ∀ l, List.lookup "filters" x = some (.list l) → ∀ d, Val.dict d ∈ l →
    NamedOut env (valueAt d "signal")
  condition : .CircuitCondition ∈ c.cbChain → ∀ d, List.lookup "circuit_condition" x = some (.dict d) →
    SignalOut env (valueAt d "first_signal") ∧
    SignalOut env ((List.lookup "second_signal" d).getD (valueAt d "constant"))
  arithmetic : c.cbChain = [.Arithmetic, .Combinator] → ∀ d, List.lookup "arithmetic_conditions" x = some (.dict d) →
    ∀ p ∈ [("first_constant", "first_signal"), ("second_constant", "second_signal"), ("output_constant", "output_signal")],
      ∀ u, OperandAt d p.1 p.2 u → SignalOut env u
  decider : c.cbChain = [.Decider, .Combinator] → ∀ d, List.lookup "decider_conditions" x = some (.dict d) →
    ∀ p ∈ [("constant", "first_signal"), ("second_constant", "second_signal"), ("output_constant", "output_signal")],
      ∀ u, OperandAt d p.1 p.2 u → SignalOut env u

/-- The icon of the alert of a speaker can be exported: it is in the static table, with its type. -/
def ExportableAlert (env : Env) (c : Klass) (kw : Dict) : Prop :=
  .Speaker ∈ c.chain → ∀ a i n, List.lookup "alert_parameters" kw = some (.dict a) →
    List.lookup "icon_signal_id" a = some (.dict i) → List.lookup "name" i = some (.str n) →
    ∃ row t, List.lookup n env.defaults = some (.dict row) ∧ List.lookup "type" row = some t

/-- The data of an entity of the class `c` can be exported. -/
structure Exportable (env : Env) (c : Klass) (kw : Dict) : Prop where
  alert : ExportableAlert env c kw
  control : ∀ x, List.lookup "control_behavior" kw = some (.dict x) → ExportableControl env c x

/-- The slot, counted from 0, that the index of an icon means. Indices below 1 count from the end; Python takes true for 1
and false for 0. -/
def SlotOf (i : Val) (p : Nat) : Prop :=
  (∃ z : Int, i = .int z ∧ (z = p + 1 ∨ z = (p : Int) - 3) ∧ p < 4) ∨ (i = .bool true ∧ p = 0) ∨ (i = .bool false ∧ p = 3)

/-- The icon puts the signal `s` into the slot `p`. -/
def Fills (v : Val) (p : Nat) (s : Val) : Prop :=
  ∃ d i, v = .dict d ∧ List.lookup "signal" d = some s ∧ List.lookup "index" d = some i ∧ SlotOf i p

/-- The last icon of the list for the slot `p` has the signal `s`. -/
def LastFill (l : List Val) (p : Nat) (s : Val) : Prop :=
  ∃ before v after, l = before ++ v :: after ∧ Fills v p s ∧ ∀ u ∈ after, ∀ t, ¬ Fills u p t

end Verif.Spec
