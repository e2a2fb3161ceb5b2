import Verif.Spec.Names
import Verif.Model.Blueprint
/-!
# Specification vocabulary for importing exported data again
-/
set_option autoImplicit false

namespace Verif.Spec

/-- The settings of an exported entity: everything except its number and its wires. -/
def entitySettings (d : Dict) : Dict := d.filter (fun p => p.1 != "entity_number" && p.1 != "connections")

/-- The prototype type of a name. -/
def TypeOf (env : Env) (name ty : String) : Prop :=
  ∃ d, List.lookup name env.entities = some (.dict d) ∧ List.lookup "type" d = some (.str ty)

/-- The blueprint has no additional mixins for the type of this name. -/
def NoCustom (env : Env) (p : Bp) (name : String) : Prop :=
  ∀ ty, TypeOf env name ty → List.lookup ty p.custom = none

/-- Calls that neither replace prototype data nor rename the entity `r`. -/
def Quiet (r : Ref) : Op → Prop
  | .setProtos _ _ _ => False
  | .importProtos _ _ => False
  | .setName s _ => s ≠ r
  | .addMixins s _ => s ≠ r
  | .setMixins s _ => s ≠ r
  | _ => True

/-- Worlds reached by such calls, failing or not. -/
inductive Later (r : Ref) (w : World) : World → Prop where
  | refl : Later r w w
  | step {w' : World} (op : Op) : Later r w w' → op.refsOk w' → Quiet r op → Later r w (op.run w').2

/-- Calls that do not replace prototype data, rename an entity or set custom mixins. -/
def Steady : Op → Prop
  | .setProtos _ _ _ => False
  | .importProtos _ _ => False
  | .setName _ _ => False
  | .addMixins _ _ => False
  | .setMixins _ _ => False
  | .setCustom _ _ => False
  | _ => True

/-- Worlds reached by such calls from the empty world, failing or not. -/
inductive SteadyRun (env : Env) : World → Prop where
  | init : SteadyRun env (World.init env)
  | step {w : World} (op : Op) : SteadyRun env w → op.refsOk w → Steady op → SteadyRun env (op.run w).2

/-- Calls that do not replace prototype data and do not change the name or the behaviours of an entity; custom
mixins may be set. -/
def Settled : Op → Prop
  | .setProtos _ _ _ => False
  | .importProtos _ _ => False
  | .setName _ _ => False
  | .addMixins _ _ => False
  | .setMixins _ _ => False
  | _ => True

/-- Worlds reached by such calls from the empty world, failing or not. -/
inductive SettledRun (env : Env) : World → Prop where
  | init : SettledRun env (World.init env)
  | step {w : World} (op : Op) : SettledRun env w → op.refsOk w → Settled op → SettledRun env (op.run w).2

/-- A constant stored as an operand of a control behaviour. -/
def ConstantAt (c : Cb) (k : String) : Prop := ∃ z : Int, List.lookup k c.attrs = some (.int z)

/-- No constant where the code cannot read it back: the first operand of a circuit condition, and the second
and the output operand of a decider combinator. -/
def ReadableConstants (c : Cb) : Prop :=
  (.CircuitCondition ∈ c.chain → ¬ ConstantAt c "first") ∧
  (.Decider ∈ c.chain → ¬ ConstantAt c "second" ∧ ¬ ConstantAt c "output")

/-- The names of the filters exported by a filter inserter are known signals. -/
def ReadableNames (env : Env) (e : Entity) (d : Dict) : Prop :=
  .FilterInserter ∈ e.klass.chain → ∀ fs, List.lookup "filters" d = some (.list fs) →
    ∀ f, .dict f ∈ fs → ∀ s, List.lookup "name" f = some (.str s) → s ≠ "" → ¬ Unknown env.signals s

/-- Two control behaviours of combinators with the same operator, operands (as the user reads them) and
copy-count flag. -/
def SameFunction (c c' : Cb) : Prop :=
  List.lookup "operator" c'.attrs = List.lookup "operator" c.attrs ∧
  (∀ k ∈ ["first", "second", "output"],
    signalGet ((List.lookup k c'.attrs).getD .none) = signalGet ((List.lookup k c.attrs).getD .none)) ∧
  List.lookup "copy_count_from_input" c'.attrs = List.lookup "copy_count_from_input" c.attrs

end Verif.Spec
