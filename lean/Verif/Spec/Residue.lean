import Verif.Spec.RoundTrip
import Verif.Spec.Load
/-!
# Specification vocabulary for the data left after an import
-/
set_option autoImplicit false

namespace Verif.Spec

/-- Data of a (strict) arithmetic or decider combinator that come with a control behaviour. -/
def CombinatorData (env : Env) (v : Val) : Prop :=
  ∃ kw n ty, v = .dict kw ∧ List.lookup "name" kw = some (.str n) ∧ TypeOf env n ty ∧
    (ty = "arithmetic-combinator" ∨ ty = "decider-combinator") ∧ List.lookup "control_behavior" kw ≠ none ∧
    ∀ s, List.lookup "strict" kw = some s → s.truthy = true

/-- The key of the conditions in the control behaviour of a combinator. -/
def conditionsKey (ty : String) : String :=
  if ty = "decider-combinator" then "decider_conditions" else "arithmetic_conditions"

/-- Entity data before and after they were read: the conditions of a combinator are emptied, everything else stays. -/
inductive Emptied (env : Env) : Val → Val → Prop
  | plain {v : Val} (h : ¬ CombinatorData env v) : Emptied env v v
  | combinator {kw c cond : Dict} {n ty : String} (h : CombinatorData env (.dict kw))
      (hn : List.lookup "name" kw = some (.str n)) (ht : TypeOf env n ty)
      (hc : List.lookup "control_behavior" kw = some (.dict c))
      (hf : List.lookup (conditionsKey ty) c = some (.dict cond)) (hne : cond ≠ []) :
      Emptied env (.dict kw)
        (.dict (Dict.set kw "control_behavior" (.dict (Dict.set c (conditionsKey ty) (.dict [])))))

/-- The keys that are read from the conditions of a combinator. -/
def conditionKeys (ty : String) : List String :=
  if ty = "decider-combinator" then
    ["comparator", "constant", "first_signal", "second_constant", "second_signal", "output_constant", "output_signal",
      "copy_count_from_input"]
  else
    ["operation", "first_constant", "first_signal", "second_constant", "second_signal", "output_constant",
      "output_signal"]

end Verif.Spec
