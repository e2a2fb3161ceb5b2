import Verif.Spec.Settable
/-!
# More prototype data (C91)
-/
set_option autoImplicit false

namespace Verif.Spec

/-- The second prototype data know everything that the first know, and give every known entity the same type. -/
structure Extends (env env' : Env) : Prop where
  type : ∀ n ty, TypeOf env n ty → TypeOf env' n ty
  recipe : ∀ s, List.lookup s env.recipes ≠ none → List.lookup s env'.recipes ≠ none
  signal : ∀ s, List.lookup s env.signals ≠ none → List.lookup s env'.signals ≠ none
  static : env'.defaults = env.defaults

/-- Adding this to the table of entities gives no entity another type. -/
def KeepsTypes (env : Env) (data : Dict) : Prop :=
  ∀ n v ty, List.lookup n data = some v → TypeOf env n ty → ∃ d, v = .dict d ∧ List.lookup "type" d = some (.str ty)

/-- Every signal that has a type still has one. -/
def StayTyped (env env' : Env) : Prop := ∀ n t, SignalType env n t → ∃ t', SignalType env' n t'

end Verif.Spec
