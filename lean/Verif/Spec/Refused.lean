import Verif.Model.Blueprint
import Verif.Spec.Layers
/-!
# What an import leaves as it was (C89)
-/
set_option autoImplicit false

namespace Verif.Spec

/-- The entities of all blueprints are still there, as they were up to their exported numbers. -/
structure Kept (w w' : World) : Prop where
  member : ∀ c s, s ∈ (w.bp c).objs → s ∈ (w'.bp c).objs
  entity : ∀ s, s < w.next → SameButNumber (w'.heap s) (w.heap s)
  new : w.next ≤ w'.next

/-- A refused import leaves the blueprint as it was. -/
def RefusedKeeps : Prop :=
  ∀ (env : Env) (w : World) (b : BpId) (data : Val), Reachable env w → (load b data w).1 ≠ .ok () →
    (load b data w).2.bp b = w.bp b

end Verif.Spec
