import Verif.Spec.Isolation
/-!
# Specification vocabulary for calls on wires and reading the connection data again
-/
set_option autoImplicit false

namespace Verif.Spec

/-- The two worlds differ at most in the recorded wires of the blueprints. -/
structure SameButWires (v w : World) : Prop where
  env : v.env = w.env
  heap : v.heap = w.heap
  next : v.next = w.next
  rest : ∀ b, { v.bp b with conns := [] } = { w.bp b with conns := [] }

/-- Calls that deal with the wires, export or read only. -/
def WireCall : Op → Prop
  | .connect _ _ _ _ _ | .flip _ _ | .flipColor _ _ | .getConnections _ | .entToJson _ | .toJson _ | .parse _
  | .get _ _ | .tilesGet _ _ => True
  | _ => False

/-- `w'` is reached from `w` by such calls, failing or not. -/
inductive WireCalls (w : World) : World → Prop where
  | refl : WireCalls w w
  | step {v : World} (op : Op) : WireCalls w v → WireCall op → WireCalls w (op.run v).2

end Verif.Spec
