import Verif.Spec.RoundTrip
import Verif.Spec.Layers
import Verif.Spec.Wires
/-!
# Specification vocabulary for the numbers and the order of the entities after a history of calls
-/
set_option autoImplicit false

namespace Verif.Spec

/-- Every entity of the blueprint has a number, and different entities have different numbers. -/
structure DistinctNumbers (w : World) (b : BpId) : Prop where
  present : ∀ r ∈ (w.bp b).objs, ∃ n, (w.heap r).auto = some n
  distinct : ∀ r ∈ (w.bp b).objs, ∀ s ∈ (w.bp b).objs, (w.heap r).auto = (w.heap s).auto → r = s

/-- The entities of the blueprint are in reading order. -/
def Sorted (w : World) (b : BpId) : Prop :=
  (w.bp b).objs.Pairwise (fun r s => Before (w.heap r).pos (w.heap s).pos)

/-- The call is not an import that raises. -/
def Completes (w : World) : Op → Prop
  | .load b d => ∃ w', load b d w = (.ok (), w')
  | _ => True

/-- The call is neither an import nor a rotation that raises, and does not move single entities. -/
def Orderly (w : World) : Op → Prop
  | .load b d => ∃ w', load b d w = (.ok (), w')
  | .rotate b n a d => ∃ w', bpRotate b n a d w = (.ok (), w')
  | .rotateLayer b n a d => ∃ w', layerRotate b n a d w = (.ok (), w')
  | .entRotate _ _ _ _ => False
  | .setPos _ _ => False
  | .recenter _ _ => False
  | _ => True

/-- The call takes the entity out of the blueprint. -/
def TakesOut (w : World) (op : Op) (b : BpId) (r : Ref) : Prop :=
  r ∈ (w.bp b).objs ∧ r ∉ ((op.run w).2.bp b).objs

/-- The call takes no entity out of a blueprint that a schedule of the blueprint names. -/
def KeepsScheduled (w : World) (op : Op) : Prop :=
  ∀ b r, TakesOut w op b r → ∀ s ∈ (w.bp b).schedules, r ∉ s.1

/-- The call takes no entity out of a blueprint to which a wire of the blueprint is attached. -/
def KeepsWired (w : World) (op : Op) : Prop :=
  ∀ b r, TakesOut w op b r → ∀ c ∈ (w.bp b).conns, ¬ EndAt c r

/-- If the call records a wire, then between entities listed by the same blueprint. -/
def WiresInside (w : World) : Op → Prop
  | .connect r t _ _ _ => ∀ b, (w.heap r).layer = some b → r ∈ (w.bp b).objs ∧ ∀ s, t = some s → s ∈ (w.bp b).objs
  | _ => True

/-- Worlds reached by calls, failing or not, of which each satisfies `P` in the world in which it is made. -/
inductive RunOf (P : World → Op → Prop) (env : Env) : World → Prop where
  | init : RunOf P env (World.init env)
  | step {w : World} (op : Op) : RunOf P env w → op.refsOk w → P w op → RunOf P env (op.run w).2

/-- Every schedule of the blueprint names entities of the blueprint only. -/
def SchedulesListed (w : World) (b : BpId) : Prop := ∀ s ∈ (w.bp b).schedules, ∀ r ∈ s.1, r ∈ (w.bp b).objs

/-- Every wire of the blueprint is attached to an entity, and only to entities of the blueprint. -/
def WiresListed (w : World) (b : BpId) : Prop :=
  ∀ c ∈ (w.bp b).conns, (∃ r, EndAt c r) ∧ ∀ r, EndAt c r → r ∈ (w.bp b).objs

/-- The locomotives named by a schedule in exported data. -/
def exportedLocomotives : Val → List Val
  | .dict s => match List.lookup "locomotives" s with
    | some (.list l) => l
    | _ => []
  | _ => []

/-- The number of an entity in exported data. -/
def exportedNumber : Val → Option Val
  | .dict d => List.lookup "entity_number" d
  | _ => none

end Verif.Spec
