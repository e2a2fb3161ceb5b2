import Verif.Model.Blueprint
/-!
# Specification vocabulary for the independence of blueprints
-/
set_option autoImplicit false

namespace Verif.Spec

/-- The call is made on blueprint `c`, on one of its layers or wires, or on an entity whose layer belongs to `c`. -/
def Concerns (w : World) : Op → BpId → Prop
  | .newEntity _ _, _ => False
  | .make b _, c | .add b _, c | .remove b _, c | .delObj b _, c | .delAt b _, c | .get b _, c
  | .rotate b _ _ _, c | .flip b _, c | .flipColor b _, c | .toJson b, c | .load b _, c | .recenter b _, c
  | .setLabel b _ _, c | .setCustom b _, c | .tilesMake b _, c | .tilesAdd b _, c | .tilesRemove b _, c
  | .tilesGet b _, c | .sort b, c | .parse b, c | .rotateLayer b _ _ _, c | .setItem b _, c | .setVersion b _, c
  | .setStrict b _, c | .setIcon b _ _, c | .dropIcon b _, c | .addSchedule b _, c => b = c
  | .entRotate r _ _ _, c | .connect r _ _ _ _, c | .getConnections r, c | .entToJson r, c | .setPos r _, c
  | .setDir r _, c | .setName r _, c | .addMixins r _, c | .setMixins r _, c | .setNumber r _, c | .setOrientation r _, c | .setAttr r _ _, c
  | .setControl r _ _, c | .newControl r _, c => (w.heap r).layer = some c
  | .setProtos _ _ _, _ | .importProtos _ _, _ => False

/-- The entity object on which the call is made, or which it puts into a layer. -/
def Handles : Op → Ref → Prop
  | .add _ (.ent r), s => r = s
  | .entRotate r _ _ _, s | .setPos r _, s | .setDir r _, s | .setName r _, s | .addMixins r _, s | .setMixins r _, s | .setNumber r _, s
  | .setOrientation r _, s | .setAttr r _ _, s | .setControl r _ _, s | .newControl r _, s => r = s
  | _, _ => False

/-- The call replaces prototype data. -/
def ReplacesData : Op → Prop
  | .setProtos _ _ _ | .importProtos _ _ => True
  | _ => False

/-- Blueprint `c` and the entities that belong to it are the same in both worlds. -/
structure Untouched (w w' : World) (c : BpId) : Prop where
  blueprint : w'.bp c = w.bp c
  entities : ∀ r, r < w.next → (w.heap r).layer = some c → w'.heap r = w.heap r

/-- The wires and the schedules of the blueprint only refer to entities that belong to it. -/
structure SelfContained (w : World) (c : BpId) : Prop where
  wires : ∀ x ∈ (w.bp c).conns, ∀ r, x.fromE = some r ∨ x.toE = some r → r < w.next ∧ (w.heap r).layer = some c
  schedules : ∀ s ∈ (w.bp c).schedules, ∀ r ∈ s.1, r < w.next ∧ (w.heap r).layer = some c

/-- `w'` is reached from `w` by calls, failing or not, of which none concerns `c` or replaces prototype data. -/
inductive Elsewhere (c : BpId) (w : World) : World → Prop where
  | refl : Elsewhere c w w
  | step {v : World} (op : Op) : Elsewhere c w v → op.refsOk v → ¬ Concerns v op c → ¬ ReplacesData op →
      Elsewhere c w (op.run v).2

end Verif.Spec
