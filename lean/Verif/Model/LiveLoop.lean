import Verif.Model.World
/-!
# Looping over a layer while changing it

`BlueprintLayer.__iter__` (`/repo/py_factorio_blueprints/blueprint.py:47-48`) is `yield from self.objs`: the list
itself is walked, not a copy.  The iterator of a Python list holds a position; each step compares it with the
*present* length of the list and takes the *present* element there.  The attribute `objs` is assigned only by the
constructor of the layer (`blueprint.py:45`), and `add`, `remove`, `sort` and `_load` change the list in place
(`blueprint.py:59, 75, 84, 98, 130`), so the walk sees everything the body of the loop does to the layer.

A loop need not end, so it is a relation between the state before and the outcome after, not a function.
-/
set_option autoImplicit false

namespace Verif

/-- `for r in bp.entities: body(r)` with the iterator at position `i`. -/
inductive LiveLoop (b : BpId) (body : Ref → M Unit) : Nat → World → Except Exc Unit × World → Prop where
  /-- The iterator is exhausted. -/
  | stop {i : Nat} {w : World} : (w.bp b).objs[i]? = none → LiveLoop b body i w (.ok (), w)
  /-- The body raises, the loop is left. -/
  | raise {i : Nat} {w w' : World} {r : Ref} {x : Exc} : (w.bp b).objs[i]? = some r →
      body r w = (.error x, w') → LiveLoop b body i w (.error x, w')
  /-- The body returns, the iterator moves on. -/
  | step {i : Nat} {w w' : World} {r : Ref} {out : Except Exc Unit × World} : (w.bp b).objs[i]? = some r →
      body r w = (.ok (), w') → LiveLoop b body (i + 1) w' out → LiveLoop b body i w out

/-- `if cond(r): bp.entities.remove(r)` -/
def removeIf (b : BpId) (cond : Entity → Bool) (r : Ref) : M Unit := fun w =>
  if cond (w.heap r) then layerRemove b (.ent r) w else (.ok (), w)

/-- `bp.entities.make(**kw)` as the body of a loop; `kw` may be computed from the entity visited. -/
def makeFrom (b : BpId) (kw : Entity → Dict) (r : Ref) : M Unit := fun w =>
  (layerMake b (kw (w.heap r)) >>= fun _ => pure ()) w

end Verif
