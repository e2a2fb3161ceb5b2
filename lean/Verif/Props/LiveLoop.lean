import Verif.Proofs.LiveLoop
import Verif.Props.Layers
/-!
# Property C74: walking over a layer while changing it
-/
set_option autoImplicit false

namespace Verif
open Spec

/-! ## C74 Walking over a layer while changing it -/

/-- A loop has at most one outcome. -/
theorem C74_deterministic {b : BpId} {body : Ref → M Unit} {i : Nat} {w : World} {o o' : Except Exc Unit × World}
    (h : LiveLoop b body i w o) (h' : LiveLoop b body i w o') : o = o' := h.unique h'

/-- `for e in bp.entities: if cond(e): bp.entities.remove(e)` ends without exception.  The entity after a removed
one is not looked at and stays; the removed ones are detached; nothing else changes. -/
theorem C74_remove {env : Env} {w : World} (h : Reachable env w) (b : BpId) (cond : Entity → Bool) :
    ∃ w' kept, LiveLoop b (removeIf b cond) 0 w (.ok (), w') ∧
      Walked (fun r => cond (w.heap r) = true) (w.bp b).objs kept ∧ Dropped w w' b kept := by
  obtain ⟨k, hk⟩ := walked_exists (fun r => cond (w.heap r) = true) (w.bp b).objs
  obtain ⟨w', hw, hd⟩ := liveLoop_remove (cond := cond) hk (pre := []) (h.owned.nodup b) rfl (fun _ _ => Iff.rfl)
  exact ⟨w', k, hw, hk, hd⟩

/-- `for e in bp.entities: bp.entities.remove(e)` removes every other entity: those at even places. -/
theorem C74_every_other {env : Env} {w w' : World} (h : Reachable env w) {b : BpId}
    (hw : LiveLoop b (removeIf b (fun _ => true)) 0 w (.ok (), w')) (i : Nat) :
    (w'.bp b).objs[i]? = (w.bp b).objs[2 * i + 1]? := by
  obtain ⟨v, k, hv, hk, hd⟩ := C74_remove h b (fun _ => true)
  cases hw.unique hv
  rw [hd.objs]
  clear hd
  generalize (w.bp b).objs = l at hk
  induction hk generalizing i with
  | nil => simp
  | last _ => simp
  | skip _ _ ih =>
    cases i with
    | zero => rfl
    | succ i => simpa [Nat.mul_add] using ih i
  | keep hn _ _ => exact absurd rfl hn

/-- So the loop that is meant to empty the layer does not, if there are two entities or more. -/
theorem C74_false {env : Env} {w w' : World} (h : Reachable env w) {b : BpId} (hl : 2 ≤ (w.bp b).objs.length)
    (hw : LiveLoop b (removeIf b (fun _ => true)) 0 w (.ok (), w')) : (w'.bp b).objs ≠ [] := by
  intro he
  have := C74_every_other h hw 0
  rw [he] at this
  simp only [List.getElem?_nil] at this
  have := List.getElem?_eq_none_iff.1 this.symm
  omega

/-- Exactly the entities satisfying the condition are gone, if and only if no two of them were neighbours. -/
theorem C74_all_iff {env : Env} {w w' : World} (h : Reachable env w) {b : BpId} {cond : Entity → Bool}
    (hw : LiveLoop b (removeIf b cond) 0 w (.ok (), w')) :
    (w'.bp b).objs = (w.bp b).objs.filter (fun r => !cond (w.heap r)) ↔
      Apart (fun r => cond (w.heap r) = true) (w.bp b).objs := by
  obtain ⟨v, k, hv, hk, hd⟩ := C74_remove h b cond
  cases hw.unique hv
  rw [hd.objs, Eq.comm]
  have := walked_filter hk (fun r => !cond (w.heap r)) (fun r => by simp)
  exact this

/-- Walking over a copy (`for e in list(bp.entities): …`) removes exactly the entities satisfying the condition. -/
theorem C74_copy {env : Env} {w : World} (h : Reachable env w) (b : BpId) (cond : Entity → Bool) :
    ∃ w', M.forEach (removeIf b cond) (w.bp b).objs w = (.ok (), w') ∧
      Dropped w w' b ((w.bp b).objs.filter (fun r => !cond (w.heap r))) := by
  obtain ⟨w', hw, hd⟩ := forEach_removeIf (cond := cond) (w.bp b).objs w (h.owned.nodup b) (h.owned.nodup b)
    (fun _ hr => hr)
  refine ⟨w', hw, (congrArg (Dropped w w' b) (List.filter_congr ?_)).mp hd⟩
  intro r hr
  simp [hr]

/-- A loop whose body leaves the list alone visits every entity exactly once, in the order of the list. -/
theorem C74_visits {b : BpId} {body : Ref → M Unit} {w : World}
    (hb : ∀ r v, ((body r v).2.bp b).objs = (v.bp b).objs) (out : Except Exc Unit × World) :
    LiveLoop b body 0 w out ↔ out = M.forEach body (w.bp b).objs w := by
  have := liveLoop_copy (b := b) (body := body) (w.bp b).objs [] w rfl (fun r v _ _ => hb r v)
  exact ⟨fun h => h.unique this, fun h => h ▸ this⟩

/-- Turning the entities one by one in a loop is such a loop. -/
theorem C74_turn {b : BpId} {n : Int} {a : Operand} {d : DirArg} {w : World} (out : Except Exc Unit × World) :
    LiveLoop b (entRotate n a d) 0 w out ↔ out = M.forEach (entRotate n a d) (w.bp b).objs w :=
  C74_visits (fun _ _ => rfl) out

/-- A loop that makes an entity at every step, in a layer that is not empty, never ends. -/
theorem C74_endless {env : Env} {w : World} (h : Reachable env w) {b : BpId} {kw : Dict}
    (hm : ∃ r w', layerMake b kw w = (.ok r, w')) (hl : (w.bp b).objs ≠ []) (out : Except Exc Unit × World) :
    ¬ LiveLoop b (makeFrom b (fun _ => kw)) 0 w out := by
  intro hL
  refine liveLoop_grow (fun v => Reachable env v ∧ v.env = w.env ∧ (v.bp b).custom = (w.bp b).custom) ?_ hL
    ⟨h, rfl, rfl⟩ (List.length_pos_iff.2 hl)
  rintro v r ⟨hv, he, hc⟩ -
  cases hx : layerMake b kw v with
  | mk o v' =>
    cases o with
    | error x =>
      exfalso
      obtain ⟨s, w', hw⟩ := hm
      obtain ⟨e, -, hn, -⟩ := layerMake_new hw
      have := (layerMake_error hx).2
      simp only [World.customOf, Option.map_some, he, hc] at this hn
      rw [hn] at this
      cases this
    | ok s =>
      have hrun : (Op.make b kw).run v = (.ok (), v') := by
        show (layerMake b kw >>= fun _ => pure ()) v = _
        rw [M.bind_ok hx]; rfl
      have hr' : Reachable env v' := by
        have := Reachable.step (.make b kw) hv trivial
        rwa [hrun] at this
      refine ⟨v', hrun, ⟨hr', (layerMake_custom hx).1.trans he, (layerMake_custom hx).2.trans hc⟩, ?_⟩
      have := (C13_make hv hx).same.length_eq
      rw [this]; simp

/-- The outcome of a loop over the three belts of the sample. -/
example : LiveLoop 0 (removeIf 0 (fun _ => true)) 0 Sample.belts
    (.ok (), (layerRemove 0 (.ent 2) (layerRemove 0 (.ent 1) Sample.belts).2).2) :=
  .step (r := 1) (by decide +kernel) rfl (.step (r := 2) (by decide +kernel) rfl (.stop (by decide +kernel)))

/-- The walk leaves the belt in the middle. -/
example : ((layerRemove 0 (.ent 2) (layerRemove 0 (.ent 1) Sample.belts).2).2.bp 0).objs = [0] ∧
    2 ≤ (Sample.belts.bp 0).objs.length ∧
    (∃ r w', layerMake 0 (Sample.ent "belt" 3 3) Sample.belts = (.ok r, w')) := by
  refine ⟨by decide +kernel, by decide +kernel, ?_⟩
  have e : (layerMake 0 (Sample.ent "belt" 3 3) Sample.belts).1 = .ok 3 := by decide +kernel
  exact ⟨3, _, Prod.ext e rfl⟩

/-- Neighbours and no neighbours. -/
example : Apart (fun n => n % 2 = 1) [1, 2, 3] ∧ ¬ Apart (fun n => n % 2 = 1) [2, 1, 3] := by
  refine ⟨?_, fun h => h 1 1 3 rfl rfl ⟨rfl, rfl⟩⟩
  intro i x y hx hy
  match i with
  | 0 => cases hx; cases hy; decide
  | 1 => cases hx; cases hy; decide
  | _ + 2 => simp at hy

end Verif
