import Verif.Props.Tidy
import Verif.Props.Rotation
/-!
# Property C67: putting the entities in order again
-/
set_option autoImplicit false

namespace Verif
open Spec

/-! ## C67 Sorting the entities restores the order and the numbers -/

/-- After `entities.sort()`, whatever happened before, the entities are in reading order and numbered from one; nothing
but the order and the numbers changes. -/
theorem C67_sort {env : Env} {w : World} (h : Reachable env w) (b : BpId) :
    ∃ w', (Op.sort b).run w = (.ok (), w') ∧ InOrder w' b (w.bp b).objs ∧
      { w'.bp b with objs := [] } = { w.bp b with objs := [] } ∧ (∀ c, c ≠ b → w'.bp c = w.bp c) ∧
      (∀ s, SameButNumber (w'.heap s) (w.heap s)) ∧ (∀ s, s ∉ (w.bp b).objs → w'.heap s = w.heap s) ∧
      w'.env = w.env ∧ w'.next = w.next := by
  refine ⟨w.sort b, rfl, sort_inOrder w b (h.owned.nodup b), ?_, fun c hc => sort_bp_other hc, fun s => ?_,
    fun s hs => sort_heap_other hs, rfl, rfl⟩
  · rw [sort_bp_self]
  · obtain ⟨n, hn⟩ := sort_heap w b s
    rw [hn]
    rfl

/-- Sorting changes nothing if the entities are in order and numbered. -/
theorem C67_in_order {env : Env} {w : World} (h : Reachable env w) {b : BpId} (ho : InOrder w b (w.bp b).objs) :
    (Op.sort b).run w = (.ok (), w) := by
  show (Except.ok (), w.sort b) = _
  rw [sort_of_inOrder (h.owned.nodup b) ho]

/-- Sorting twice is like sorting once. -/
theorem C67_twice {env : Env} {w w' : World} (h : Reachable env w) {b : BpId} (h1 : (Op.sort b).run w = (.ok (), w')) :
    (Op.sort b).run w' = (.ok (), w') := by
  have hr : Reachable env w' := by
    have := Reachable.step (.sort b) h trivial
    rwa [h1] at this
  obtain ⟨v, hv, ho, -⟩ := C67_sort h b
  rw [h1] at hv
  cases hv
  exact C67_in_order hr ⟨.refl _, ho.sorted, fun _ => rfl, ho.numbered⟩

/-- Once sorted, the numbers in the export are 1, 2, 3, …, also after an import that raised. -/
theorem C67_export {env : Env} {w w' w'' : World} (h : Reachable env w) {b : BpId} {v : Val} {o : Dict} {l : List Val}
    (hs : (Op.sort b).run w = (.ok (), w')) (he : toJson b w' = (.ok v, w'')) (hc : Content v o)
    (hl : ListAt o "entities" l) (i : Nat) (hi : i < l.length) :
    exportedNumber l[i] = some (.int (i + 1)) := by
  obtain ⟨u, hu, ho, -⟩ := C67_sort h b
  rw [hs] at hu
  cases hu
  have e1 := export_numbers he hc hl
  have hlen : l.length = (w'.bp b).objs.length := by
    have := congrArg List.length e1
    simpa using this
  have hi' : i < (w'.bp b).objs.length := hlen ▸ hi
  have : (l.map exportedNumber)[i]? = ((w'.bp b).objs.map (fun r => some (autoVal (w'.heap r).auto)))[i]? := by rw [e1]
  rw [List.getElem?_map, List.getElem?_map, List.getElem?_eq_getElem hi, List.getElem?_eq_getElem hi'] at this
  have this := Option.some.inj this
  rw [this]
  dsimp only
  rw [ho.numbered i hi']
  rfl

/-- Turning the layer of the entities is turning the blueprint. -/
theorem C67_rotate {env : Env} {w : World} (h : Reachable env w) (b : BpId) (n : Int) (a : Option Operand)
    (d : Option DirArg) : (Op.rotateLayer b n a d).run w = (Op.rotate b n a d).run w :=
  (bpRotate_noTiles (h.noTiles b)).symm

namespace Sample

/-- The last belt is moved to the front, row by row. -/
def shuffled : World := ((Op.setPos 2 (pos (-4) (-4))).run belts).2

theorem shuffled_reachable : Reachable env shuffled := .step (.setPos 2 _) belts_reachable
  (show 2 < belts.next by decide +kernel)

end Sample

example : Reachable Sample.env Sample.shuffled ∧ (Sample.shuffled.bp 0).objs = [1, 0, 2] ∧
    (((Op.sort 0).run Sample.shuffled).2.bp 0).objs = [2, 1, 0] ∧
    ((Op.sort 0).run Sample.shuffled).2.heap 2 = { Sample.shuffled.heap 2 with auto := some 1 } ∧
    (Sample.shuffled.heap 2).auto = some 3 :=
  ⟨Sample.shuffled_reachable, by decide +kernel, by decide +kernel, by decide +kernel, by decide +kernel⟩

/-- After the import that raised. -/
example : Reachable Sample.env Sample.clash ∧ (Sample.clash.heap 0).auto = some 1 ∧ (Sample.clash.heap 1).auto = some 1 ∧
    (((Op.sort 0).run Sample.clash).2.heap 1).auto = some 2 :=
  ⟨Sample.clash_reachable, by decide +kernel, by decide +kernel, by decide +kernel⟩

end Verif
