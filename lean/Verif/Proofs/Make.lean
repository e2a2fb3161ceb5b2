import Verif.Proofs.Chain
import Verif.Proofs.Load
import Verif.Proofs.Layer
/-!
# Helper lemmas: `make`
-/
set_option autoImplicit false

namespace Verif
open Spec

/-- Adding an entity that already refers to the layer succeeds. -/
theorem layerAdd_attached {w : World} {b : BpId} {r : Ref} (h : (w.heap r).layer = some b) :
    ∃ w' n, layerAdd b (.ent r) w = (.ok (), w') ∧ w'.heap r = { w.heap r with auto := n } := by
  by_cases hr : r ∈ (w.bp b).objs
  · refine ⟨w, (w.heap r).auto, ?_, rfl⟩
    unfold layerAdd
    dsimp only
    rw [if_neg (by simp [h]), if_pos hr]
  · obtain ⟨n, hn⟩ := sort_heap (w.listed b r) b r
    refine ⟨_, n, layerAdd_new (.inr h) hr, ?_⟩
    rw [hn]
    unfold World.listed
    rw [setEnt_heap, if_pos rfl]
    show ({ w.heap r with layer := some b, auto := n } : Entity) = _
    rw [← h]

/-- `make` either raises without any effect or adds an entity. -/
theorem layerMake_error {b : BpId} {kw : Dict} {w w' : World} {x : Exc}
    (h : layerMake b kw w = (.error x, w')) :
    w' = w ∧ Entity.new w.env (w.customOf (some b)) (some b) kw = .error x := by
  unfold layerMake at h
  rw [M.bind_eq] at h
  split at h
  · rename_i e w₁ hn
    obtain ⟨h1, h2⟩ := newEntity_error hn
    cases h
    exact ⟨h2, h1⟩
  · rename_i r w₁ hn
    exfalso
    obtain ⟨e, he, rfl, rfl⟩ := newEntity_ok hn
    obtain ⟨w', n, ha, -⟩ := layerAdd_attached (w := { w.setEnt w.next e with next := w.next + 1 })
      (b := b) (r := w.next) (by simp [World.setEnt, Entity.new_layer he])
    rw [M.bind_ok ha] at h
    cases h

theorem layerMake_of_error {b : BpId} {kw : Dict} {w : World} {x : Exc}
    (h : Entity.new w.env (w.customOf (some b)) (some b) kw = .error x) :
    layerMake b kw w = (.error x, w) := by
  unfold layerMake
  refine M.bind_error ?_
  unfold newEntity
  rw [h]

theorem layerMake_new {b : BpId} {kw : Dict} {w w' : World} {r : Ref}
    (h : layerMake b kw w = (.ok r, w')) :
    ∃ e n, Entity.new w.env (w.customOf (some b)) (some b) kw = .ok e ∧ w'.heap r = { e with auto := n } := by
  unfold layerMake at h
  obtain ⟨s, v, hn, h⟩ := M.bind_eq_ok.1 h
  obtain ⟨e, he, rfl, rfl⟩ := newEntity_ok hn
  obtain ⟨_, u, ha, h⟩ := M.bind_eq_ok.1 h
  cases h
  obtain ⟨w', n, ha', hh⟩ := layerAdd_attached (w := { w.setEnt w.next e with next := w.next + 1 })
    (b := b) (r := w.next) (by simp [World.setEnt, Entity.new_layer he])
  rw [ha'] at ha
  cases ha
  refine ⟨e, n, he, ?_⟩
  rw [hh]
  simp [World.setEnt]

end Verif
