import Verif.Proofs.Reparse
import Verif.Props.Sample
/-!
# Property C68: reading the connection data again
-/
set_option autoImplicit false

namespace Verif
open Spec

/-! ## C68 Reading the connection data again restores the imported wires -/

/-- `parse_connections` changes the wires of its blueprint and nothing else, also if it raises. -/
theorem C68_only_wires (b : BpId) (w : World) : SameButWires ((Op.parse b).run w).2 w :=
  (KeepWires.parse w b).1 w (.refl w)

theorem C68_other_blueprints {env : Env} {w : World} (h : Reachable env w) (b c : BpId) (hc : c ≠ b) :
    ((Op.parse b).run w).2.bp c = w.bp c := by
  obtain ⟨x, cs, -, e⟩ := parseConnections_alikeWires (v := w) rfl rfl (h.owned.layer b)
  show (parseConnections b w).2.bp c = _
  rw [e]
  unfold World.rewire
  rw [setBp_bp, if_neg hc]

/-- Doing it twice is like doing it once. -/
theorem C68_twice {env : Env} {w w' : World} (h : Reachable env w) {b : BpId} {x : Except Exc Unit}
    (h1 : (Op.parse b).run w = (x, w')) : (Op.parse b).run w' = (x, w') := by
  have hs : SameButWires w' w := by
    have := C68_only_wires b w
    rwa [h1] at this
  obtain ⟨y, cs, e1, e2⟩ := parseConnections_alikeWires (v := w') (w := w) hs.heap (hs.objs b) (h.owned.layer b)
  have h1 : parseConnections b w = (x, w') := h1
  show parseConnections b w' = _
  rw [h1] at e2
  injection e2 with e2 e3
  rw [e1, ← e2]
  congr 1
  rw [e3, rewire_rewire]

/-- Whatever was done to the wires in between, by any number of calls, failing or not, the outcome is the same. -/
theorem C68_restores {env : Env} {w w' v : World} (h : Reachable env w) {b : BpId} {x : Except Exc Unit}
    (h1 : (Op.parse b).run w = (x, w')) (hc : WireCalls w' v) :
    ∃ v', (Op.parse b).run v = (x, v') ∧ (v'.bp b).conns = (w'.bp b).conns := by
  have hr : Reachable env w' := by
    have := Reachable.step (.parse b) h trivial
    rwa [h1] at this
  have hs := hc.same
  obtain ⟨y, cs, e1, e2⟩ := parseConnections_alikeWires (v := v) (w := w') hs.heap (hs.objs b) (hr.owned.layer b)
  have e3 : parseConnections b w' = (x, w') := C68_twice h h1
  rw [e2] at e3
  injection e3 with e3 e4
  refine ⟨v.rewire b cs, by rw [← e3]; exact e1, ?_⟩
  rw [rewire_conns, ← e4, rewire_conns]

/-- After an import and any number of calls on the wires, the wires of the import are back. -/
theorem C68_import {env : Env} {w w' v : World} (h : Reachable env w) {b : BpId} {data : Val}
    (h1 : load b data w = (.ok (), w')) (hc : WireCalls w' v) :
    ∃ v', (Op.parse b).run v = (.ok (), v') ∧ (v'.bp b).conns = (w'.bp b).conns := by
  obtain ⟨d, col, iv, ic, ev, es, w₃, sv, scheds, -, -, -, -, -, h6, h7, -, -, -, rfl⟩ := load_iff.1 h1
  have hl := base_layer w b d col ic es h.owned (buildAll_layer h6)
  obtain ⟨x, cs, -, e⟩ := parseConnections_alikeWires (v := w.base b d col ic es) rfl rfl hl
  have h7 : parseConnections b (w.base b d col ic es) = (.ok (), w₃) := h7
  rw [e] at h7
  injection h7 with hx h7
  subst hx
  subst h7
  have hs := hc.same
  obtain ⟨y, ds, e1, e2⟩ := parseConnections_alikeWires (v := v) (w := w.base b d col ic es) hs.heap
    ((hs.objs b).trans (by rw [setBp_bp_self]; unfold World.rewire; rw [setBp_bp_self])) hl
  rw [e] at e2
  injection e2 with e2 e3
  refine ⟨v.rewire b ds, by rw [e2]; exact e1, ?_⟩
  rw [rewire_conns, setBp_bp_self]
  dsimp only
  rw [e3, rewire_conns]

namespace Sample

/-- The imported wire is recoloured and another one added. -/
def rewired : World := ((Op.connect 0 (some 1) (.int 1) (.int 1) "green").run ((Op.flipColor 0 0).run loaded).2).2

end Sample

/-- Reading again drops the new wire and gives the imported one its colour back. -/
example : (load 0 Sample.data (World.init Sample.env)).1 = .ok () ∧ WireCalls Sample.loaded Sample.rewired ∧
    (Sample.loaded.bp 0).conns.length = 1 ∧ (Sample.rewired.bp 0).conns.length = 2 ∧
    (((Op.parse 0).run Sample.rewired).2.bp 0).conns = (Sample.loaded.bp 0).conns :=
  ⟨by decide +kernel, .step (.connect 0 (some 1) (.int 1) (.int 1) "green") (.step (.flipColor 0 0) .refl trivial) trivial,
    by decide +kernel, by decide +kernel, by decide +kernel⟩

end Verif
