import Verif.Proofs.Isolation
import Verif.Proofs.Tidy
import Verif.Props.Reload
/-!
# Blueprints do not affect each other (C56)
-/
set_option autoImplicit false

namespace Verif
open Spec

/-- C56 for one call: it leaves every blueprint that it does not concern as it is, with all entities that belong to
it, whether the call succeeds or raises. -/
theorem C56_untouched {env : Env} {w : World} (h : Reachable env w) {op : Op} (hr : op.refsOk w) {c : BpId}
    (hc : ¬ Concerns w op c) : Untouched w (op.run w).2 c :=
  (Op.calm h.owned hr hc).toUntouched

/-- Entities without a layer only change by calls made on them and by being added to a layer. -/
theorem C56_loose {env : Env} {w : World} (h : Reachable env w) {op : Op} (hr : op.refsOk w) {r : Ref}
    (hn : r < w.next) (hl : (w.heap r).layer = none) (hh : ¬ Handles op r) : (op.run w).2.heap r = w.heap r := by
  by_cases h0 : Concerns w op 0
  · exact (Op.calm h.owned hr (fun h1 : Concerns w op 1 => absurd (concerns_one h0 h1) (by decide))).loose r hn hl hh
  · exact (Op.calm h.owned hr h0).loose r hn hl hh

/-- Prototype data only changes by the calls for it. -/
theorem C56_data {w : World} {op : Op} (hr : op.refsOk w) (h : ¬ ReplacesData op) : (op.run w).2.env = w.env :=
  Op.env_eq hr h

/-- C56 for any number of calls. -/
theorem C56_history {env : Env} {w w' : World} (h : Reachable env w) {c : BpId} (he : Elsewhere c w w') :
    Untouched w w' c ∧ w'.env = w.env :=
  ⟨(he.calm h.owned).1, (he.calm h.owned).2.2⟩

/-- The export of a blueprint whose wires and schedules refer to its own entities gives the same result before and
after any calls that do not concern it. -/
theorem C56_export {env : Env} {w w' : World} (h : Reachable env w) {c : BpId} (hs : SelfContained w c)
    (he : Elsewhere c w w') : (toJson c w').1 = (toJson c w).1 := by
  obtain ⟨h1, h2⟩ := C56_history h he
  exact Blind.toJson (h1.agree h2 hs)
    (fun r hr => ⟨⟨h.owned.exist c r hr, h.owned.layer c r hr⟩, h.owned.layer c r hr⟩) hs.schedules

/-- Blueprints refer to their own entities only, after any calls of which none takes out an entity that a wire or a
schedule names and none connects to an entity that the blueprint does not list. -/
theorem C56_selfContained {env : Env} {w : World}
    (h : RunOf (fun w op => KeepsScheduled w op ∧ KeepsWired w op ∧ WiresInside w op) env w) (c : BpId) :
    SelfContained w c where
  wires x hx r hr := by
    have := (run_wires (h.mono (fun _ _ hp => hp.2)) c x hx).2 r hr
    exact ⟨h.reachable.owned.exist c r this, h.reachable.owned.layer c r this⟩
  schedules s hs r hr := by
    have := run_schedules (h.mono (fun _ _ hp => hp.1)) c s hs r hr
    exact ⟨h.reachable.owned.exist c r this, h.reachable.owned.layer c r this⟩

/-! ### The condition on wires is needed -/

namespace Sample

/-- A belt in blueprint 0 is wired to a belt in blueprint 1. -/
def across : World :=
  ((Op.connect 0 (some 1) (.int 1) (.int 1) "red").run
    ((Op.make 1 (ent "belt" 5 5)).run ((Op.make 0 (ent "belt" 7 0)).run (World.init env)).2).2).2

theorem across_reachable : Reachable env across := by
  refine .step _ (.step _ (.step _ .init trivial) trivial) ?_
  exact ⟨by decide +kernel, fun s hs => by cases hs; decide +kernel⟩

/-- Another belt is placed in blueprint 1. -/
def across' : World := ((Op.make 1 (ent "belt" 0 0)).run across).2

theorem across_elsewhere : Elsewhere 0 across across' :=
  .step _ .refl trivial (show ¬ (1 : BpId) = 0 by decide) (by intro h; exact h)

end Sample

/-- Without the condition on wires the export of a blueprint may change by a call on another blueprint: the belt at the
far end of the wire gets another number. -/
theorem C56_leak : ∃ env w w', Reachable env w ∧ Elsewhere 0 w w' ∧ (toJson 0 w').1 ≠ (toJson 0 w).1 ∧
    ∃ v, (toJson 0 w').1 = .ok v :=
  ⟨Sample.env, Sample.across, Sample.across', Sample.across_reachable, Sample.across_elsewhere, by decide +kernel,
    by
      have h : (toJson 0 Sample.across').1.toOption.isSome = true := by decide +kernel
      cases e : (toJson 0 Sample.across').1 with
      | error x => rw [e] at h; cases h
      | ok v => exact ⟨v, rfl⟩⟩

/-! ### The hypotheses can be met -/

/-- Placing a belt in blueprint 1 does not concern the sample in blueprint 0. -/
example : ¬ Concerns Sample.wired (.make 1 (Sample.ent "belt" 0 0)) 0 := by
  show ¬ (1 : BpId) = 0
  decide

theorem Sample.wired_elsewhere : Elsewhere 0 Sample.wired ((Op.rotate 1 1 none none).run
    ((Op.make 1 (Sample.ent "belt" 0 0)).run Sample.wired).2).2 :=
  .step _ (.step _ .refl trivial (show ¬ (1 : BpId) = 0 by decide) (by intro h; exact h)) trivial
    (show ¬ (1 : BpId) = 0 by decide) (by intro h; exact h)

theorem Sample.wired_contained : SelfContained Sample.wired 0 :=
  C56_selfContained (.step (.load 0 Sample.wiredData) .init trivial
    ⟨(fun _ _ h => nomatch h.1), (fun _ _ h => nomatch h.1), trivial⟩) 0

/-- The export that stays the same is a success. -/
example : (toJson 0 ((Op.rotate 1 1 none none).run ((Op.make 1 (Sample.ent "belt" 0 0)).run Sample.wired).2).2).1 =
    .ok Sample.wiredOut :=
  (C56_export (.step (.load 0 Sample.wiredData) .init trivial) Sample.wired_contained Sample.wired_elsewhere).trans
    Sample.wired_out

/-- The calls elsewhere do happen. -/
example : (((Op.rotate 1 1 none none).run ((Op.make 1 (Sample.ent "belt" 0 0)).run Sample.wired).2).2.bp 1).objs = [3] := by
  decide +kernel

end Verif
