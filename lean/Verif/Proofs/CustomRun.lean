import Verif.Proofs.Custom
import Verif.Proofs.ReloadAll
/-!
# Importing an exported blueprint with custom behaviours
-/
set_option autoImplicit false

namespace Verif
open Spec

/-- In a run without renaming and new prototype data. -/
theorem Spec.SettledRun.inv {env : Env} {w : World} (h : SettledRun env w) :
    w.env = env ∧ ∀ r < w.next, (w.heap r).strict = true → SolidP (fun _ _ _ => True) w.env (w.heap r) := by
  induction h with
  | init => exact ⟨rfl, fun r hr => absurd hr (Nat.not_lt_zero r)⟩
  | step op _ hok hq ih =>
    rename_i w
    have hd : op.kind.data = false := by cases op <;> first | rfl | exact hq.elim
    have hn : op.kind.names = false := by cases op <;> first | rfl | exact hq.elim
    refine Steps.induct (I := fun v => v.env = env ∧
      ∀ r < v.next, (v.heap r).strict = true → SolidP (fun _ _ _ => True) v.env (v.heap r)) ?_ (op.steps hok) ih
    rintro v v' ⟨i1, i3⟩ hp
    have henv : v'.env = env := by
      cases hp with
      | env e hx => rw [hd] at hx; cases hx
      | _ => exact i1
    have fresh : ∀ l e, NewIn v l e → e.strict = true → SolidP (fun _ _ _ => True) v.env e := by
      rintro l e ⟨kw, he⟩ hs
      exact SolidP.new he hs (Entity.new_nodup he) trivial
    refine ⟨henv, ?_⟩
    intro r hr hs
    by_cases hlt : r < v.next
    · have hst : (v.heap r).strict = true := by
        have hset : ∀ s e, ((v.setEnt s e).heap r).strict = true → (s = r → e.strict = (v.heap r).strict) →
            (v.heap r).strict = true := by
          intro s e he hh
          rw [setEnt_heap] at he
          split at he
          · rename_i hx; rw [← hh hx.symm]; exact he
          · exact he
        cases hp with
        | ent s e he =>
          refine hset s e hs ?_
          rintro rfl
          rw [hn] at he
          exact he.strict
        | sort b =>
          obtain ⟨n, hn⟩ := sort_heap v b r
          rw [hn] at hs
          exact hs
        | alloc l e he => exact hset _ e hs (fun h => absurd hlt (by rw [← h]; exact Nat.lt_irrefl _))
        | load b e he => exact hset _ e hs (fun h => absurd hlt (by rw [← h]; exact Nat.lt_irrefl _))
        | add b s _ _ _ => exact hset s _ hs (by rintro rfl; rfl)
        | drop b s _ => exact hset s _ hs (by rintro rfl; rfl)
        | _ => exact hs
      exact (SolidP.prim hd hn hlt (i3 r hlt hst) hp).2.2
    · have hset : ∀ e, v.next = r → SolidP (fun _ _ _ => True) v.env e → SolidP (fun _ _ _ => True) v.env ((v.setEnt v.next e).heap r) := by
        intro e he hh
        rw [setEnt_heap, if_pos he.symm]
        exact hh
      have hs' : ∀ e, v.next = r → ((v.setEnt v.next e).heap r).strict = true → e.strict = true := by
        intro e he hh
        rw [setEnt_heap, if_pos he.symm] at hh
        exact hh
      cases hp with
      | alloc l e he =>
        have : v.next = r := Nat.le_antisymm (Nat.le_of_not_lt hlt) (Nat.le_of_lt_succ hr)
        exact hset e this (fresh l e he (hs' e this hs))
      | load b e he =>
        have : v.next = r := Nat.le_antisymm (Nat.le_of_not_lt hlt) (Nat.le_of_lt_succ hr)
        exact hset e this (fresh _ e he (hs' e this hs))
      | _ => exact absurd hr hlt

theorem Spec.SettledRun.reachable {env : Env} {w : World} (h : SettledRun env w) : Reachable env w := by
  induction h with
  | init => exact .init
  | step op _ hr _ ih => exact .step op ih hr

theorem Spec.SteadyRun.settled {env : Env} {w : World} (h : SteadyRun env w) : SettledRun env w := by
  induction h with
  | init => exact .init
  | step op _ hr hs ih => exact .step op ih hr (by cases op <;> first | trivial | exact hs.elim)

theorem Spec.FitsIn.solid {c : Custom} {w : World} {r : Ref} (h : FitsIn c w r)
    (hs : SolidP (fun _ _ _ => True) w.env (w.heap r)) :
    ∃ cs, SolidIn cs w.env (w.heap r) ∧
      ∀ data ty, Dict.get? w.env.entities (w.heap r).name = some data → data.subscript "type" = .ok (.str ty) →
        (c.lookup ty).getD [] = cs := by
  obtain ⟨t, rs, h1, h2, h3, h4, h5⟩ := h
  refine ⟨(List.lookup t c).getD [], hs.named ?_, fun data ty e1 e2 => ?_⟩
  · obtain ⟨p, g1, g2⟩ := h1
    exact ⟨.dict p, t, g1, subscript_ok.2 ⟨p, rfl, g2⟩, TableControls.good h5 (Klass.extend_chain h3).1 h4, rs, h2, h3⟩
  · rw [TypeOf.inj (typeOf_of e1 e2) h1]

theorem Spec.SettledRun.fitting {c : Custom} {env : Env} {w : World} (hw : SettledRun env w) (ho : Owned w) {b : BpId}
    (hr : ∀ r ∈ (w.bp b).objs, (w.heap r).strict = true) (hf : ∀ r ∈ (w.bp b).objs, FitsIn c w r) : Fitting c w b :=
  fun r hm => FitsIn.solid (hf r hm) (hw.inv.2 r (ho.exist b r hm) (hr r hm))

end Verif
