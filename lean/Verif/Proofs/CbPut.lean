import Verif.Proofs.AssignOps
import Verif.Proofs.AssignMake
/-!
# Assigning an attribute of a control behaviour and constructing the control behaviour with it
-/
set_option autoImplicit false
set_option linter.unusedSimpArgs false

namespace Verif
open Spec

theorem cbRead_put {env : Env} {ctx : CbCtx} {m : Mx} {g : Kw} {w : Attrs} {k : String} {v : Val}
    (hk : k ∈ cbKeys m) (hm : m ≠ .CircuitCondition) (h : cbRead env ctx m g = .ok w) :
    cbRead env ctx m (fun x => if x = k then some v else g x) = (do return Dict.set w k (← cbAssign env ctx k v)) := by
  cases m <;> simp only [cbKeys, List.mem_cons, List.not_mem_nil, or_false] at hk
  case CircuitCondition => exact absurd rfl hm
  case Filters =>
    subst hk
    have e : cbAssign env ctx "filters" v = readFilters env ctx v := rfl
    have hw : ∃ x, w = [("filters", x)] := by
      simp only [cbRead, bind_eq_ok] at h
      obtain ⟨fs, -, h⟩ := h
      split at h
      · cases h
      · simp only [bind_eq_ok, pure_eq_ok, Except.ok.injEq] at h
        obtain ⟨l, -, rfl⟩ := h
        exact ⟨_, rfl⟩
    obtain ⟨x, rfl⟩ := hw
    rw [e]
    unfold readFilters
    simp only [cbRead, if_pos, Option.getD_some]
    cases v.iter with
    | error e => rfl
    | ok fs =>
      simp only [ok_bind]
      by_cases hc : (ctx.filtersShadowed && !fs.isEmpty) = true
      · rw [if_pos hc, if_pos hc]; rfl
      · rw [if_neg hc, if_neg hc]
        cases fs.mapM (readFilter env) <;> rfl
  case Speaker =>
    subst hk
    have e : cbAssign env ctx "circuit_parameters" v = readCircuitParameters v := rfl
    simp only [cbRead, bind_eq_ok, pure_eq_ok, Except.ok.injEq] at h
    obtain ⟨x, -, rfl⟩ := h
    rw [e]
    simp only [cbRead, if_pos, Option.getD_some]
    cases readCircuitParameters v <;> rfl
  case Accumulator =>
    subst hk
    simp only [cbRead, bind_eq_ok, pure_eq_ok, Except.ok.injEq] at h
    obtain ⟨x, -, rfl⟩ := h
    have e : cbAssign env ctx "output_signal" v = signalSet env v := rfl
    rw [e]
    simp only [cbRead, Kw.orNone, if_pos, Option.getD_some]
    cases signalSet env v <;> rfl
  case ChainSignal =>
    subst hk
    simp only [cbRead, bind_eq_ok, pure_eq_ok, Except.ok.injEq] at h
    obtain ⟨x, -, rfl⟩ := h
    have e : cbAssign env ctx "blue_output_signal" v = signalSet env v := rfl
    rw [e]
    simp only [cbRead, Kw.orNone, if_pos, Option.getD_some]
    cases signalSet env v <;> rfl
  case TrainSignal =>
    simp only [cbRead, bind_eq_ok, pure_eq_ok, Except.ok.injEq] at h
    obtain ⟨x, hx, y, hy, z, hz, rfl⟩ := h
    simp only [Kw.orNone] at hx hy hz
    rcases hk with rfl | rfl | rfl | rfl
    · have e : cbAssign env ctx "circuit_read_signal" v = .ok v := rfl
      rw [e]
      simp [cbRead, Kw.orNone, hx, hy, hz, Dict.set]
    · have e : cbAssign env ctx "red_output_signal" v = signalSet env v := rfl
      rw [e]
      simp only [cbRead, Kw.orNone, if_pos, Option.getD_some]
      cases signalSet env v <;> simp [hx, hy, hz, Dict.set]
    · have e : cbAssign env ctx "orange_output_signal" v = signalSet env v := rfl
      rw [e]
      simp only [cbRead, Kw.orNone, if_pos, Option.getD_some]
      cases signalSet env v <;> simp [hx, hy, hz, Dict.set]
    · have e : cbAssign env ctx "green_output_signal" v = signalSet env v := rfl
      rw [e]
      simp only [cbRead, Kw.orNone, if_pos, Option.getD_some]
      cases signalSet env v <;> simp [hx, hy, hz, Dict.set]
  case Inserter =>
    simp only [cbRead, bind_eq_ok, pure_eq_ok, Except.ok.injEq] at h
    obtain ⟨x, hx, rfl⟩ := h
    simp only [Kw.orNone] at hx
    rcases hk with rfl | rfl | rfl | rfl | rfl
    · have e : cbAssign env ctx "circuit_mode_of_operation" v = .ok v := rfl
      rw [e]
      simp [cbRead, Kw.orNone, hx, Dict.set]
    · have e : cbAssign env ctx "circuit_set_stack_size" v = .ok v := rfl
      rw [e]
      simp [cbRead, Kw.orNone, hx, Dict.set]
    · have e : cbAssign env ctx "stack_control_input_signal" v = signalSet env v := rfl
      rw [e]
      simp only [cbRead, Kw.orNone, if_pos, Option.getD_some]
      cases signalSet env v <;> simp [hx, Dict.set]
    · have e : cbAssign env ctx "circuit_hand_read_mode" v = .ok v := rfl
      rw [e]
      simp [cbRead, Kw.orNone, hx, Dict.set]
    · have e : cbAssign env ctx "circuit_read_hand_contents" v = .ok v := rfl
      rw [e]
      simp [cbRead, Kw.orNone, hx, Dict.set]
  case Roboport =>
    simp only [cbRead, bind_eq_ok, pure_eq_ok, Except.ok.injEq] at h
    obtain ⟨x, hx, y, hy, z, hz, u, hu, rfl⟩ := h
    simp only [Kw.orNone] at hx hy hz hu
    rcases hk with rfl | rfl | rfl | rfl | rfl | rfl
    · have e : cbAssign env ctx "read_logistics" v = .ok v := rfl
      rw [e]
      simp [cbRead, Kw.orNone, hx, hy, hz, hu, Dict.set]
    · have e : cbAssign env ctx "read_robot_stats" v = .ok v := rfl
      rw [e]
      simp [cbRead, Kw.orNone, hx, hy, hz, hu, Dict.set]
    · have e : cbAssign env ctx "available_construction_output_signal" v = signalSet env v := rfl
      rw [e]
      simp only [cbRead, Kw.orNone, if_pos, Option.getD_some]
      cases signalSet env v <;> simp [hx, hy, hz, hu, Dict.set]
    · have e : cbAssign env ctx "total_construction_output_signal" v = signalSet env v := rfl
      rw [e]
      simp only [cbRead, Kw.orNone, if_pos, Option.getD_some]
      cases signalSet env v <;> simp [hx, hy, hz, hu, Dict.set]
    · have e : cbAssign env ctx "available_logistic_output_signal" v = signalSet env v := rfl
      rw [e]
      simp only [cbRead, Kw.orNone, if_pos, Option.getD_some]
      cases signalSet env v <;> simp [hx, hy, hz, hu, Dict.set]
    · have e : cbAssign env ctx "total_logistic_output_signal" v = signalSet env v := rfl
      rw [e]
      simp only [cbRead, Kw.orNone, if_pos, Option.getD_some]
      cases signalSet env v <;> simp [hx, hy, hz, hu, Dict.set]
  case Station =>
    simp only [cbRead, bind_eq_ok, pure_eq_ok, Except.ok.injEq] at h
    obtain ⟨x, hx, rfl⟩ := h
    simp only [Kw.orNone] at hx
    rcases hk with rfl | rfl | rfl | rfl
    · have e : cbAssign env ctx "circuit_enable_disable" v = .ok v := rfl
      rw [e]
      simp [cbRead, Kw.orNone, hx, Dict.set]
    · have e : cbAssign env ctx "read_from_train" v = .ok v := rfl
      rw [e]
      simp [cbRead, Kw.orNone, hx, Dict.set]
    · have e : cbAssign env ctx "read_stopped_train" v = .ok v := rfl
      rw [e]
      simp [cbRead, Kw.orNone, hx, Dict.set]
    · have e : cbAssign env ctx "train_stopped_signal" v = signalSet env v := rfl
      rw [e]
      simp only [cbRead, Kw.orNone, if_pos, Option.getD_some]
      cases signalSet env v <;> simp [hx, Dict.set]
  all_goals
    simp only [cbRead, Except.ok.injEq] at h
    subst h
    first
      | (subst hk; rfl)
      | (rcases hk with rfl | rfl <;> rfl)
      | (rcases hk with rfl | rfl | rfl <;> rfl)

/-- Every attribute of a control behaviour that is also a setting is among the attributes it writes. -/
theorem cbRead_full {env : Env} {ctx : CbCtx} {m : Mx} {g : Kw} {w : Attrs} {k : String}
    (hk : k ∈ cbKeys m) (hm : m ≠ .CircuitCondition) (h : cbRead env ctx m g = .ok w) : k ∈ w.map (·.1) := by
  cases m <;> simp only [cbKeys, List.mem_cons, List.not_mem_nil, or_false] at hk
  case CircuitCondition => exact absurd rfl hm
  case Filters =>
    subst hk
    simp only [cbRead, bind_eq_ok] at h
    obtain ⟨fs, -, h⟩ := h
    split at h
    · cases h
    · simp only [bind_eq_ok, pure_eq_ok, Except.ok.injEq] at h
      obtain ⟨l, -, rfl⟩ := h
      exact List.mem_singleton.2 rfl
  all_goals simp only [cbRead, bind_eq_ok, pure_eq_ok, Except.ok.injEq] at h
  all_goals first
    | (subst h; simpa using hk; done)
    | (obtain ⟨_, -, rfl⟩ := h; simpa using hk; done)
    | (obtain ⟨_, -, _, -, _, -, rfl⟩ := h; simpa using hk; done)
    | (obtain ⟨_, -, _, -, _, -, _, -, rfl⟩ := h; simpa using hk; done)

section
variable {env : Env} {ctx : CbCtx} {lo : Exc}

/-- Overwriting an attribute that the rest of the chain does not touch. -/
theorem cbInitChain_put_attrs {ms : List Mx} {kw : Dict} {a a' : Attrs} {k : String} {x : Val} (hp : CbPlain ms)
    (h : cbInitChain env ctx lo ms kw a = .ok a') (ha : k ∈ a.map (·.1)) (hms : ∀ m ∈ ms, k ∉ cbAttrs m) :
    cbInitChain env ctx lo ms kw (Dict.set a k x) = .ok (Dict.set a' k x) := by
  induction ms generalizing kw a with
  | nil =>
    unfold cbInitChain at h ⊢
    split at h
    · rename_i hk
      rw [if_pos hk]
      cases h
      rfl
    · cases h
  | cons m ms ih =>
    obtain ⟨h1, h2, h3, h4, h5⟩ := hp
    unfold cbInitChain at h ⊢
    rw [cbInit_plain h1 h2] at h ⊢
    cases hr : cbRead env ctx m (Dict.get? kw) with
    | error e => rw [hr] at h; cases h
    | ok w =>
      rw [hr] at h
      simp only [ok_bind, pure_eq_ok] at h ⊢
      have hw : k ∉ w.map (·.1) := fun hx => hms m (List.mem_cons_self ..) ((cbRead_sub hr).subset hx)
      have e := setAll_put (v := x) ha hw
      rw [e]
      split at h
      · rename_i hst
        rw [if_pos hst]
        cases h
        rfl
      · rename_i hst
        rw [if_neg hst]
        exact ih h5 h (keys_setAll ha) (fun n hn => hms n (List.mem_cons_of_mem _ hn))

/-- The constructor of a control behaviour with one setting changed. -/
theorem cbInitChain_put {ms : List Mx} {kw : Dict} {a a' : Attrs} {k : String} {v : Val} {m : Mx} (hp : CbPlain ms)
    (hm : m ∈ ms) (hk : k ∈ cbKeys m) (hc : m ≠ .CircuitCondition)
    (h : cbInitChain env ctx lo ms kw a = .ok a') :
    cbInitChain env ctx lo ms (Dict.set kw k v) a = (do return Dict.set a' k (← cbAssign env ctx k v)) := by
  have hka : k ∈ cbAttrs m := by
    cases m <;> first | exact hk | exact absurd rfl hc | cases hk
  induction ms generalizing kw a with
  | nil => cases hm
  | cons n ms ih =>
    obtain ⟨h1, h2, h3, h4, h5⟩ := hp
    unfold cbInitChain at h ⊢
    rw [cbInit_plain h1 h2] at h ⊢
    cases hr : cbRead env ctx n (Dict.get? kw) with
    | error e => rw [hr] at h; cases h
    | ok w =>
      rw [hr] at h
      simp only [ok_bind, pure_eq_ok] at h
      rw [get_put]
      by_cases hn : m = n
      · subst hn
        rw [cbRead_put hk hc hr]
        cases hx : cbAssign env ctx k v with
        | error e => rfl
        | ok x =>
          simp only [ok_bind, pure_eq_ok]
          rw [eraseKeys_put hk, setAll_put_right (cbRead_nodup hr) (cbRead_full hk hc hr)]
          split at h
          · rename_i hst
            rw [if_pos hst]
            cases h
            rfl
          · rename_i hst
            rw [if_neg hst]
            refine cbInitChain_put_attrs h5 h ?_ (fun n hn => (h4 n hn).2 k hka)
            rw [mem_keys_iff, lookup_setAll (cbRead_nodup hr)]
            have hf := cbRead_full hk hc hr
            rw [mem_keys_iff] at hf
            cases hl : List.lookup k w with
            | none => exact absurd hl hf
            | some y => exact fun hx => by cases hx
      · have hm' : m ∈ ms := (List.mem_cons.1 hm).resolve_left hn
        have hkn : k ∉ cbKeys n := fun hx => (h4 m hm').1 k hx hk
        have e : cbRead env ctx n (fun x => if x = k then some v else Dict.get? kw x) = .ok w := by
          rw [← hr]
          refine cbRead_congr fun y hy => if_neg ?_
          rintro rfl
          exact hkn hy
        rw [e]
        simp only [ok_bind, pure_eq_ok]
        rw [eraseKeys_put_not hkn]
        have hst : ¬ (cbStops n = true) := by
          unfold cbStops
          simp only [decide_eq_true_eq]
          intro hi
          rw [h3 hi] at hm'
          cases hm'
        rw [if_neg hst] at h ⊢
        exact ih h5 hm' h

/-- The control behaviour built with one setting changed is the one with the attribute assigned. -/
theorem Cb.new_put {kl : Klass} {d : Dict} {c : Cb} {m : Mx} {k : String} (v : Val) (hp : CbPlain kl.cbChain)
    (hm : m ∈ kl.cbChain) (hk : k ∈ cbKeys m) (hc : m ≠ .CircuitCondition) (h : Cb.new env lo kl (.dict d) = .ok c) :
    Cb.new env lo kl (.dict (Dict.set d k v)) = (match c.setAttr env k v with
      | (.error x, _) => .error x
      | (.ok _, c) => .ok c) := by
  have hka : k ∈ cbAttrs m := by
    cases m <;> first | exact hk | exact absurd rfl hc | cases hk
  unfold Cb.new at h ⊢
  simp only [Val.kwargs, ok_bind] at h ⊢
  split at h
  · cases h
  · rename_i hn
    simp only [bind_eq_ok, pure_eq_ok, Except.ok.injEq] at h
    obtain ⟨a, ha, rfl⟩ := h
    have hself : k ≠ "self" ∧ k ≠ "_entity" := by
      have : ∀ m : Mx, "self" ∉ cbKeys m ∧ "_entity" ∉ cbKeys m := by intro m; cases m <;> decide
      exact ⟨fun hx => (this m).1 (hx ▸ hk), fun hx => (this m).2 (hx ▸ hk)⟩
    have hmem : ∀ y, y ≠ k → Dict.mem (Dict.set d k v) y = Dict.mem d y := by
      intro y hy
      unfold Dict.mem
      rw [get_set_ne hy]
    rw [hmem _ (Ne.symm hself.1), hmem _ (Ne.symm hself.2), if_neg hn, cbInitChain_put hp hm hk hc ha]
    unfold Cb.setAttr
    have hany : (kl.cbChain.any (fun m => (cbAttrs m).contains k)) = true := by
      rw [List.any_eq_true]
      exact ⟨m, hm, by simpa using hka⟩
    dsimp only
    rw [if_pos hany]
    cases cbAssign env kl.ctx k v <;> rfl

end

/-- The chains of control behaviours with settings of their own are plain. -/
theorem GoodKlass.plain {kl : Klass} {m : Mx} {k : String} (h : GoodKlass kl) (hm : m ∈ kl.cbChain) (hk : k ∈ cbKeys m) :
    CbPlain kl.cbChain := by
  rcases h.2.2 with h | ⟨h, -⟩ | ⟨h, -⟩
  · exact h
  · rw [h] at hm
    simp only [List.mem_cons, List.not_mem_nil, or_false] at hm
    rcases hm with rfl | rfl <;> cases hk
  · rw [h] at hm
    simp only [List.mem_cons, List.not_mem_nil, or_false] at hm
    rcases hm with rfl | rfl <;> cases hk

end Verif
