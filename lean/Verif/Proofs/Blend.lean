import Verif.Proofs.Accept
import Verif.Spec.Blend
/-!
# Helper lemmas: entity data put together from two others
-/
set_option autoImplicit false

namespace Verif
open Spec

theorem blend_get {x y z : Dict} (h : Blend x y z) (k : String) :
    Dict.get? z k = Dict.get? x k ∨ Dict.get? z k = Dict.get? y k := h k

theorem blend_eraseKeys {x y z : Dict} (h : Blend x y z) (ks : List String) :
    Blend (eraseKeys x ks) (eraseKeys y ks) (eraseKeys z ks) := by
  intro k
  simp only [lookup_eraseKeys]
  split
  · exact .inl rfl
  · exact h k

theorem isEmpty_iff {d : Dict} : d.isEmpty = true ↔ ∀ k, List.lookup k d = none := by
  cases d with
  | nil => simp
  | cons p d =>
    simp only [List.isEmpty_cons, Bool.false_eq_true, false_iff, not_forall]
    exact ⟨p.1, by simp [List.lookup]⟩

theorem blend_isEmpty {x y z : Dict} (h : Blend x y z) (hx : x.isEmpty = true) (hy : y.isEmpty = true) :
    z.isEmpty = true := by
  rw [isEmpty_iff] at *
  intro k
  rcases h k with e | e
  · rw [e, hx]
  · rw [e, hy]

/-- Each behaviour reads each of its settings on its own. -/
theorem mxRead_blend {env : Env} {strict sh : Bool} {m : Mx} {x y z : Kw} (h : ∀ k, z k = x k ∨ z k = y k)
    (hx : ∃ a, mxRead env strict sh m x = .ok a) (hy : ∃ a, mxRead env strict sh m y = .ok a) :
    ∃ a, mxRead env strict sh m z = .ok a := by
  obtain ⟨ax, hx⟩ := hx
  obtain ⟨ay, hy⟩ := hy
  cases m
  case Inserter =>
    simp only [mxRead, Kw.orNone, bind_eq_ok, pure_eq_ok, Except.ok.injEq] at hx hy ⊢
    obtain ⟨o, ho, p, hp, d, hd, -⟩ := hx
    obtain ⟨o', ho', p', hp', d', hd', -⟩ := hy
    rcases h "override_stack_size" with e1 | e1 <;> rcases h "pickup_position" with e2 | e2 <;>
      rcases h "drop_position" with e3 | e3 <;> rw [e1, e2, e3] <;>
      exact ⟨_, _, by assumption, _, by assumption, _, by assumption, rfl⟩
  case FilterInserter =>
    simp only [mxRead, Kw.orNone, bind_eq_ok, pure_eq_ok, Except.ok.injEq] at hx hy ⊢
    obtain ⟨fs, h1, h2⟩ := hx
    obtain ⟨fs', h1', h2'⟩ := hy
    rcases h "filters" with e1 | e1
    · split at h2
      · cases h2
      · rename_i hs
        simp only [bind_eq_ok, Except.ok.injEq] at h2
        obtain ⟨l, hl, mode, hm, -⟩ := h2
        rw [e1]
        split at h2'
        · cases h2'
        · simp only [bind_eq_ok, Except.ok.injEq] at h2'
          obtain ⟨l', -, mode', hm', -⟩ := h2'
          rcases h "filter_mode" with e2 | e2 <;> rw [e2] <;>
            exact ⟨_, fs, h1, by rw [if_neg hs]; simp only [bind_eq_ok]; exact ⟨l, hl, _, by assumption, rfl⟩⟩
    · split at h2
      · cases h2
      · simp only [bind_eq_ok, Except.ok.injEq] at h2
        obtain ⟨l, -, mode, hm, -⟩ := h2
        rw [e1]
        split at h2'
        · cases h2'
        · rename_i hs
          simp only [bind_eq_ok, Except.ok.injEq] at h2'
          obtain ⟨l', hl', mode', hm', -⟩ := h2'
          rcases h "filter_mode" with e2 | e2 <;> rw [e2] <;>
            exact ⟨_, fs', h1', by rw [if_neg hs]; simp only [bind_eq_ok]; exact ⟨l', hl', _, by assumption, rfl⟩⟩
  case Requester =>
    simp only [mxRead, Kw.orNone, bind_eq_ok, pure_eq_ok, Except.ok.injEq] at hx hy ⊢
    obtain ⟨l, hl, -⟩ := hx
    obtain ⟨l', hl', -⟩ := hy
    rcases h "request_filters" with e1 | e1 <;> rw [e1] <;> exact ⟨_, _, by assumption, rfl⟩
  case Speaker =>
    simp only [mxRead, Kw.orNone, bind_eq_ok, pure_eq_ok, Except.ok.injEq] at hx hy ⊢
    obtain ⟨p, hp, a, ha, -⟩ := hx
    obtain ⟨p', hp', a', ha', -⟩ := hy
    rcases h "parameters" with e1 | e1 <;> rcases h "alert_parameters" with e2 | e2 <;> rw [e1, e2] <;>
      exact ⟨_, _, by assumption, _, by assumption, rfl⟩
  case Splitter =>
    simp only [mxRead, Kw.orNone, bind_eq_ok, pure_eq_ok, Except.ok.injEq] at hx hy ⊢
    obtain ⟨o, ho, p, hp, d, hd, -⟩ := hx
    obtain ⟨o', ho', p', hp', d', hd', -⟩ := hy
    rcases h "input_priority" with e1 | e1 <;> rcases h "output_priority" with e2 | e2 <;>
      rcases h "filter" with e3 | e3 <;> rw [e1, e2, e3] <;>
      exact ⟨_, _, by assumption, _, by assumption, _, by assumption, rfl⟩
  case Items =>
    simp only [mxRead, Kw.orNone] at hx hy ⊢
    rcases h "items" with e | e <;> rw [e]
    · exact ⟨_, hx⟩
    · exact ⟨_, hy⟩
  case Train =>
    simp only [mxRead, Kw.orNone] at hx hy ⊢
    rcases h "orientation" with e | e <;> rw [e]
    · exact ⟨_, hx⟩
    · exact ⟨_, hy⟩
  case Cargo =>
    simp only [mxRead, Kw.orNone] at hx hy ⊢
    rcases h "inventory" with e | e <;> rw [e]
    · exact ⟨_, hx⟩
    · exact ⟨_, hy⟩
  case Color =>
    simp only [mxRead, Kw.orNone] at hx hy ⊢
    rcases h "color" with e | e <;> rw [e]
    · exact ⟨_, hx⟩
    · exact ⟨_, hy⟩
  case Container =>
    simp only [mxRead, Kw.orNone] at hx hy ⊢
    rcases h "bar" with e | e <;> rw [e]
    · exact ⟨_, hx⟩
    · exact ⟨_, hy⟩
  case InfinityContainer =>
    simp only [mxRead, Kw.orNone] at hx hy ⊢
    rcases h "infinity_settings" with e | e <;> rw [e]
    · exact ⟨_, hx⟩
    · exact ⟨_, hy⟩
  case Recipe =>
    simp only [mxRead, Kw.orNone] at hx hy ⊢
    rcases h "recipe" with e | e <;> rw [e]
    · exact ⟨_, hx⟩
    · exact ⟨_, hy⟩
  case Silo =>
    simp only [mxRead, Kw.orNone] at hx hy ⊢
    rcases h "auto_launch" with e | e <;> rw [e]
    · exact ⟨_, hx⟩
    · exact ⟨_, hy⟩
  case Underground =>
    simp only [mxRead, Kw.orNone] at hx hy ⊢
    rcases h "type" with e | e <;> rw [e]
    · exact ⟨_, hx⟩
    · exact ⟨_, hy⟩
  case Variation =>
    simp only [mxRead, Kw.orNone] at hx hy ⊢
    rcases h "variation" with e | e <;> rw [e]
    · exact ⟨_, hx⟩
    · exact ⟨_, hy⟩
  all_goals exact ⟨_, rfl⟩

/-- Positional arguments are refused at the end of the chain. -/
theorem initChain_true {env : Env} {strict sh : Bool} {x : Exc} {ms : List Mx} {kw : Dict} {a b : Attrs} :
    initChain env strict sh x ms true kw a ≠ .ok b := by
  induction ms generalizing kw a with
  | nil => simp [initChain]
  | cons m ms ih =>
    unfold initChain
    split
    · simp
    · split
      · exact ih
      · exact ih

theorem initChain_blend {env : Env} {strict sh : Bool} {e : Exc} {ms : List Mx} {args : Bool} {x y z : Dict}
    {ax ay az bx bY : Attrs} (h : Blend x y z) (hx : initChain env strict sh e ms args x ax = .ok bx)
    (hy : initChain env strict sh e ms args y ay = .ok bY) : ∃ bz, initChain env strict sh e ms args z az = .ok bz := by
  induction ms generalizing args x y z ax ay az with
  | nil =>
    rw [initChain] at hx hy ⊢
    split at hx
    · cases hx
    · split at hy
      · cases hy
      · rename_i h1 h2
        simp only [Bool.or_eq_true, Bool.not_eq_true', not_or, Bool.not_eq_true, Bool.not_eq_false] at h1 h2
        exact ⟨az, by rw [if_neg]; simp [h1.1, blend_isEmpty h h1.2 h2.2]⟩
  | cons m ms ih =>
    rw [initChain] at hx hy ⊢
    split at hx
    · cases hx
    · rename_i wx hwx
      split at hy
      · cases hy
      · rename_i wy hwy
        obtain ⟨wz, hwz⟩ := mxRead_blend (z := Dict.get? z) (blend_get h) ⟨_, hwx⟩ ⟨_, hwy⟩
        rw [hwz]
        dsimp only at hx hy ⊢
        split at hx
        · rename_i hm
          rw [if_pos hm] at hy ⊢
          have ex : (args || !(eraseKeys x (mxKeys m)).isEmpty) = false := by
            by_contra hc
            rw [Bool.not_eq_false] at hc
            rw [hc] at hx
            exact initChain_true hx
          have ey : (args || !(eraseKeys y (mxKeys m)).isEmpty) = false := by
            by_contra hc
            rw [Bool.not_eq_false] at hc
            rw [hc] at hy
            exact initChain_true hy
          have ez : (args || !(eraseKeys z (mxKeys m)).isEmpty) = false := by
            simp only [Bool.or_eq_false_iff, Bool.not_eq_false'] at ex ey ⊢
            exact ⟨ex.1, blend_isEmpty (blend_eraseKeys h _) ex.2 ey.2⟩
          rw [ex] at hx
          rw [ey] at hy
          rw [ez]
          exact ih (fun k => .inl rfl) hx hy
        · rename_i hm
          rw [if_neg hm] at hy ⊢
          exact ih (blend_eraseKeys h _) hx hy

/-- Each control behaviour reads each of its settings on its own. -/
theorem cbRead_blend {env : Env} {ctx : CbCtx} {m : Mx} {x y z : Kw} (h : ∀ k, z k = x k ∨ z k = y k)
    (hx : ∃ a, cbRead env ctx m x = .ok a) (hy : ∃ a, cbRead env ctx m y = .ok a) : ∃ a, cbRead env ctx m z = .ok a := by
  obtain ⟨ax, hx⟩ := hx
  obtain ⟨ay, hy⟩ := hy
  cases m
  case TrainSignal =>
    simp only [cbRead, Kw.orNone, bind_eq_ok, pure_eq_ok, Except.ok.injEq] at hx hy ⊢
    obtain ⟨o, ho, p, hp, d, hd, -⟩ := hx
    obtain ⟨o', ho', p', hp', d', hd', -⟩ := hy
    rcases h "red_output_signal" with e1 | e1 <;> rcases h "orange_output_signal" with e2 | e2 <;>
      rcases h "green_output_signal" with e3 | e3 <;> rw [e1, e2, e3] <;>
      exact ⟨_, _, by assumption, _, by assumption, _, by assumption, rfl⟩
  case Roboport =>
    simp only [cbRead, Kw.orNone, bind_eq_ok, pure_eq_ok, Except.ok.injEq] at hx hy ⊢
    obtain ⟨o, ho, p, hp, d, hd, c, hc, -⟩ := hx
    obtain ⟨o', ho', p', hp', d', hd', c', hc', -⟩ := hy
    rcases h "available_construction_output_signal" with e1 | e1 <;>
      rcases h "total_construction_output_signal" with e2 | e2 <;>
      rcases h "available_logistic_output_signal" with e3 | e3 <;>
      rcases h "total_logistic_output_signal" with e4 | e4 <;> rw [e1, e2, e3, e4] <;>
      exact ⟨_, _, by assumption, _, by assumption, _, by assumption, _, by assumption, rfl⟩
  case Inserter =>
    simp only [cbRead, Kw.orNone, bind_eq_ok, pure_eq_ok, Except.ok.injEq] at hx hy ⊢
    obtain ⟨o, ho, -⟩ := hx
    obtain ⟨o', ho', -⟩ := hy
    rcases h "stack_control_input_signal" with e | e <;> rw [e] <;> exact ⟨_, _, by assumption, rfl⟩
  case Station =>
    simp only [cbRead, Kw.orNone, bind_eq_ok, pure_eq_ok, Except.ok.injEq] at hx hy ⊢
    obtain ⟨o, ho, -⟩ := hx
    obtain ⟨o', ho', -⟩ := hy
    rcases h "train_stopped_signal" with e | e <;> rw [e] <;> exact ⟨_, _, by assumption, rfl⟩
  case Accumulator =>
    simp only [cbRead, Kw.orNone] at hx hy ⊢
    rcases h "output_signal" with e | e <;> rw [e]
    · exact ⟨_, hx⟩
    · exact ⟨_, hy⟩
  case Filters =>
    simp only [cbRead, Kw.orNone] at hx hy ⊢
    rcases h "filters" with e | e <;> rw [e]
    · exact ⟨_, hx⟩
    · exact ⟨_, hy⟩
  case ChainSignal =>
    simp only [cbRead, Kw.orNone] at hx hy ⊢
    rcases h "blue_output_signal" with e | e <;> rw [e]
    · exact ⟨_, hx⟩
    · exact ⟨_, hy⟩
  case CircuitCondition =>
    simp only [cbRead, Kw.orNone] at hx hy ⊢
    rcases h "circuit_condition" with e | e <;> rw [e]
    · exact ⟨_, hx⟩
    · exact ⟨_, hy⟩
  case Speaker =>
    simp only [cbRead, Kw.orNone] at hx hy ⊢
    rcases h "circuit_parameters" with e | e <;> rw [e]
    · exact ⟨_, hx⟩
    · exact ⟨_, hy⟩
  all_goals exact ⟨_, rfl⟩

theorem getD_blend {x y z : Dict} (h : Blend x y z) (k : String) (v : Val) :
    Dict.getD z k v = Dict.getD x k v ∨ Dict.getD z k v = Dict.getD y k v := by
  unfold Dict.getD
  rcases blend_get h k with e | e <;> rw [e]
  · exact .inl rfl
  · exact .inr rfl

/-- What is left after a combinator has read its conditions. -/
def condRest (kw : Dict) (f : String) (rest : Dict) : Dict :=
  if rest.isEmpty then Dict.erase kw f else Dict.set (Dict.erase kw f) f (.dict rest)

theorem lookup_condRest (kw : Dict) (f : String) (rest : Dict) (k : String) :
    List.lookup k (condRest kw f rest) =
      if k = f then (if rest.isEmpty then none else some (.dict rest)) else List.lookup k kw := by
  unfold condRest
  split
  · rw [lookup_erase]
  · rw [lookup_set, lookup_erase]
    split <;> rfl

theorem condRest_blend {x y z rx ry rz : Dict} {f : String} (h : Blend x y z) (hr : rz = rx ∨ rz = ry) :
    Blend (condRest x f rx) (condRest y f ry) (condRest z f rz) := by
  intro k
  simp only [lookup_condRest]
  split
  · rcases hr with rfl | rfl
    · exact .inl rfl
    · exact .inr rfl
  · exact h k

theorem combinatorInit_rest {env : Env} {ctx : CbCtx} {kw : Dict} {r : Attrs × Dict} :
    combinatorInit env ctx kw = .ok r ↔ ∃ cond a rest, (Dict.getD kw ctx.field (.dict [])).asPopDict = .ok cond ∧
      combinatorBody env ctx cond = (.ok a, rest) ∧ r = (a, condRest kw ctx.field rest) := by
  unfold combinatorInit condRest
  simp only [bind_eq_ok]
  constructor
  · rintro ⟨cond, hc, h⟩
    split at h
    · cases h
    · rename_i a rest hb
      cases h
      exact ⟨cond, a, rest, hc, hb, rfl⟩
  · rintro ⟨cond, a, rest, hc, hb, rfl⟩
    refine ⟨cond, hc, ?_⟩
    rw [hb]
    rfl

theorem deciderInit_rest {ctx : CbCtx} {kw : Dict} {r : Attrs × Dict} :
    deciderInit ctx kw = .ok r ↔ ∃ v cond, Dict.get? kw ctx.field = some v ∧ v.asPopDict = .ok cond ∧
      r = ([("copy_count_from_input", Dict.getD cond "copy_count_from_input" (.bool false))],
        condRest kw ctx.field (Dict.erase cond "copy_count_from_input")) := by
  unfold deciderInit condRest Dict.getItem
  simp only [bind_eq_ok, pure_eq_ok, Except.ok.injEq]
  constructor
  · rintro ⟨v, hv, cond, hc, rfl⟩
    split at hv
    · rename_i u hu
      cases hv
      exact ⟨_, cond, hu, hc, rfl⟩
    · cases hv
  · rintro ⟨v, cond, hv, hc, rfl⟩
    exact ⟨v, by rw [hv], cond, hc, rfl⟩

theorem cbInit_blend {env : Env} {ctx : CbCtx} {m : Mx} {x y z : Dict} {rx ry : Attrs × Dict} (h : Blend x y z)
    (hx : cbInit env ctx m x = .ok rx) (hy : cbInit env ctx m y = .ok ry) :
    ∃ rz, cbInit env ctx m z = .ok rz ∧ Blend rx.2 ry.2 rz.2 := by
  by_cases h1 : m = .Combinator
  · subst h1
    simp only [cbInit, combinatorInit_rest] at hx hy ⊢
    obtain ⟨cx, ax, sx, h1, h2, rfl⟩ := hx
    obtain ⟨cy, ay, sy, h3, h4, rfl⟩ := hy
    rcases getD_blend h ctx.field (.dict []) with e | e
    · exact ⟨_, ⟨cx, ax, sx, by rw [e]; exact h1, h2, rfl⟩, condRest_blend h (.inl rfl)⟩
    · exact ⟨_, ⟨cy, ay, sy, by rw [e]; exact h3, h4, rfl⟩, condRest_blend h (.inr rfl)⟩
  by_cases h2 : m = .Decider
  · subst h2
    simp only [cbInit, deciderInit_rest] at hx hy ⊢
    obtain ⟨vx, cx, h1, h2, rfl⟩ := hx
    obtain ⟨vy, cy, h3, h4, rfl⟩ := hy
    rcases blend_get h ctx.field with e | e
    · exact ⟨_, ⟨vx, cx, by rw [e]; exact h1, h2, rfl⟩, condRest_blend h (.inl rfl)⟩
    · exact ⟨_, ⟨vy, cy, by rw [e]; exact h3, h4, rfl⟩, condRest_blend h (.inr rfl)⟩
  have key : ∀ kw, cbInit env ctx m kw = (do
      let a ← cbRead env ctx m (Dict.get? kw)
      return (a, eraseKeys kw (cbKeys m))) := by
    intro kw
    cases m <;> first | rfl | exact absurd rfl h1 | exact absurd rfl h2
  rw [key] at hx hy
  simp only [bind_eq_ok, pure_eq_ok, Except.ok.injEq] at hx hy
  obtain ⟨ax, hx, rfl⟩ := hx
  obtain ⟨ay, hy, rfl⟩ := hy
  obtain ⟨az, hz⟩ := cbRead_blend (z := Dict.get? z) (blend_get h) ⟨_, hx⟩ ⟨_, hy⟩
  refine ⟨(az, eraseKeys z (cbKeys m)), ?_, blend_eraseKeys h _⟩
  rw [key, hz]
  rfl

theorem cbInitChain_blend {env : Env} {ctx : CbCtx} {e : Exc} {ms : List Mx} {x y z : Dict} {ax ay az bx bY : Attrs}
    (h : Blend x y z) (hx : cbInitChain env ctx e ms x ax = .ok bx) (hy : cbInitChain env ctx e ms y ay = .ok bY) :
    ∃ bz, cbInitChain env ctx e ms z az = .ok bz := by
  induction ms generalizing x y z ax ay az with
  | nil =>
    rw [cbInitChain] at hx hy ⊢
    split at hx
    · split at hy
      · rename_i h1 h2
        exact ⟨az, by rw [if_pos (blend_isEmpty h h1 h2)]⟩
      · cases hy
    · cases hx
  | cons m ms ih =>
    rw [cbInitChain] at hx hy ⊢
    split at hx
    · cases hx
    · rename_i wx kx hwx
      split at hy
      · cases hy
      · rename_i wy ky hwy
        obtain ⟨⟨wz, kz⟩, hwz, hb⟩ := cbInit_blend h hwx hwy
        rw [hwz]
        dsimp only at hx hy ⊢
        split at hx
        · rename_i hm
          rw [if_pos hm]
          exact ⟨_, rfl⟩
        · rename_i hm
          rw [if_neg hm] at hy ⊢
          exact ih hb hx hy

theorem mem_of_blend {x y z : Dict} (h : Blend x y z) {k : String} (hx : Dict.mem x k = false) (hy : Dict.mem y k = false) :
    Dict.mem z k = false := by
  unfold Dict.mem at *
  rcases blend_get h k with e | e <;> rw [e] <;> assumption

theorem cbNew_ok {env : Env} {e : Exc} {k : Klass} {v : Val} :
    (∃ c, Cb.new env e k v = .ok c) ↔ ∃ kw, v = .dict kw ∧ Dict.mem kw "self" = false ∧ Dict.mem kw "_entity" = false ∧
      ∃ a, cbInitChain env k.ctx e k.cbChain kw [] = .ok a := by
  unfold Cb.new
  simp only [bind_eq_ok, kwargs_ok]
  constructor
  · rintro ⟨c, kw, rfl, h⟩
    split at h
    · cases h
    · rename_i hk
      simp only [Bool.or_eq_true, not_or, Bool.not_eq_true] at hk
      simp only [bind_eq_ok] at h
      obtain ⟨a, ha, -⟩ := h
      exact ⟨kw, rfl, hk.1, hk.2, a, ha⟩
  · rintro ⟨kw, rfl, h1, h2, a, ha⟩
    refine ⟨⟨k.cbChain, k.ctx, a⟩, kw, rfl, ?_⟩
    rw [if_neg (by simp [h1, h2]), ha]
    rfl

theorem cbOf_blend {env : Env} {e : Entity} {x y z : Dict} {cx cy : Option Cb}
    (hc : List.lookup "control_behavior" z = List.lookup "control_behavior" x ∨
      List.lookup "control_behavior" z = List.lookup "control_behavior" y ∨
      ∃ cx cy cz, List.lookup "control_behavior" x = some (.dict cx) ∧ List.lookup "control_behavior" y = some (.dict cy) ∧
        List.lookup "control_behavior" z = some (.dict cz) ∧ Blend cx cy cz)
    (hx : Entity.cbOf env e x = .ok cx) (hy : Entity.cbOf env e y = .ok cy) : ∃ cz, Entity.cbOf env e z = .ok cz := by
  unfold Entity.cbOf Dict.get? at *
  rcases hc with h | h | ⟨dx, dy, dz, h1, h2, h3, hb⟩
  · rw [h]; exact ⟨_, hx⟩
  · rw [h]; exact ⟨_, hy⟩
  · rw [h1] at hx
    rw [h2] at hy
    rw [h3]
    simp only [bind_eq_ok] at hx hy ⊢
    obtain ⟨c, hx, -⟩ := hx
    obtain ⟨c', hy, -⟩ := hy
    obtain ⟨kx, ex, a1, a2, _, a3⟩ := cbNew_ok.1 ⟨_, hx⟩
    obtain ⟨ky, ey, b1, b2, _, b3⟩ := cbNew_ok.1 ⟨_, hy⟩
    cases ex
    cases ey
    obtain ⟨cz, hz⟩ := cbNew_ok.2 ⟨dz, rfl, mem_of_blend hb a1 b1, mem_of_blend hb a2 b2, cbInitChain_blend hb a3 b3⟩
    exact ⟨_, cz, hz, rfl⟩

/-- The number does not matter for the name and the class. -/
theorem setName_number (env : Env) (custom : Option Custom) (e : Entity) (n m : Option Int) (v : Val) :
    Entity.setName env custom { e with number := n, auto := m } v =
      ((Entity.setName env custom e v).1, { (Entity.setName env custom e v).2 with number := n, auto := m }) := by
  unfold Entity.setName
  dsimp only
  split
  · split <;> rfl
  · split
    · split
      · rfl
      · rename_i data _
        cases data.subscript "type" with
        | error x => rfl
        | ok t =>
          dsimp only
          cases mixinsFor custom t with
          | error x => rfl
          | ok ms =>
            dsimp only
            cases Klass.extend e.depth e.klass ms <;> rfl
    · rfl

theorem new_blend {env : Env} {custom : Option Custom} {layer : Option BpId} {x y z : Dict} {ex ey : Entity}
    (h : BlendEntity x y z) (hx : Entity.new env custom layer x = .ok ex) (hy : Entity.new env custom layer y = .ok ey) :
    ∃ ez, Entity.new env custom layer z = .ok ez := by
  have hget : ∀ k, k ≠ "control_behavior" → Dict.get? z k = Dict.get? x k ∨ Dict.get? z k = Dict.get? y k := h.rest
  have hgetD : ∀ k v, k ≠ "control_behavior" → Dict.getD z k v = Dict.getD x k v ∨ Dict.getD z k v = Dict.getD y k v := by
    intro k v hk
    unfold Dict.getD
    rcases hget k hk with e | e <;> rw [e]
    · exact .inl rfl
    · exact .inr rfl
  have hmem : ∀ k, k ≠ "control_behavior" → Dict.mem x k = false → Dict.mem y k = false → Dict.mem z k = false := by
    intro k hk h1 h2
    unfold Dict.mem at *
    rcases hget k hk with e | e <;> rw [e] <;> assumption
  obtain ⟨x1, x2, name, px, nx, ex', x3, x4, x5, x6, x7⟩ := Entity.new_ok.1 hx
  obtain ⟨y1, y2, name', py, ny, ey', y3, y4, y5, y6, y7⟩ := Entity.new_ok.1 hy
  have hname : name = name' := by
    have : Dict.get? x "name" = Dict.get? y "name" := h.name
    rw [x3, y3] at this
    cases this; rfl
  subst hname
  have z3 : Dict.get? z "name" = some name := by
    rcases hget "name" (by decide) with e | e <;> rw [e] <;> assumption
  have hstrict : Dict.getD x "strict" (.bool true) = Dict.getD y "strict" (.bool true) := by
    unfold Dict.getD Dict.get?
    rw [h.strict]
  have zstrict : Dict.getD z "strict" (.bool true) = Dict.getD x "strict" (.bool true) := by
    rcases hgetD "strict" (.bool true) (by decide) with e | e <;> rw [e]
    rw [hstrict]
  have eqy : Entity.raw0 layer y ny = { Entity.raw0 layer x nx with number := ny, auto := ny } := by
    unfold Entity.raw0
    rw [hstrict]
  have eqz : ∀ nz, Entity.raw0 layer z nz = { Entity.raw0 layer x nx with number := nz, auto := nz } := by
    intro nz
    unfold Entity.raw0
    rw [zstrict]
  rw [eqy, setName_number, x6] at y6
  cases y6
  obtain ⟨posx, dirx, cbx, ax, f1, f2, f3, f4, -⟩ := Entity.finish_ok.1 x7
  obtain ⟨posy, diry, cby, ay, g1, g2, g3, g4, -⟩ := Entity.finish_ok.1 y7
  have z4 : ∃ pz posz, Dict.get? z "position" = some pz ∧ Entity.posOf pz = .ok posz := by
    rcases hget "position" (by decide) with e | e <;> rw [e]
    · exact ⟨_, _, x4, f1⟩
    · exact ⟨_, _, y4, g1⟩
  have z5 : ∃ nz, Entity.numberOf (Dict.getD z "entity_number" .none) = .ok nz := by
    rcases hgetD "entity_number" .none (by decide) with e | e <;> rw [e]
    · exact ⟨_, x5⟩
    · exact ⟨_, y5⟩
  have z6 : ∃ dz, Direction.ofVal (Dict.getD z "direction" (.int 0)) = .ok dz := by
    rcases hgetD "direction" (.int 0) (by decide) with e | e <;> rw [e]
    · exact ⟨_, f2⟩
    · exact ⟨_, g2⟩
  obtain ⟨pz, posz, z4, zp⟩ := z4
  obtain ⟨nz, z5⟩ := z5
  obtain ⟨dz, z6⟩ := z6
  have z7 := setName_number env custom (Entity.raw0 layer x nx) nz nz name
  rw [x6, ← eqz] at z7
  obtain ⟨cz, z8⟩ := cbOf_blend (e := ex') h.control f3 g3
  have hb : Blend (eraseKeys x (Entity.ownKeys ++ ["connections", "control_behavior"]))
      (eraseKeys y (Entity.ownKeys ++ ["connections", "control_behavior"]))
      (eraseKeys z (Entity.ownKeys ++ ["connections", "control_behavior"])) := by
    intro k
    simp only [lookup_eraseKeys]
    split
    · exact .inl rfl
    · rename_i hk
      exact h.rest k (fun e => hk (by rw [e]; decide))
  obtain ⟨az, z9⟩ := initChain_blend (az := []) hb f4 g4
  refine ⟨_, Entity.new_ok.2 ⟨hmem _ (by decide) x1 y1, hmem _ (by decide) x2 y2, name, pz, nz, _, z3, z4, z5, z7,
    Entity.finish_ok.2 ⟨posz, dz, cz, az, zp, z6, z8, z9, rfl⟩⟩⟩

end Verif
