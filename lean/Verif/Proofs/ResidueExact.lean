import Verif.Proofs.Residue
import Mathlib.Data.List.Forall2
/-!
# Exactly what is left in the caller's data
-/
set_option autoImplicit false

namespace Verif
open Spec

theorem new_strict {env : Env} {layer : Option BpId} {kw : Dict} {e : Entity} {n : String}
    (h : Entity.new env (some []) layer kw = .ok e) (hn : List.lookup "name" kw = some (.str n))
    (hst : ∀ s, List.lookup "strict" kw = some s → s.truthy = true) : e.name = n ∧ Solid env e := by
  have hs : e.strict = true ∧ e.name = n := by
    obtain ⟨-, -, name', position, number, e', h1, h2, h3, h4, h5⟩ := Entity.new_ok.1 h
    obtain ⟨pos, dir, cb, a, h6, h7, h8, h9, rfl⟩ := Entity.finish_ok.1 h5
    have h1' : List.lookup "name" kw = some name' := h1
    rw [hn] at h1'
    cases h1'
    have hstrict : (Dict.getD kw "strict" (.bool true)).truthy = true := by
      unfold Dict.getD Dict.get?
      cases hl : List.lookup "strict" kw with
      | none => rfl
      | some v => exact hst v hl
    obtain ⟨s, hs, ⟨hf, -⟩ | ⟨hf, data, t, ms, k, k1, k2, k3, k4, rfl⟩⟩ := Entity.setName_ok h4
    · unfold Entity.raw0 at hf
      rw [hstrict] at hf
      cases hf
    · cases hs
      exact ⟨hf, rfl⟩
  exact ⟨hs.2, Solid.new h hs.1 (fun _ _ _ _ => rfl)⟩

/-- The class of a combinator. -/
def CombiKlass (ty : String) (k : Klass) : Prop :=
  k.cbChain = [if ty = "decider-combinator" then Mx.Decider else Mx.Arithmetic, .Combinator] ∧
    k.ctx.field = conditionsKey ty ∧ k.ctx.type = (if ty = "decider-combinator" then "decider" else "arithmetic") ∧
    k.ctx.operator = (if ty = "decider-combinator" then "comparator" else "operation")

instance (ty : String) : DecidablePred (CombiKlass ty) := fun k => by unfold CombiKlass; infer_instance

theorem Solid.combi {env : Env} {e : Entity} {ty : String} (h : Solid env e) (ht : TypeOf env e.name ty)
    (hty : ty = "arithmetic-combinator" ∨ ty = "decider-combinator") : CombiKlass ty e.klass := by
  rcases hty with rfl | rfl
  · exact row_of (h.typeKlass ht) (by decide +kernel)
  · exact row_of (h.typeKlass ht) (by decide +kernel)

/-- The data of an accepted entity: the conditions of a combinator are emptied. -/
theorem entLeft_emptied {env : Env} {layer : Option BpId} {kw : Dict} {e : Entity}
    (h : Entity.new env (some []) layer kw = .ok e) : Emptied env (.dict kw) (.dict (entLeft env (some []) layer kw)) := by
  by_cases hc : CombinatorData env (.dict kw)
  swap
  · rw [entLeft_same h hc]
    exact .plain hc
  have hc0 := hc
  obtain ⟨_, n, ty, hkw, hn, ht, hty, hcb, hst⟩ := hc
  cases hkw
  obtain ⟨rfl, hsol⟩ := new_strict h hn hst
  obtain ⟨k1, k2, -, -⟩ := hsol.combi ht hty
  have hleft := entLeft_ok h
  cases hx : Dict.get? kw "control_behavior" with
  | none => exact absurd hx hcb
  | some v =>
    have hdict : ∃ c, v = .dict c := by
      obtain ⟨-, -, name, position, number, e', h1, h2, h3, h4, h5⟩ := Entity.new_ok.1 h
      obtain ⟨pos, dir, cb, a, h6, h7, h8, h9, rfl⟩ := Entity.finish_ok.1 h5
      unfold Entity.cbOf at h8
      rw [hx] at h8
      simp only [bind_eq_ok, pure_eq_ok, Except.ok.injEq] at h8
      obtain ⟨c', hn', rfl⟩ := h8
      unfold Cb.new at hn'
      rw [bind_eq_ok] at hn'
      obtain ⟨c, hc, hn'⟩ := hn'
      cases v with
      | dict x => exact ⟨x, rfl⟩
      | _ => cases hc
    obtain ⟨c, rfl⟩ := hdict
    obtain ⟨c', lo, -, hchn⟩ := new_cb h hx
    rw [hx] at hleft
    dsimp only at hleft
    have hcb : ∃ cond, Dict.get? c e.klass.ctx.field = some (.dict cond) ∧ cond ≠ [] ∧
        cbLeft env e.klass.ctx e.klass.cbChain c c = Dict.set c e.klass.ctx.field (.dict []) := by
      rw [k1] at hchn ⊢
      rcases hty with rfl | rfl
      · exact cbLeft_arithmetic hchn
      · exact cbLeft_decider hchn
    obtain ⟨cond, hf, hne, hl⟩ := hcb
    rw [hleft, hl, k2]
    rw [k2] at hf
    exact .combinator hc0 hn ht hx hf hne

theorem entsLeft_emptied {env : Env} {b : BpId} {l : List Val} {es : List Entity}
    (h : buildAll env (some []) b l = .ok es) : List.Forall₂ (Emptied env) l (entsLeft env (some []) b l) := by
  induction l generalizing es with
  | nil => exact .nil
  | cons v vs ih =>
    obtain ⟨kw, e, es', rfl, h1, h2⟩ := buildAll_cons h
    unfold entsLeft
    rw [h1]
    exact .cons (entLeft_emptied h1) (ih h2)

/-- The loop ends at the first entity that is rejected. -/
theorem entsLeft_rejected {env : Env} {b : BpId} {pre post : List Val} {kw : Dict} {es : List Entity} {x : Exc}
    (h : buildAll env (some []) b pre = .ok es) (hx : Entity.new env (some []) (some b) kw = .error x) :
    ∃ pre', List.Forall₂ (Emptied env) pre pre' ∧
      entsLeft env (some []) b (pre ++ .dict kw :: post) = pre' ++ .dict (entLeft env (some []) (some b) kw) :: post := by
  induction pre generalizing es with
  | nil =>
    refine ⟨[], .nil, ?_⟩
    show entsLeft env (some []) b (.dict kw :: post) = _
    unfold entsLeft
    rw [hx]
    rfl
  | cons v vs ih =>
    obtain ⟨kw', e, es', rfl, h1, h2⟩ := buildAll_cons h
    obtain ⟨pre', h3, h4⟩ := ih h2
    refine ⟨.dict (entLeft env (some []) (some b) kw') :: pre', .cons (entLeft_emptied h1) h3, ?_⟩
    show entsLeft env (some []) b (.dict kw' :: (vs ++ .dict kw :: post)) = _
    unfold entsLeft
    rw [h1]
    dsimp only
    rw [h4]
    rfl

/-! ## The conditions of a combinator -/

theorem erase_sublist (d : Dict) (k : String) : (Dict.erase d k).Sublist d := List.filter_sublist

theorem getFrom_sublist (ctx : CbCtx) (d : Dict) (key : String) : (getFrom ctx d key).2.Sublist d := by
  unfold getFrom
  dsimp only
  split
  · split
    · exact (erase_sublist _ _).trans (erase_sublist _ _)
    · exact (erase_sublist _ _).trans (erase_sublist _ _)
  · exact erase_sublist _ _

theorem combinatorBody_sublist (env : Env) (ctx : CbCtx) (cond : Dict) : 
    (combinatorBody env ctx cond).2.Sublist (Dict.erase cond ctx.operator) := by
  have g := fun d k => getFrom_sublist ctx d k
  unfold combinatorBody
  split
  · rename_i h
    have : Dict.erase cond ctx.operator = cond := erase_eq_self.2 h
    rw [this]
  · dsimp only
    have h0 := List.Sublist.refl (Dict.erase cond ctx.operator)
    generalize Dict.erase cond ctx.operator = c0 at h0
    split
    · exact h0
    · have h1 := g c0 "first"
      cases hg : getFrom ctx c0 "first" with
      | mk r c1 =>
      rw [hg] at h1
      have h1 := h1.trans h0
      cases r with
      | error e => exact h1
      | ok f =>
        dsimp only
        split
        · exact h1
        · have h2 := g c1 "second"
          cases hg : getFrom ctx c1 "second" with
          | mk r c2 =>
          rw [hg] at h2
          have h2 := h2.trans h1
          cases r with
          | error e => exact h2
          | ok f =>
            dsimp only
            split
            · exact h2
            · have h3 := g c2 "output"
              cases hg : getFrom ctx c2 "output" with
              | mk r c3 =>
              rw [hg] at h3
              have h3 := h3.trans h2
              cases r with
              | error e => exact h3
              | ok f =>
                dsimp only
                split <;> exact h3

theorem getFrom_stays (ctx : CbCtx) (d : Dict) (key k : String)
    (h1 : k ≠ if ctx.type == "decider" && key == "first" then "constant" else key ++ "_constant")
    (h2 : k ≠ key ++ "_signal") : Dict.get? (getFrom ctx d key).2 k = Dict.get? d k := by
  unfold getFrom
  dsimp only
  split
  · split
    · rw [get_erase_ne h2, get_erase_ne h1]
    · rw [get_erase_ne h2, get_erase_ne h1]
  · rw [get_erase_ne h1]

theorem combinatorBody_kept {env : Env} {ctx : CbCtx} {cond : Dict} {k : String} (h : k ≠ ctx.operator)
    (hk : ∀ key ∈ ["first", "second", "output"],
      k ≠ (if ctx.type == "decider" && key == "first" then "constant" else key ++ "_constant") ∧ k ≠ key ++ "_signal") :
    Dict.get? (combinatorBody env ctx cond).2 k = Dict.get? cond k := by
  have g : ∀ d key, key ∈ ["first", "second", "output"] → Dict.get? (getFrom ctx d key).2 k = Dict.get? d k :=
    fun d key hm => getFrom_stays ctx d key k (hk key hm).1 (hk key hm).2
  unfold combinatorBody
  split
  · rfl
  · dsimp only
    have h0 : Dict.get? (Dict.erase cond ctx.operator) k = Dict.get? cond k := get_erase_ne h
    generalize Dict.erase cond ctx.operator = c0 at h0
    split
    · exact h0
    · have h1 := g c0 "first" (by simp)
      cases hg : getFrom ctx c0 "first" with
      | mk r c1 =>
      rw [hg] at h1
      have h1 := h1.trans h0
      cases r with
      | error e => exact h1
      | ok f =>
        dsimp only
        split
        · exact h1
        · have h2 := g c1 "second" (by simp)
          cases hg : getFrom ctx c1 "second" with
          | mk r c2 =>
          rw [hg] at h2
          have h2 := h2.trans h1
          cases r with
          | error e => exact h2
          | ok f =>
            dsimp only
            split
            · exact h2
            · have h3 := g c2 "output" (by simp)
              cases hg : getFrom ctx c2 "output" with
              | mk r c3 =>
              rw [hg] at h3
              have h3 := h3.trans h2
              cases r with
              | error e => exact h3
              | ok f =>
                dsimp only
                split <;> exact h3

theorem get_sublist_none {d d' : Dict} {k : String} (h : d'.Sublist d) (hk : Dict.get? d k = none) :
    Dict.get? d' k = none := by
  unfold Dict.get? at *
  rw [lookup_none_iff] at *
  exact fun hm => hk ((h.map _).subset hm)

/-- The operator is popped in any case. -/
theorem combinatorBody_operator (env : Env) (ctx : CbCtx) (cond : Dict) :
    Dict.get? (combinatorBody env ctx cond).2 ctx.operator = none := by
  refine get_sublist_none (combinatorBody_sublist env ctx cond) ?_
  unfold Dict.get?
  rw [lookup_erase, if_pos rfl]

theorem cbLeft_arithmetic_any {env : Env} {ctx : CbCtx} {c cond : Dict} (h : Dict.get? c ctx.field = some (.dict cond)) :
    cbLeft env ctx [.Arithmetic, .Combinator] c c =
      Dict.set c ctx.field (.dict (combinatorBody env ctx cond).2) := by
  have hi : cbInit env ctx .Arithmetic c = .ok ([], c) := by
    show (Except.ok ([], eraseKeys c []) : Except Exc (Attrs × Dict)) = _
    rw [eraseKeys_nil]
  have hf : fieldLeft env ctx .Arithmetic c c = c := by
    unfold fieldLeft
    rw [h]
    exact set_same h
  have hf' : fieldLeft env ctx .Combinator c c = Dict.set c ctx.field (.dict (combinatorBody env ctx cond).2) := by
    unfold fieldLeft
    rw [h]
    rfl
  unfold cbLeft
  dsimp only
  rw [hi]
  dsimp only
  rw [if_neg (by decide), hf]
  unfold cbLeft
  dsimp only
  rw [hf']
  split
  · rfl
  · rw [if_neg (by decide)]
    rfl

theorem combinatorBody_nil (env : Env) (ctx : CbCtx) : (combinatorBody env ctx []).2 = [] := rfl

theorem cbLeft_decider_any {env : Env} {ctx : CbCtx} {c cond : Dict} (h : Dict.get? c ctx.field = some (.dict cond)) :
    cbLeft env ctx [.Decider, .Combinator] c c =
      Dict.set c ctx.field (.dict (combinatorBody env ctx (Dict.erase cond "copy_count_from_input")).2) := by
  have hf : fieldLeft env ctx .Decider c c = Dict.set c ctx.field (.dict (Dict.erase cond "copy_count_from_input")) := by
    unfold fieldLeft
    rw [h]
    rfl
  have hi : ∃ w, cbInit env ctx .Decider c = .ok (w,
      if (Dict.erase cond "copy_count_from_input").isEmpty then Dict.erase c ctx.field
      else Dict.set (Dict.erase c ctx.field) ctx.field (.dict (Dict.erase cond "copy_count_from_input"))) := by
    refine ⟨[("copy_count_from_input", Dict.getD cond "copy_count_from_input" (.bool false))], ?_⟩
    show deciderInit ctx c = _
    unfold deciderInit Dict.getItem
    rw [h]
    rfl
  obtain ⟨w, hi⟩ := hi
  unfold cbLeft
  dsimp only
  rw [hi]
  dsimp only
  rw [if_neg (by decide), hf]
  generalize Dict.erase cond "copy_count_from_input" = cond'
  have hf' : fieldLeft env ctx .Combinator
      (if cond'.isEmpty then Dict.erase c ctx.field else Dict.set (Dict.erase c ctx.field) ctx.field (.dict cond'))
      (Dict.set c ctx.field (.dict cond')) = Dict.set c ctx.field (.dict (combinatorBody env ctx cond').2) := by
    unfold fieldLeft
    by_cases he : cond'.isEmpty = true
    · rw [if_pos he]
      obtain rfl := List.isEmpty_iff.1 he
      have : Dict.get? (Dict.erase c ctx.field) ctx.field = none := by
        unfold Dict.get?
        rw [lookup_erase, if_pos rfl]
      rw [this]
      rfl
    · rw [if_neg he, get_set_self]
      dsimp only
      rw [set_set]
      rfl
  unfold cbLeft
  dsimp only
  rw [hf']
  split
  · rfl
  · rw [if_neg (by decide)]
    rfl

/-- The data of a combinator that is accepted without its control behaviour: the keys read from its conditions are
gone, also if the control behaviour is rejected. -/
theorem entLeft_conditions {env : Env} {layer : Option BpId} {kw c cond : Dict} {e : Entity} {n ty : String}
    (h : Entity.new env (some []) layer (Dict.erase kw "control_behavior") = .ok e)
    (hn : List.lookup "name" kw = some (.str n)) (ht : TypeOf env n ty)
    (hty : ty = "arithmetic-combinator" ∨ ty = "decider-combinator")
    (hst : ∀ s, List.lookup "strict" kw = some s → s.truthy = true)
    (hc : List.lookup "control_behavior" kw = some (.dict c)) (hs : Dict.mem c "self" = false)
    (he : Dict.mem c "_entity" = false) (hf : List.lookup (conditionsKey ty) c = some (.dict cond)) :
    ∃ cond', entLeft env (some []) layer kw =
        Dict.set kw "control_behavior" (.dict (Dict.set c (conditionsKey ty) (.dict cond'))) ∧
      cond'.Sublist cond ∧
      (∀ k, k ∉ conditionKeys ty → List.lookup k cond' = List.lookup k cond) ∧
      List.lookup (if ty = "decider-combinator" then "comparator" else "operation") cond' = none ∧
      (ty = "decider-combinator" → List.lookup "copy_count_from_input" cond' = none) := by
  have hg : ∀ k, k ≠ "control_behavior" → Dict.get? (Dict.erase kw "control_behavior") k = Dict.get? kw k :=
    fun k hk => get_erase_ne hk
  obtain ⟨rfl, hsol⟩ := new_strict h (by have := hg "name" (by decide); unfold Dict.get? at this; rw [this]; exact hn)
    (by have := hg "strict" (by decide); unfold Dict.get? at this; rw [this]; exact hst)
  obtain ⟨k1, k2, k3, k4⟩ := hsol.combi ht hty
  have hleft : entLeft env (some []) layer kw =
      Dict.set kw "control_behavior" (.dict (cbLeft env e.klass.ctx e.klass.cbChain c c)) := by
    obtain ⟨h1, h2, name, position, number, e', h3, h4, h5, h6, h7⟩ := Entity.new_ok.1 h
    obtain ⟨pos, dir, cb, a, h8, h9, h10, h11, rfl⟩ := Entity.finish_ok.1 h7
    unfold Dict.mem at h1 h2
    unfold Dict.getD at h5 h9
    unfold Entity.raw0 Dict.getD at h6
    rw [hg _ (by decide)] at h1 h2 h3 h4 h5 h6 h9
    unfold entLeft Dict.mem Dict.getD
    rw [h1, h2, h3, h4, h5]
    simp only [Bool.or_self, Bool.false_eq_true, if_false, h6, h8, h9]
    have hc' : Dict.get? kw "control_behavior" = some (.dict c) := hc
    unfold Dict.mem at hs he
    rw [hc']
    dsimp only
    rw [hs, he]
    rfl
  have hf' : Dict.get? c e.klass.ctx.field = some (.dict cond) := by rw [k2]; exact hf
  have key : ∃ cond0, cbLeft env e.klass.ctx e.klass.cbChain c c =
        Dict.set c e.klass.ctx.field (.dict (combinatorBody env e.klass.ctx cond0).2) ∧ cond0.Sublist cond ∧
      (∀ k, k ∉ conditionKeys ty → Dict.get? cond0 k = Dict.get? cond k) ∧
      (ty = "decider-combinator" → Dict.get? cond0 "copy_count_from_input" = none) := by
    rw [k1]
    rcases hty with rfl | rfl
    · exact ⟨cond, cbLeft_arithmetic_any hf', .refl _, fun _ _ => rfl, fun e => absurd e (by decide)⟩
    · refine ⟨_, cbLeft_decider_any hf', erase_sublist _ _, fun k hk => get_erase_ne ?_, fun _ => ?_⟩
      · rintro rfl
        exact hk (by decide)
      · unfold Dict.get?
        rw [lookup_erase, if_pos rfl]
  obtain ⟨cond0, q1, q2, q3, q4⟩ := key
  have hsub : (combinatorBody env e.klass.ctx cond0).2.Sublist cond0 :=
    (combinatorBody_sublist env e.klass.ctx cond0).trans (erase_sublist _ _)
  refine ⟨(combinatorBody env e.klass.ctx cond0).2, by rw [hleft, q1, k2], hsub.trans q2, fun k hk => ?_, ?_, fun h => ?_⟩
  · refine (combinatorBody_kept ?_ ?_).trans (q3 k hk)
    · rintro rfl
      rw [k4] at hk
      rcases hty with rfl | rfl <;> exact hk (by decide)
    · intro key hkey
      rw [k3]
      simp only [List.mem_cons, List.not_mem_nil, or_false] at hkey
      rcases hty with rfl | rfl <;> rcases hkey with rfl | rfl | rfl <;>
        exact ⟨by rintro rfl; exact hk (by decide), by rintro rfl; exact hk (by decide)⟩
  · rw [← k4]
    exact combinatorBody_operator env e.klass.ctx cond0
  · exact get_sublist_none hsub (q4 h)

end Verif
