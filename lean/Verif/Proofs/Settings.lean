import Verif.Proofs.Chain
import Verif.Proofs.Make
import Verif.Proofs.Names
import Verif.Spec.Names
/-!
# Helper lemmas: what an accepted constructor call has consumed
-/
set_option autoImplicit false

namespace Verif

theorem settings_eq (m : Mx) : Spec.settings m = mxKeys m := by cases m <;> rfl

theorem controlSettings_eq (m : Mx) : Spec.controlSettings m = cbKeys m := by cases m <;> rfl

namespace Entity

theorem new_chain {env : Env} {custom : Option Custom} {layer : Option BpId} {kw : Dict} {e : Entity}
    (h : new env custom layer kw = .ok e) :
    initChain env e.strict e.klass.insFiltersShadowed (leftoverExc env e.name) e.klass.chain false
      (eraseKeys kw (ownKeys ++ ["connections", "control_behavior"])) [] = .ok e.attrs := by
  obtain ⟨-, -, name, position, number, e', -, -, -, -, hf⟩ := new_ok.1 h
  obtain ⟨pos, dir, cb, a, -, -, -, ha, rfl⟩ := finish_ok.1 hf
  exact ha

theorem new_self {env : Env} {custom : Option Custom} {layer : Option BpId} {kw : Dict} {e : Entity}
    (h : new env custom layer kw = .ok e) :
    Dict.mem kw "self" = false ∧ Dict.mem kw "blueprint_layer" = false := by
  obtain ⟨h1, h2, -⟩ := new_ok.1 h
  exact ⟨h1, h2⟩

theorem new_cb_chain {env : Env} {custom : Option Custom} {layer : Option BpId} {kw d : Dict} {e : Entity}
    (h : new env custom layer kw = .ok e) (hcb : Dict.get? kw "control_behavior" = some (.dict d)) :
    ∃ a, e.cb = some ⟨e.klass.cbChain, e.klass.ctx, a⟩ ∧ Dict.mem d "self" = false ∧ Dict.mem d "_entity" = false ∧
      cbInitChain env e.klass.ctx (leftoverExc env e.name) e.klass.cbChain d [] = .ok a := by
  obtain ⟨-, -, name, position, number, e', -, -, -, -, hf⟩ := new_ok.1 h
  obtain ⟨pos, dir, cb, a, -, -, hc, -, rfl⟩ := finish_ok.1 hf
  unfold cbOf at hc
  rw [hcb] at hc
  simp only [bind_eq_ok, Cb.new, Val.kwargs, ok_bind] at hc
  obtain ⟨c, hc, hc'⟩ := hc
  split at hc
  · cases hc
  · rename_i hn
    simp only [Bool.or_eq_true, not_or, Bool.not_eq_true] at hn
    simp only [bind_eq_ok] at hc
    obtain ⟨a', ha, hc⟩ := hc
    cases hc
    cases hc'
    exact ⟨a', rfl, hn.1, hn.2, ha⟩

/-- The class of a new strict entity. -/
theorem new_klass {env : Env} {custom : Option Custom} {layer : Option BpId} {kw p : Dict} {e : Entity}
    {s t : String} {ms : List Mx} (h : new env custom layer kw = .ok e) (hs : Spec.Strict kw)
    (hname : List.lookup "name" kw = some (.str s)) (hp : List.lookup s env.entities = some (.dict p))
    (ht : List.lookup "type" p = some (.str t)) (hc : (custom.getD []).lookup t = none)
    (hm : prototypeMixins t = some ms) : Klass.extend 0 Klass.entity ms = .ok e.klass := by
  obtain ⟨-, -, name, position, number, e', hn, -, -, hs', hf⟩ := new_ok.1 h
  obtain ⟨pos, dir, cb, a, -, -, -, -, rfl⟩ := finish_ok.1 hf
  have : name = .str s := by
    have := hname.symm.trans (show List.lookup "name" kw = some name from hn)
    injection this with this
    exact this.symm
  subst this
  obtain ⟨s', hs1, hs2⟩ := setName_ok hs'
  cases hs1
  rcases hs2 with ⟨h0, -⟩ | ⟨-, data, t', ms', kl, hd, ht', hm', hk, rfl⟩
  · have h0 : (Dict.getD kw "strict" (.bool true)).truthy = false := h0
    rw [strict_true hs] at h0
    cases h0
  · have : data = .dict p := by
      have := hp.symm.trans (show List.lookup s env.entities = some data from hd)
      injection this with this
      exact this.symm
    subst this
    have : t' = .str t := by
      unfold Val.subscript Dict.getItem Dict.get? at ht'
      dsimp only at ht'
      rw [ht] at ht'
      cases ht'
      rfl
    subst this
    unfold mixinsFor at hm'
    dsimp only at hm'
    rw [hm] at hm'
    dsimp only at hm'
    rw [hc] at hm'
    cases hm'
    exact hk

end Entity

/-- The class of the combinators. -/
theorem combi_klass (c : Spec.Combi) {kl : Klass} {ms : List Mx} (hm : prototypeMixins c.proto = some ms)
    (h : Klass.extend 0 Klass.entity ms = .ok kl) :
    kl.ctx.field = c.field ∧ (kl.cbChain = [.Arithmetic, .Combinator] ∧ c = .arithmetic ∧
      kl.ctx = ⟨"arithmetic", "operation", false, some arithmeticOps, false⟩ ∨
      kl.cbChain = [.Decider, .Combinator] ∧ c = .decider ∧
      kl.ctx = ⟨"decider", "comparator", false, some deciderOps, false⟩) := by
  cases c
  · cases hm
    cases h
    exact ⟨by decide +kernel, .inl (by decide +kernel)⟩
  · cases hm
    cases h
    exact ⟨by decide +kernel, .inr (by decide +kernel)⟩

end Verif
