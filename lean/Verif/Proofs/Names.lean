import Verif.Spec.Names
import Verif.Proofs.Make
import Verif.Proofs.Attrs
import Verif.Proofs.Data
/-!
# Helper lemmas: checks of names
-/
set_option autoImplicit false

namespace Verif
open Spec

theorem strict_true {kw : Dict} (h : Strict kw) : (Dict.getD kw "strict" (.bool true)).truthy = true := by
  unfold Dict.getD Dict.get?
  cases hs : List.lookup "strict" kw with
  | none => rfl
  | some v => exact h v hs

theorem new_known {env : Env} {custom : Option Custom} {l : Option BpId} {kw : Dict} {e : Entity} {s : String}
    (h : Entity.new env custom l kw = .ok e) (hname : List.lookup "name" kw = some (.str s))
    (hstrict : Strict kw) : ¬ Unknown env.entities s := by
  intro hunknown
  obtain ⟨-, -, name, position, number, e', hn, -, -, hs, -⟩ := Entity.new_ok.1 h
  have hst := strict_true hstrict
  have hn' : List.lookup "name" kw = some name := hn
  rw [hname] at hn'
  cases hn'
  obtain ⟨t, ht, ⟨h0, -⟩ | ⟨-, data, ty, ms, kl, hd, -⟩⟩ := Entity.setName_ok hs
  · exact absurd (h0.symm.trans hst) (by simp)
  · cases ht
    rw [show Dict.get? env.entities s = none from hunknown] at hd
    cases hd

theorem signalSet_unknown {env : Env} {v : Val} {s : String} (h : NamesSignal s v) (hs : s ≠ "")
    (hu : Unknown env.signals s) : signalSet env v = .error .unknownSignal := by
  have ht : (Val.str s).truthy = true := by simp [Val.truthy, hs]
  have hi : inTable env.signals (.str s) = .ok false := by
    simp [inTable, Dict.mem, Dict.get?, show List.lookup s env.signals = none from hu]
  cases h with
  | str =>
    simp only [signalSet, ht, if_true, hi, ok_bind]
    rfl
  | obj d hd =>
    simp only [signalSet, Dict.getD, Dict.get?, hd, Option.getD_some, ht, if_true, hi, ok_bind]
    rfl

theorem signalSet_known {env : Env} {v : Val} {s : String} (h : signalSet env v = .ok (.str s)) (hs : s ≠ "") :
    ¬ Unknown env.signals s := by
  intro hu
  have key : ∀ u : Val, (if u.truthy then do
        if ← inTable env.signals u then .ok u else .error .unknownSignal
      else .ok u : Except Exc Val) = .ok (.str s) → False := by
    intro u hu'
    split at hu'
    · simp only [bind_eq_ok] at hu'
      obtain ⟨t, ht, h⟩ := hu'
      split at h
      · rename_i htt
        cases h
        simp only [inTable, Dict.mem, Dict.get?] at ht
        rw [show List.lookup s env.signals = none from hu, htt] at ht
        cases ht
      · cases h
    · rename_i hf
      cases hu'
      simp [Val.truthy, hs] at hf
  unfold signalSet at h
  split at h
  · cases h
  · exact key _ h

/-- What a control behaviour class stores under the name of a signal attribute was checked. -/
theorem cbInit_signal {env : Env} {ctx : CbCtx} {m : Mx} {kw kw' : Dict} {w : Attrs} {k s : String}
    (h : cbInit env ctx m kw = .ok (w, kw')) (hk : k ∈ signalAttrs) (hm : (k, .str s) ∈ w) (hs : s ≠ "") :
    ¬ Unknown env.signals s := by
  have key : ∀ {v o : Val}, signalSet env v = .ok o → Val.str s = o → ¬ Unknown env.signals s := by
    rintro v o h rfl
    exact signalSet_known h hs
  by_cases hc : m = .Combinator
  · subst hc
    have h : combinatorInit env ctx kw = .ok (w, kw') := h
    unfold combinatorInit at h
    simp only [bind_eq_ok] at h
    obtain ⟨cond, -, h⟩ := h
    split at h
    · cases h
    · rename_i a rest hb
      cases h
      unfold combinatorBody at hb
      split at hb
      · cases hb
      · dsimp only at hb
        split at hb
        · cases hb
        · split at hb
          · cases hb
          · split at hb
            · cases hb
            · rename_i h1
              split at hb
              · cases hb
              · split at hb
                · cases hb
                · rename_i h2
                  split at hb
                  · cases hb
                  · split at hb
                    · cases hb
                    · rename_i h3
                      cases hb
                      simp only [List.mem_cons, Prod.mk.injEq, List.not_mem_nil, or_false] at hm
                      rcases hm with ⟨rfl, -⟩ | ⟨-, h⟩ | ⟨-, h⟩ | ⟨-, h⟩
                      · exact absurd hk (by decide)
                      · exact key h1 h
                      · exact key h2 h
                      · exact key h3 h
  · by_cases hd : m = .Decider
    · subst hd
      have h : deciderInit ctx kw = .ok (w, kw') := h
      unfold deciderInit at h
      simp only [bind_eq_ok, pure_eq_ok] at h
      obtain ⟨v, -, cond, -, h⟩ := h
      cases h
      simp only [List.mem_cons, Prod.mk.injEq, List.not_mem_nil, or_false] at hm
      obtain ⟨rfl, -⟩ := hm
      exact absurd hk (by decide)
    · have h1 : cbInit env ctx m kw = (do
          let a ← cbRead env ctx m (Dict.get? kw)
          return (a, eraseKeys kw (cbKeys m))) := by
        cases m <;> first | rfl | exact absurd rfl hc | exact absurd rfl hd
      rw [h1] at h
      simp only [bind_eq_ok, pure_eq_ok] at h
      obtain ⟨a, ha, h⟩ := h
      cases h
      clear h1 hc hd
      cases m <;> simp only [cbRead, bind_eq_ok, pure_eq_ok, Except.ok.injEq] at ha
      all_goals first
        | (subst ha; cases hm; done)
        | skip
      case Accumulator =>
        obtain ⟨o, ho, rfl⟩ := ha
        simp only [List.mem_cons, Prod.mk.injEq, List.not_mem_nil, or_false] at hm
        exact key ho hm.2
      case Filters =>
        obtain ⟨fs, -, ha⟩ := ha
        split at ha
        · cases ha
        · simp only [bind_eq_ok, Except.ok.injEq] at ha
          obtain ⟨l, -, rfl⟩ := ha
          simp at hm
      case ConstantCombinator =>
        subst ha
        simp only [List.mem_cons, Prod.mk.injEq, List.not_mem_nil, or_false] at hm
        obtain ⟨rfl, -⟩ := hm
        exact absurd hk (by decide)
      case TransportBelt =>
        subst ha
        simp only [List.mem_cons, Prod.mk.injEq, List.not_mem_nil, or_false] at hm
        rcases hm with ⟨rfl, -⟩ | ⟨rfl, -⟩ | ⟨rfl, -⟩ <;> (exact absurd hk (by decide))
      case TrainSignal =>
        obtain ⟨x, h1, y, h2, z, h3, rfl⟩ := ha
        simp only [List.mem_cons, Prod.mk.injEq, List.not_mem_nil, or_false] at hm
        rcases hm with ⟨rfl, -⟩ | ⟨-, h⟩ | ⟨-, h⟩ | ⟨-, h⟩
        · exact absurd hk (by decide)
        · exact key h1 h
        · exact key h2 h
        · exact key h3 h
      case ChainSignal =>
        obtain ⟨o, ho, rfl⟩ := ha
        simp only [List.mem_cons, Prod.mk.injEq, List.not_mem_nil, or_false] at hm
        exact key ho hm.2
      case RailSignal =>
        subst ha
        simp only [List.mem_cons, Prod.mk.injEq, List.not_mem_nil, or_false] at hm
        obtain ⟨rfl, -⟩ := hm
        exact absurd hk (by decide)
      case CircuitCondition =>
        split at ha
        · cases ha; cases hm
        · simp only [bind_eq_ok, Except.ok.injEq] at ha
          obtain ⟨_, -, x, h1, y, h2, z, h3, rfl⟩ := ha
          simp only [List.mem_cons, Prod.mk.injEq, List.not_mem_nil, or_false] at hm
          rcases hm with ⟨-, h⟩ | ⟨-, h⟩ | ⟨rfl, -⟩
          · exact key h1 h
          · exact key h2 h
          · exact absurd hk (by decide)
      case Lamp =>
        subst ha
        simp only [List.mem_cons, Prod.mk.injEq, List.not_mem_nil, or_false] at hm
        obtain ⟨rfl, -⟩ := hm
        exact absurd hk (by decide)
      case MiningDrill =>
        subst ha
        simp only [List.mem_cons, Prod.mk.injEq, List.not_mem_nil, or_false] at hm
        rcases hm with ⟨rfl, -⟩ | ⟨rfl, -⟩ | ⟨rfl, -⟩ <;> (exact absurd hk (by decide))
      case Inserter =>
        obtain ⟨x, h1, rfl⟩ := ha
        simp only [List.mem_cons, Prod.mk.injEq, List.not_mem_nil, or_false] at hm
        rcases hm with ⟨rfl, -⟩ | ⟨rfl, -⟩ | ⟨-, h⟩ | ⟨rfl, -⟩ | ⟨rfl, -⟩
        · exact absurd hk (by decide)
        · exact absurd hk (by decide)
        · exact key h1 h
        · exact absurd hk (by decide)
        · exact absurd hk (by decide)
      case Requester =>
        subst ha
        simp only [List.mem_cons, Prod.mk.injEq, List.not_mem_nil, or_false] at hm
        obtain ⟨rfl, -⟩ := hm
        exact absurd hk (by decide)
      case Roboport =>
        obtain ⟨x, h1, y, h2, z, h3, u, h4, rfl⟩ := ha
        simp only [List.mem_cons, Prod.mk.injEq, List.not_mem_nil, or_false] at hm
        rcases hm with ⟨rfl, -⟩ | ⟨rfl, -⟩ | ⟨-, h⟩ | ⟨-, h⟩ | ⟨-, h⟩ | ⟨-, h⟩
        · exact absurd hk (by decide)
        · exact absurd hk (by decide)
        · exact key h1 h
        · exact key h2 h
        · exact key h3 h
        · exact key h4 h
      case Speaker =>
        obtain ⟨x, -, rfl⟩ := ha
        simp only [List.mem_cons, Prod.mk.injEq, List.not_mem_nil, or_false] at hm
        obtain ⟨rfl, -⟩ := hm
        exact absurd hk (by decide)
      case Station =>
        obtain ⟨x, h1, rfl⟩ := ha
        simp only [List.mem_cons, Prod.mk.injEq, List.not_mem_nil, or_false] at hm
        rcases hm with ⟨rfl, -⟩ | ⟨rfl, -⟩ | ⟨rfl, -⟩ | ⟨-, h⟩
        · exact absurd hk (by decide)
        · exact absurd hk (by decide)
        · exact absurd hk (by decide)
        · exact key h1 h

theorem cbInitChain_signal {env : Env} {ctx : CbCtx} {lo : Exc} {ms : List Mx} {kw : Dict} {a a' : Attrs}
    {k s : String} (h : cbInitChain env ctx lo ms kw a = .ok a') (hk : k ∈ signalAttrs)
    (hv : List.lookup k a' = some (.str s)) (hs : s ≠ "") :
    List.lookup k a = some (.str s) ∨ ¬ Unknown env.signals s := by
  induction ms generalizing kw a with
  | nil =>
    unfold cbInitChain at h
    split at h
    · cases h; exact .inl hv
    · cases h
  | cons m ms ih =>
    unfold cbInitChain at h
    split at h
    · cases h
    · rename_i u kw' hu
      have fin : List.lookup k (setAll a u) = some (.str s) →
          List.lookup k a = some (.str s) ∨ ¬ Unknown env.signals s := by
        intro h
        rcases setAll_mem h with h | h
        · exact .inr (cbInit_signal hu hk h hs)
        · exact .inl h
      split at h
      · cases h; exact fin hv
      · rcases ih h with h | h
        · exact fin h
        · exact .inr h

end Verif
