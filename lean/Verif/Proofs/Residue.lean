import Verif.Model.Residue
import Verif.Spec.Residue
import Verif.Proofs.View
import Verif.Proofs.RoundTrip
/-!
# Helper lemmas: what `load` leaves in the caller's data
-/
set_option autoImplicit false

namespace Verif
open Spec

/-! ## Dicts -/

theorem set_same {d : Dict} {k : String} {v : Val} (h : Dict.get? d k = some v) : Dict.set d k v = d := by
  unfold Dict.get? at h
  induction d with
  | nil => cases h
  | cons p d ih =>
    obtain ⟨l, x⟩ := p
    rw [List.lookup_cons] at h
    unfold Dict.set
    by_cases hl : l = k
    · rw [if_pos hl]
      subst hl
      simp only [beq_self_eq_true] at h
      cases h
      rfl
    · rw [if_neg hl]
      rw [show (k == l) = false by simpa using fun e => hl e.symm] at h
      rw [ih h]

theorem set_set {d : Dict} {k : String} {v v' : Val} : Dict.set (Dict.set d k v) k v' = Dict.set d k v' := by
  induction d with
  | nil => show (if k = k then [(k, v')] else _) = _; rw [if_pos rfl]; rfl
  | cons p d ih =>
    obtain ⟨l, x⟩ := p
    by_cases hl : l = k
    · simp only [Dict.set, if_pos hl]
    · simp only [Dict.set, if_neg hl, ih]

theorem erase_eq_self {d : Dict} {k : String} : Dict.erase d k = d ↔ List.lookup k d = none := by
  unfold Dict.erase
  rw [List.filter_eq_self, lookup_none_iff]
  simp only [List.mem_map, bne_iff_ne]
  exact ⟨fun h ⟨p, hp, e⟩ => h p hp e, fun h p hp e => h ⟨p, hp, e⟩⟩

theorem eraseKeys_nil (d : Dict) : eraseKeys d [] = d := by
  unfold eraseKeys
  simp

theorem eraseKeys_set {d : Dict} {ks : List String} {k : String} {v : Val} (h : k ∈ ks)
    (hk : Dict.get? d k ≠ none) : eraseKeys (Dict.set d k v) ks = eraseKeys d ks := by
  unfold Dict.get? at hk
  unfold eraseKeys
  induction d with
  | nil => exact absurd rfl hk
  | cons p d ih =>
    obtain ⟨l, x⟩ := p
    unfold Dict.set
    by_cases hl : l = k
    · rw [if_pos hl]
      subst hl
      simp [h]
    · rw [if_neg hl]
      rw [List.lookup_cons, show (k == l) = false by simpa using fun e => hl e.symm] at hk
      rw [List.filter_cons, List.filter_cons, ih hk]

/-! ## Control behaviours -/

theorem cbLeft_plain {env : Env} {ctx : CbCtx} {ms : List Mx} {kw c : Dict} (h : .Combinator ∉ ms) (h' : .Decider ∉ ms)
    (hk : ∀ cond, Dict.get? kw ctx.field = some (.dict cond) → Dict.get? c ctx.field = some (.dict cond)) :
    cbLeft env ctx ms kw c = c := by
  induction ms generalizing kw with
  | nil => rfl
  | cons m ms ih =>
    simp only [List.mem_cons, not_or] at h h'
    have hm : ∀ cond, condLeft env ctx m cond = cond := by
      intro cond
      obtain ⟨h1, -⟩ := h
      obtain ⟨h2, -⟩ := h'
      cases m <;> first | rfl | exact absurd rfl h1 | exact absurd rfl h2
    have hc : fieldLeft env ctx m kw c = c := by
      unfold fieldLeft
      split
      · rename_i cond hx
        rw [hm, set_same (hk cond hx)]
      · rfl
    unfold cbLeft
    dsimp only
    rw [hc]
    split
    · rfl
    · rename_i w kw' he
      split
      · rfl
      · refine ih h.2 h'.2 (fun cond hx => hk cond ?_)
        have : kw' = eraseKeys kw (cbKeys m) := by
          obtain ⟨h1, -⟩ := h
          obtain ⟨h2, -⟩ := h'
          unfold cbInit at he
          split at he
          · exact absurd rfl h1
          · exact absurd rfl h2
          · simp only [bind_eq_ok, pure_eq_ok, Except.ok.injEq, Prod.mk.injEq] at he
            obtain ⟨_, -, -, rfl⟩ := he
            rfl
        rw [this] at hx
        unfold Dict.get? at hx ⊢
        rw [lookup_eraseKeys] at hx
        split at hx
        · cases hx
        · exact hx

/-- The operator is popped, so conditions that were accepted are not empty. -/
theorem combinatorInit_done {env : Env} {ctx : CbCtx} {kw kw' : Dict} {a : Attrs}
    (h : combinatorInit env ctx kw = .ok (a, kw')) (he : kw' = []) :
    ∃ cond, Dict.get? kw ctx.field = some (.dict cond) ∧ cond ≠ [] ∧ (combinatorBody env ctx cond).2 = [] := by
  unfold combinatorInit at h
  rw [bind_eq_ok] at h
  obtain ⟨cond, h1, h⟩ := h
  dsimp only at h
  split at h
  · cases h
  · rename_i a' rest hb
    simp only [pure_eq_ok, Except.ok.injEq, Prod.mk.injEq] at h
    obtain ⟨rfl, h⟩ := h
    have hne : cond ≠ [] := by
      rintro rfl
      cases hb
    unfold Dict.getD at h1
    cases hx : Dict.get? kw ctx.field with
    | none =>
      rw [hx] at h1
      cases h1
      exact absurd rfl hne
    | some v =>
      rw [hx] at h1
      cases v with
      | dict c =>
        cases h1
        refine ⟨cond, rfl, hne, ?_⟩
        rw [hb]
        split at h
        · rename_i hr
          exact List.isEmpty_iff.1 hr
        · rw [he] at h
          exfalso
          have := congrArg (fun d => Dict.get? d ctx.field) h
          rw [get_set_self] at this
          cases this
      | _ => cases h1

theorem combinator_leftover {env : Env} {ctx : CbCtx} {lo : Exc} {kw : Dict} {a a' : Attrs}
    (h : cbInitChain env ctx lo [.Combinator] kw a = .ok a') :
    ∃ cond w, Dict.get? kw ctx.field = some (.dict cond) ∧ cond ≠ [] ∧ (combinatorBody env ctx cond).2 = [] ∧
      cbInit env ctx .Combinator kw = .ok (w, []) := by
  unfold cbInitChain at h
  split at h
  · cases h
  · rename_i w kw' hi
    rw [if_neg (by decide)] at h
    unfold cbInitChain at h
    split at h
    · rename_i hk
      obtain rfl := List.isEmpty_iff.1 hk
      obtain ⟨cond, h1, h2, h3⟩ := combinatorInit_done hi rfl
      exact ⟨cond, w, h1, h2, h3, hi⟩
    · cases h

/-- An accepted arithmetic combinator leaves its conditions empty. -/
theorem cbLeft_arithmetic {env : Env} {ctx : CbCtx} {lo : Exc} {c : Dict} {a : Attrs}
    (h : cbInitChain env ctx lo [.Arithmetic, .Combinator] c [] = .ok a) :
    ∃ cond, Dict.get? c ctx.field = some (.dict cond) ∧ cond ≠ [] ∧
      cbLeft env ctx [.Arithmetic, .Combinator] c c = Dict.set c ctx.field (.dict []) := by
  have hi : cbInit env ctx .Arithmetic c = .ok ([], c) := by
    show (Except.ok ([], eraseKeys c []) : Except Exc (Attrs × Dict)) = _
    rw [eraseKeys_nil]
  unfold cbInitChain at h
  rw [hi] at h
  dsimp only at h
  rw [if_neg (by decide)] at h
  obtain ⟨cond, w, h1, h2, h3, h4⟩ := combinator_leftover h
  refine ⟨cond, h1, h2, ?_⟩
  have hv := h1
  unfold cbLeft
  rw [hi]
  dsimp only
  rw [if_neg (by decide)]
  unfold cbLeft
  rw [h4]
  dsimp only
  rw [if_neg (by decide)]
  unfold cbLeft fieldLeft condLeft
  simp only [h1, hv, set_set, h3]

/-- An accepted decider combinator leaves its conditions empty. -/
theorem cbLeft_decider {env : Env} {ctx : CbCtx} {lo : Exc} {c : Dict} {a : Attrs}
    (h : cbInitChain env ctx lo [.Decider, .Combinator] c [] = .ok a) :
    ∃ cond, Dict.get? c ctx.field = some (.dict cond) ∧ cond ≠ [] ∧
      cbLeft env ctx [.Decider, .Combinator] c c = Dict.set c ctx.field (.dict []) := by
  unfold cbInitChain at h
  split at h
  · cases h
  rename_i w kw' hi
  rw [if_neg (by decide)] at h
  obtain ⟨cond', w', h1, h2, h3, h4⟩ := combinator_leftover h
  have hi' : deciderInit ctx c = .ok (w, kw') := hi
  unfold deciderInit at hi'
  simp only [bind_eq_ok, pure_eq_ok, Except.ok.injEq, Prod.mk.injEq, lookup_getItem] at hi'
  obtain ⟨v, hv, cond, hc, -, hk⟩ := hi'
  obtain rfl : v = .dict cond := by
    cases v with
    | dict x => cases hc; rfl
    | _ => cases hc
  have hcond : cond' = Dict.erase cond "copy_count_from_input" := by
    split at hk
    · rw [← hk] at h1
      unfold Dict.get? at h1
      rw [lookup_erase, if_pos rfl] at h1
      cases h1
    · rw [← hk, get_set_self] at h1
      cases h1
      rfl
  have hv : Dict.get? c ctx.field = some (.dict cond) := hv
  refine ⟨cond, hv, ?_, ?_⟩
  · rintro rfl
    exact h2 hcond
  unfold cbLeft
  rw [hi]
  dsimp only
  rw [if_neg (by decide)]
  unfold cbLeft
  rw [h4]
  dsimp only
  rw [if_neg (by decide)]
  unfold cbLeft fieldLeft condLeft
  simp only [h1, hv, set_set, h3]

/-- A combinator with empty conditions is rejected. -/
theorem cb_empty {env : Env} {ctx : CbCtx} {lo : Exc} {c : Dict} {ms : List Mx}
    (hc : Dict.get? c ctx.field = some (.dict [])) (h : ms = [.Arithmetic, .Combinator] ∨ ms = [.Decider, .Combinator]) :
    cbInitChain env ctx lo ms c [] = .error .keyError := by
  have hcomb : ∀ kw : Dict, Dict.getD kw ctx.field (.dict []) = .dict [] →
      ∀ a, cbInitChain env ctx lo [.Combinator] kw a = .error .keyError := by
    intro kw hk a
    unfold cbInitChain
    have : cbInit env ctx .Combinator kw = .error .keyError := by
      show combinatorInit env ctx kw = _
      unfold combinatorInit
      rw [hk]
      rfl
    rw [this]
  rcases h with rfl | rfl
  · have hi : cbInit env ctx .Arithmetic c = .ok ([], c) := by
      show (Except.ok ([], eraseKeys c []) : Except Exc (Attrs × Dict)) = _
      rw [eraseKeys_nil]
    unfold cbInitChain
    rw [hi]
    dsimp only
    rw [if_neg (by decide)]
    refine hcomb _ ?_ _
    unfold Dict.getD
    rw [hc]
    rfl
  · have hi : ∃ w, cbInit env ctx .Decider c = .ok (w, Dict.erase c ctx.field) := by
      refine ⟨[("copy_count_from_input", .bool false)], ?_⟩
      show deciderInit ctx c = _
      unfold deciderInit Dict.getItem
      rw [hc]
      rfl
    obtain ⟨w, hi⟩ := hi
    unfold cbInitChain
    rw [hi]
    dsimp only
    rw [if_neg (by decide)]
    refine hcomb _ ?_ _
    unfold Dict.getD Dict.get?
    rw [lookup_erase, if_pos rfl]
    rfl

/-! ## Entities -/

/-- The data of an accepted entity. -/
theorem entLeft_ok {env : Env} {custom : Option Custom} {layer : Option BpId} {kw : Dict} {e : Entity}
    (h : Entity.new env custom layer kw = .ok e) :
    entLeft env custom layer kw = match Dict.get? kw "control_behavior" with
      | some (.dict c) => Dict.set kw "control_behavior" (.dict (cbLeft env e.klass.ctx e.klass.cbChain c c))
      | _ => kw := by
  obtain ⟨h1, h2, name, position, number, e', h3, h4, h5, h6, h7⟩ := Entity.new_ok.1 h
  obtain ⟨pos, dir, cb, a, h8, h9, h10, h11, rfl⟩ := Entity.finish_ok.1 h7
  unfold entLeft
  rw [h1, h2, h3, h4, h5]
  unfold Entity.raw0 at h6
  simp only [Bool.or_self, Bool.false_eq_true, if_false, h6, h8, h9]
  unfold Entity.cbOf at h10
  cases hx : Dict.get? kw "control_behavior" with
  | none => rfl
  | some v =>
    rw [hx] at h10
    cases v with
    | dict c =>
      dsimp only
      rw [if_neg]
      intro hs
      unfold Cb.new Val.kwargs at h10
      simp only [ok_bind, hs, if_true] at h10
      cases h10
    | _ => rfl

theorem rows_combinator : ∀ p ∈ entityPrototypes, ∀ k, Klass.extend 0 Klass.entity p.2 = .ok k →
    ((p.1 = "arithmetic-combinator" ∨ p.1 = "decider-combinator") ↔ .Combinator ∈ k.cbChain) ∧
    (.Combinator ∉ k.cbChain → .Decider ∉ k.cbChain) := by
  have h : (entityPrototypes.all fun p => match Klass.extend 0 Klass.entity p.2 with
    | .ok k => decide (((p.1 = "arithmetic-combinator" ∨ p.1 = "decider-combinator") ↔ .Combinator ∈ k.cbChain) ∧
        (.Combinator ∉ k.cbChain → .Decider ∉ k.cbChain)) | .error _ => true) = true := by decide +kernel
  intro p hp k hk
  have := List.all_eq_true.1 h p hp
  rw [hk] at this
  exact of_decide_eq_true this

/-- The data of an accepted entity that is not a combinator are not changed. -/
theorem entLeft_same {env : Env} {layer : Option BpId} {kw : Dict} {e : Entity}
    (h : Entity.new env (some []) layer kw = .ok e) (hc : ¬ CombinatorData env (.dict kw)) :
    entLeft env (some []) layer kw = kw := by
  rw [entLeft_ok h]
  split
  · rename_i c hx
    have key : .Combinator ∉ e.klass.cbChain ∧ .Decider ∉ e.klass.cbChain := by
      obtain ⟨h1, h2, name, position, number, e', h3, h4, h5, h6, h7⟩ := Entity.new_ok.1 h
      obtain ⟨pos, dir, cb, a, h8, h9, h10, h11, rfl⟩ := Entity.finish_ok.1 h7
      obtain ⟨s, rfl, ⟨-, rfl⟩ | ⟨hs, data, t, ms, k, k1, k2, k3, k4, rfl⟩⟩ := Entity.setName_ok h6
      · exact ⟨show Mx.Combinator ∉ Klass.entity.cbChain by decide, show Mx.Decider ∉ Klass.entity.cbChain by decide⟩
      · obtain ⟨d, rfl, k2'⟩ := subscript_ok.1 k2
        cases t with
        | str ty =>
          unfold mixinsFor at k3
          dsimp only at k3
          split at k3
          · cases k3
          · rename_i ms' hm
            cases k3
            obtain ⟨r1, r2⟩ := rows_combinator (ty, ms') (mem_of_lookup hm) k k4
            have : .Combinator ∉ k.cbChain := by
              intro hk
              refine hc ⟨kw, s, ty, rfl, h3, ⟨d, k1, k2'⟩, r1.2 hk, ?_, ?_⟩
              · intro hn
                unfold Dict.get? at hx
                rw [hn] at hx
                cases hx
              · intro v hv
                unfold Entity.raw0 Dict.getD Dict.get? at hs
                rw [hv] at hs
                exact hs
            exact ⟨this, r2 this⟩
        | _ => unfold mixinsFor at k3; dsimp only at k3; split at k3 <;> cases k3
    rw [cbLeft_plain key.1 key.2 (fun _ h => h), set_same hx]
  · rfl

/-- The data of an accepted combinator are changed and cannot be used again. -/
theorem entLeft_combinator {env : Env} {layer : Option BpId} {kw : Dict} {e : Entity}
    (h : Entity.new env (some []) layer kw = .ok e) (hc : CombinatorData env (.dict kw)) :
    entLeft env (some []) layer kw ≠ kw ∧
    ∀ layer', Entity.new env (some []) layer' (entLeft env (some []) layer kw) = .error .keyError := by
  obtain ⟨_, n, ty, hkw, hn, ht, hty, hcb, hst⟩ := hc
  cases hkw
  have hleft := entLeft_ok h
  obtain ⟨h1, h2, name, position, number, e', h3, h4, h5, h6, h7⟩ := Entity.new_ok.1 h
  obtain ⟨pos, dir, cb, a, h8, h9, h10, h11, rfl⟩ := Entity.finish_ok.1 h7
  have hname : name = .str n := by
    unfold Dict.get? at h3
    rw [hn] at h3
    cases h3
    rfl
  subst hname
  have hstrict : (Dict.getD kw "strict" (.bool true)).truthy = true := by
    unfold Dict.getD Dict.get?
    cases hl : List.lookup "strict" kw with
    | none => rfl
    | some v => exact hst v hl
  -- the class
  have hset : ∀ layer' number', ∃ e'', Entity.setName env (some []) (Entity.raw0 layer' kw number') (.str n) = (.ok (), e'') ∧
      e''.klass = e'.klass ∧ e''.name = n := by
    intro layer' number'
    obtain ⟨s, hs, ⟨hf, -⟩ | ⟨-, data, t, ms, k, k1, k2, k3, k4, rfl⟩⟩ := Entity.setName_ok h6
    · unfold Entity.raw0 at hf
      rw [hstrict] at hf
      cases hf
    · cases hs
      refine ⟨{ Entity.raw0 layer' kw number' with name := n, klass := k, depth := 1 }, ?_, rfl, rfl⟩
      unfold Entity.setName
      rw [if_neg (by unfold Entity.raw0; dsimp only; rw [hstrict]; decide)]
      dsimp only
      rw [k1]
      dsimp only
      rw [k2]
      dsimp only
      rw [k3]
      dsimp only
      unfold Entity.raw0 at k4 ⊢
      rw [k4]
  have hchain : e'.klass.cbChain = [.Arithmetic, .Combinator] ∨ e'.klass.cbChain = [.Decider, .Combinator] := by
    have hsol : Solid env _ := Solid.new h (by
      obtain ⟨s, hs, ⟨hf, -⟩ | ⟨hf, data, t, ms, k, k1, k2, k3, k4, rfl⟩⟩ := Entity.setName_ok h6
      · unfold Entity.raw0 at hf
        rw [hstrict] at hf
        cases hf
      · exact hf) (fun _ _ _ _ => rfl)
    obtain ⟨e'', q1, q2, q3⟩ := hset layer number
    rw [h6] at q1
    cases q1
    rcases hty with rfl | rfl
    · exact .inl (hsol.arithmetic (by rw [show _ = n from q3]; exact ht)).1
    · exact .inr (hsol.decider (by rw [show _ = n from q3]; exact ht)).1
  -- the control behaviour
  cases hx : Dict.get? kw "control_behavior" with
  | none => exact absurd hx hcb
  | some v =>
    unfold Entity.cbOf at h10
    rw [hx] at h10 hleft
    simp only [bind_eq_ok, pure_eq_ok, Except.ok.injEq] at h10
    obtain ⟨c', hn', rfl⟩ := h10
    unfold Cb.new at hn'
    rw [bind_eq_ok] at hn'
    obtain ⟨c, hc, hn'⟩ := hn'
    obtain rfl : v = .dict c := by
      cases v with
      | dict x => cases hc; rfl
      | _ => cases hc
    split at hn'
    · cases hn'
    rename_i hmem
    simp only [bind_eq_ok, pure_eq_ok, ok_bind, Except.ok.injEq] at hn'
    obtain ⟨attrs, hchn, -⟩ := hn'
    have hcb : ∃ cond, Dict.get? c e'.klass.ctx.field = some (.dict cond) ∧ cond ≠ [] ∧
        cbLeft env e'.klass.ctx e'.klass.cbChain c c = Dict.set c e'.klass.ctx.field (.dict []) := by
      rcases hchain with hk | hk
      · rw [hk] at hchn ⊢; exact cbLeft_arithmetic hchn
      · rw [hk] at hchn ⊢; exact cbLeft_decider hchn
    obtain ⟨cond, hf, hne, hl⟩ := hcb
    dsimp only at hleft
    rw [hl] at hleft
    rw [hleft]
    constructor
    · intro heq
      have := congrArg (fun d => Dict.get? d "control_behavior") heq
      rw [get_set_self, hx] at this
      injection this with this
      injection this with this
      have := congrArg (fun d => Dict.get? d e'.klass.ctx.field) this
      rw [get_set_self, hf] at this
      injection this with this
      injection this with this
      exact hne this.symm
    · intro layer'
      obtain ⟨e'', q1, q2, q3⟩ := hset layer' number
      have hk : ∀ k, k ≠ "control_behavior" → Dict.get? (Dict.set kw "control_behavior"
          (.dict (Dict.set c e'.klass.ctx.field (.dict [])))) k = Dict.get? kw k := fun k hk => get_set_ne hk
      unfold Entity.new Dict.mem Dict.getD
      unfold Dict.mem at h1 h2
      unfold Dict.getD at h5
      rw [hk _ (by decide), hk _ (by decide), hk _ (by decide), hk _ (by decide), hk _ (by decide), hk _ (by decide),
        h1, h2, h3, h4, h5]
      unfold Entity.raw0 Dict.getD at q1
      simp only [Bool.or_self, Bool.false_eq_true, if_false, q1]
      unfold Entity.finish Dict.getD
      unfold Dict.getD at h9
      rw [h8, hk _ (by decide), h9]
      simp only [ok_bind]
      unfold Entity.cbOf
      rw [get_set_self]
      dsimp only
      unfold Cb.new Val.kwargs
      have hmem' : (Dict.mem (Dict.set c e'.klass.ctx.field (.dict [])) "self" ||
          Dict.mem (Dict.set c e'.klass.ctx.field (.dict [])) "_entity") = false := by
        have hm : ∀ k, Dict.mem (Dict.set c e'.klass.ctx.field (.dict [])) k = Dict.mem c k := by
          intro k
          unfold Dict.mem
          by_cases hkf : k = e'.klass.ctx.field
          · subst hkf
            rw [get_set_self, hf]
            rfl
          · rw [get_set_ne hkf]
        rw [hm, hm]
        simpa using hmem
      simp only [ok_bind, hmem', Bool.false_eq_true, if_false]
      rw [q2, cb_empty (get_set_self ..) hchain]
      rfl

theorem setName_layer (env : Env) (custom : Option Custom) (e : Entity) (v : Val) (l : Option BpId) :
    Entity.setName env custom { e with layer := l } v =
      ((Entity.setName env custom e v).1, { (Entity.setName env custom e v).2 with layer := l }) := by
  unfold Entity.setName
  dsimp only
  split
  · cases v <;> rfl
  · cases v with
    | str s =>
      dsimp only
      cases Dict.get? env.entities s with
      | none => rfl
      | some data =>
        dsimp only
        cases data.subscript "type" with
        | error x => rfl
        | ok t =>
          dsimp only
          cases mixinsFor custom t with
          | error x => rfl
          | ok ms =>
            dsimp only
            cases Klass.extend e.depth e.klass ms <;> rfl
    | _ => rfl

/-- The layer only enters as an attribute. -/
theorem new_relayer {env : Env} {custom : Option Custom} {layer : Option BpId} {kw : Dict} {e : Entity}
    (layer' : Option BpId) (h : Entity.new env custom layer kw = .ok e) :
    Entity.new env custom layer' kw = .ok { e with layer := layer' } := by
  obtain ⟨h1, h2, name, position, number, e', h3, h4, h5, h6, h7⟩ := Entity.new_ok.1 h
  obtain ⟨pos, dir, cb, a, h8, h9, h10, h11, rfl⟩ := Entity.finish_ok.1 h7
  refine Entity.new_ok.2 ⟨h1, h2, name, position, number, { e' with layer := layer' }, h3, h4, h5, ?_,
    Entity.finish_ok.2 ⟨pos, dir, cb, a, h8, h9, h10, h11, rfl⟩⟩
  have := setName_layer env custom (Entity.raw0 layer kw number) name layer'
  rw [h6] at this
  exact this

/-! ## The list of entities -/

theorem buildAll_cons {env : Env} {custom : Option Custom} {b : BpId} {v : Val} {vs : List Val} {es : List Entity}
    (h : buildAll env custom b (v :: vs) = .ok es) :
    ∃ kw e es', v = .dict kw ∧ Entity.new env custom (some b) kw = .ok e ∧ buildAll env custom b vs = .ok es' := by
  unfold buildAll at h
  rw [List.mapM_cons] at h
  simp only [bind_eq_ok, pure_eq_ok, Except.ok.injEq, kwargs_ok] at h
  obtain ⟨e, ⟨kw, rfl, h1⟩, es', h2, -⟩ := h
  exact ⟨kw, e, es', rfl, h1, h2⟩

theorem buildAll_head {env : Env} {custom : Option Custom} {b : BpId} {kw : Dict} {vs : List Val} {x : Exc}
    (h : Entity.new env custom (some b) kw = .error x) :
    buildAll env custom b (.dict kw :: vs) = .error x := by
  unfold buildAll
  rw [List.mapM_cons]
  show ((Entity.new env custom (some b) kw) >>= _) = _
  rw [h]
  rfl

theorem buildAll_tail {env : Env} {custom : Option Custom} {b : BpId} {kw : Dict} {vs : List Val} {e : Entity} {x : Exc}
    (h : Entity.new env custom (some b) kw = .ok e) (hv : buildAll env custom b vs = .error x) :
    buildAll env custom b (.dict kw :: vs) = .error x := by
  unfold buildAll at hv ⊢
  rw [List.mapM_cons]
  show ((Entity.new env custom (some b) kw) >>= _) = _
  rw [h]
  simp only [ok_bind]
  rw [hv]
  rfl

theorem entsLeft_same {env : Env} {b : BpId} {l : List Val} {es : List Entity}
    (h : buildAll env (some []) b l = .ok es) (hc : ∀ v ∈ l, ¬ CombinatorData env v) :
    entsLeft env (some []) b l = l := by
  induction l generalizing es with
  | nil => rfl
  | cons v vs ih =>
    obtain ⟨kw, e, es', rfl, h1, h2⟩ := buildAll_cons h
    unfold entsLeft
    rw [h1]
    dsimp only
    rw [entLeft_same h1 (hc _ (List.mem_cons_self ..)), ih h2 (fun v hv => hc v (List.mem_cons_of_mem _ hv))]

theorem entsLeft_combinator {env : Env} {b : BpId} {l : List Val} {es : List Entity}
    (h : buildAll env (some []) b l = .ok es) (hc : ∃ v ∈ l, CombinatorData env v) :
    entsLeft env (some []) b l ≠ l ∧
    ∀ b', buildAll env (some []) b' (entsLeft env (some []) b l) = .error .keyError := by
  induction l generalizing es with
  | nil => obtain ⟨v, hv, -⟩ := hc; cases hv
  | cons v vs ih =>
    obtain ⟨kw, e, es', rfl, h1, h2⟩ := buildAll_cons h
    unfold entsLeft
    rw [h1]
    dsimp only
    by_cases hd : CombinatorData env (.dict kw)
    · obtain ⟨n1, n2⟩ := entLeft_combinator h1 hd
      refine ⟨?_, fun b' => buildAll_head (n2 (some b'))⟩
      intro he
      injection he with he
      injection he with he
      exact n1 he
    · obtain ⟨v', hv', hvc⟩ := hc
      rw [entLeft_same h1 hd]
      rcases List.mem_cons.1 hv' with rfl | hv'
      · exact absurd hvc hd
      obtain ⟨n1, n2⟩ := ih h2 ⟨v', hv', hvc⟩
      refine ⟨?_, fun b' => buildAll_tail (new_relayer (some b') h1) (n2 b')⟩
      intro he
      injection he with _ he
      exact n1 he

/-! ## The parts of `load` -/

theorem M.bind_assoc' {α β γ : Type} (x : M α) (f : α → M β) (g : β → M γ) :
    (x >>= f) >>= g = x >>= fun a => f a >>= g := by
  funext w
  simp only [M.bind_eq]
  cases x w with
  | mk r w' => cases r <;> rfl

theorem load_parts (b : BpId) (data : Val) :
    load b data = M.lift (unwrapData data) >>= fun d => loadHead b d >>= fun _ => loadBody b d >>= fun _ => loadTail b d := by
  unfold load loadHead loadBody loadTail
  simp only [M.bind_assoc']

theorem loadHead_ok {b : BpId} {d : Dict} {w w' : World} :
    loadHead b d w = (.ok (), w') ↔ ∃ col iv ic,
      colorAfter (w.bp b).labelColor (Dict.getD d "label_color" .none) = .ok col ∧
      (Dict.getD d "icons" (.list [])).iter = .ok iv ∧
      iconsAll w.env iv [none, none, none, none] = .ok ic ∧ w' = w.setBp b ((w.bp b).withHead d col ic) := by
  unfold loadHead
  simp only [M.bind_eq_ok (x := M.lift _), M.lift_eq, Prod.mk.injEq, M.bind_modBp,
    M.bind_unit_ok (x := loadColor _ _), loadColor_ok, forEach_loadIcon_ok]
  constructor
  · rintro ⟨_, ⟨col, h2, rfl⟩, iv, _, ⟨h3, rfl⟩, ic, h4, rfl⟩
    simp only [setBp_bp_self, setBp_setBp, setBp_env] at h2 h4 ⊢
    exact ⟨col, iv, ic, h2, h3, h4, rfl⟩
  · rintro ⟨col, iv, ic, h2, h3, h4, rfl⟩
    refine ⟨_, ⟨col, ?_, rfl⟩, iv, _, ⟨h3, rfl⟩, ic, ?_, ?_⟩
    all_goals simp only [setBp_bp_self, setBp_setBp, setBp_env]
    · exact h2
    · exact h4
    · rfl

theorem forEach_layerLoad_error {b : BpId} {l : List Val} {w : World} {x : Exc}
    (h : buildAll w.env (w.customOf (some b)) b l = .error x) :
    (M.forEach (layerLoad b) l w).1 = .error x := by
  induction l generalizing w with
  | nil => cases h
  | cons v vs ih =>
    show ((layerLoad b v >>= fun _ => M.forEach (layerLoad b) vs : M Unit) w).1 = _
    unfold buildAll at h
    rw [List.mapM_cons] at h
    rw [M.bind_eq]
    cases hl : layerLoad b v w with
    | mk r w' =>
      cases r with
      | ok u =>
        obtain ⟨e, he, rfl⟩ := layerLoad_ok.1 hl
        rw [he] at h
        simp only [ok_bind] at h
        dsimp only
        refine ih ?_
        rw [push_env, push_custom]
        unfold buildAll
        rw [bind_eq_error] at h
        rcases h with h | ⟨_, -, h⟩
        · exact h
        · cases h
      | error y =>
        dsimp only
        have hb : (v.kwargs >>= Entity.new w.env (w.customOf (some b)) (some b)) = .error y := by
          unfold layerLoad at hl
          rw [M.bind_eq] at hl
          cases hk : v.kwargs with
          | error z =>
            rw [hk] at hl
            rw [error_bind]
            cases hl
            rfl
          | ok kw =>
            rw [hk] at hl
            rw [ok_bind]
            change ((newEntity (some b) kw >>= _ : M Unit) w) = _ at hl
            rw [M.bind_eq] at hl
            unfold newEntity at hl
            cases hn : Entity.new w.env (w.customOf (some b)) (some b) kw with
            | error z => rw [hn] at hl; cases hl; rfl
            | ok e => rw [hn] at hl; cases hl
        change ((v.kwargs >>= Entity.new w.env (w.customOf (some b)) (some b)) >>= _) = _ at h
        rw [hb] at h
        cases h
        rfl

/-! ## The whole data -/

/-- The dict with another list of entities, if it has one. -/
def withEntities (d : Dict) (f : List Val → List Val) : Dict :=
  match Dict.get? d "entities" with
  | some (.list l) => Dict.set d "entities" (.list (f l))
  | _ => d

theorem withEntities_get {d : Dict} {f : List Val → List Val} {k : String} (h : k ≠ "entities") :
    Dict.get? (withEntities d f) k = Dict.get? d k := by
  unfold withEntities
  split
  · exact get_set_ne h
  · rfl

theorem dictLeft_ok {b : BpId} {data : Val} {w w' : World} {d : Dict} (h : load b data w = (.ok (), w'))
    (hd : unwrapData data = .ok d) :
    dictLeft b d w = Dict.erase (withEntities d (entsLeft w.env (w.customOf (some b)) b)) "schedules" ∧
    (∃ col iv ic, colorAfter (w.bp b).labelColor (Dict.getD d "label_color" .none) = .ok col ∧
      (Dict.getD d "icons" (.list [])).iter = .ok iv ∧ iconsAll w.env iv [none, none, none, none] = .ok ic) ∧
    ∀ l, Dict.get? d "entities" = some (.list l) → ∃ es, buildAll w.env (w.customOf (some b)) b l = .ok es := by
  obtain ⟨d', col, iv, ic, ev, es, -, -, -, h1, h2, h3, h4, h5, h6, -⟩ := load_iff.1 h
  rw [hd] at h1
  cases h1
  refine ⟨?_, ⟨col, iv, ic, h2, h3, h4⟩, fun l hl => ?_⟩
  · rw [load_parts, M.bind_eq, M.lift_eq, hd] at h
    dsimp only at h
    rw [M.bind_unit_ok] at h
    obtain ⟨w1, hw1, h⟩ := h
    rw [M.bind_unit_ok] at h
    obtain ⟨w2, hw2, -⟩ := h
    unfold dictLeft
    rw [hw1]
    dsimp only
    rw [hw2]
    dsimp only
    obtain ⟨col', _, ic', -, -, -, rfl⟩ := loadHead_ok.1 hw1
    have e2 : (w.setBp b ((w.bp b).withHead d col' ic')).customOf (some b) = w.customOf (some b) := by
      rw [customOf_setBp]; rfl
    rw [e2]
    rfl
  · unfold Dict.getD at h5
    rw [hl] at h5
    cases h5
    exact ⟨es, h6⟩

theorem unwrapData_left {b : BpId} {data : Val} {w w' : World} {d : Dict} (h : load b data w = (.ok (), w'))
    (hd : unwrapData data = .ok d) : unwrapData (loadLeft b data w) = .ok (dictLeft b d w) ∧
      (loadLeft b data w = data ↔ dictLeft b d w = d) := by
  have hc := content_iff.1 hd
  cases hc with
  | wrapped o _ ho =>
    have ho' : Dict.get? o "blueprint" = some (.dict d) := ho
    unfold loadLeft
    dsimp only
    rw [ho']
    dsimp only
    constructor
    · unfold unwrapData
      dsimp only
      rw [get_set_self]
      rfl
    · constructor
      · intro he
        injection he with he
        have := congrArg (fun d => Dict.get? d "blueprint") he
        rw [get_set_self, ho'] at this
        injection this with this
        injection this
      · intro he
        rw [he, set_same ho']
  | bare _ ho =>
    have ho' : Dict.get? d "blueprint" = none := ho
    unfold loadLeft
    dsimp only
    rw [ho']
    dsimp only
    constructor
    · unfold unwrapData
      have : Dict.get? (dictLeft b d w) "blueprint" = none := by
        rw [(dictLeft_ok h hd).1, get_erase_ne (by decide), withEntities_get (by decide), ho']
      dsimp only
      rw [this]
    · exact ⟨fun he => by injection he, fun he => by rw [he]⟩

/-- Loading what was left by a combinator. -/
theorem load_left_error {b b2 : BpId} {data : Val} {w w' w2 : World} {d : Dict} {l : List Val}
    (h : load b data w = (.ok (), w')) (hd : unwrapData data = .ok d)
    (hb : (w.bp b).custom = []) (hb2 : (w2.bp b2).custom = []) (henv : w2.env = w.env)
    (hl : Dict.get? d "entities" = some (.list l)) (hc : ∃ v ∈ l, CombinatorData w.env v) :
    (load b2 (loadLeft b data w) w2).1 = .error .keyError := by
  obtain ⟨h1, ⟨col, iv, ic, h2, h3, h4⟩, h5⟩ := dictLeft_ok h hd
  obtain ⟨es, hes⟩ := h5 l hl
  rw [customOf_some, hb] at hes h1
  obtain ⟨-, hbad⟩ := entsLeft_combinator hes hc
  have hk : ∀ k, k ≠ "entities" → k ≠ "schedules" → Dict.get? (dictLeft b d w) k = Dict.get? d k := by
    intro k k1 k2
    rw [h1, get_erase_ne k2, withEntities_get k1]
  have hcol : ∃ col2, colorAfter (w2.bp b2).labelColor (Dict.getD d "label_color" .none) = .ok col2 := by
    unfold colorAfter at h2 ⊢
    split at h2
    · exact ⟨_, rfl⟩
    · rename_i x
      exact ⟨col, h2⟩
  obtain ⟨col2, hcol2⟩ := hcol
  rw [load_parts, M.bind_eq, M.lift_eq, (unwrapData_left h hd).1]
  dsimp only
  have hhead : loadHead b2 (dictLeft b d w) w2 = (.ok (), w2.setBp b2 ((w2.bp b2).withHead (dictLeft b d w) col2 ic)) := by
    refine loadHead_ok.2 ⟨col2, iv, ic, ?_, ?_, ?_, rfl⟩
    · unfold Dict.getD at hcol2 ⊢
      rw [hk _ (by decide) (by decide)]
      exact hcol2
    · unfold Dict.getD at h3 ⊢
      rw [hk _ (by decide) (by decide)]
      exact h3
    · rw [henv]
      exact h4
  rw [M.bind_ok hhead, M.bind_eq]
  have hbody : (loadBody b2 (dictLeft b d w) (w2.setBp b2 ((w2.bp b2).withHead (dictLeft b d w) col2 ic))).1 =
      .error .keyError := by
    unfold loadBody
    rw [M.bind_eq, M.lift_eq]
    have : Dict.getD (dictLeft b d w) "entities" (.list []) = .list (entsLeft w.env (some []) b l) := by
      unfold Dict.getD
      rw [h1, get_erase_ne (by decide)]
      unfold withEntities
      rw [hl]
      dsimp only
      rw [get_set_self]
      rfl
    rw [this]
    dsimp only [Val.iter]
    rw [M.bind_eq]
    have hf := forEach_layerLoad_error (b := b2) (l := entsLeft w.env (some []) b l) (x := .keyError)
      (w := w2.setBp b2 ((w2.bp b2).withHead (dictLeft b d w) col2 ic)) (by
        rw [customOf_setBp, setBp_env, henv]
        show buildAll w.env (some (w2.bp b2).custom) b2 _ = _
        rw [hb2]
        exact hbad b2)
    cases hx : M.forEach (layerLoad b2) (entsLeft w.env (some []) b l)
        (w2.setBp b2 ((w2.bp b2).withHead (dictLeft b d w) col2 ic)) with
    | mk r w3 =>
      rw [hx] at hf
      change r = _ at hf
      subst hf
      rfl
  cases hx : loadBody b2 (dictLeft b d w) (w2.setBp b2 ((w2.bp b2).withHead (dictLeft b d w) col2 ic)) with
  | mk r w3 =>
    rw [hx] at hbody
    change r = _ at hbody
    subst hbody
    rfl

/-- Without combinators only the schedules are missing. -/
theorem dictLeft_plain {b : BpId} {data : Val} {w w' : World} {d : Dict} (h : load b data w = (.ok (), w'))
    (hd : unwrapData data = .ok d) (hb : (w.bp b).custom = [])
    (hc : ∀ l, Dict.get? d "entities" = some (.list l) → ∀ v ∈ l, ¬ CombinatorData w.env v) :
    dictLeft b d w = Dict.erase d "schedules" := by
  obtain ⟨h1, -, h5⟩ := dictLeft_ok h hd
  rw [h1]
  congr 1
  unfold withEntities
  split
  · rename_i l hl
    obtain ⟨es, hes⟩ := h5 l hl
    rw [customOf_some, hb] at hes ⊢
    rw [entsLeft_same hes (hc l hl), set_same hl]
  · rfl

theorem dictLeft_same {b : BpId} {data : Val} {w w' : World} {d : Dict} (h : load b data w = (.ok (), w'))
    (hd : unwrapData data = .ok d) (hb : (w.bp b).custom = []) :
    dictLeft b d w = d ↔ List.lookup "schedules" d = none ∧
      ∀ l, List.lookup "entities" d = some (.list l) → ∀ v ∈ l, ¬ CombinatorData w.env v := by
  constructor
  · intro he
    obtain ⟨h1, -, h5⟩ := dictLeft_ok h hd
    refine ⟨?_, fun l hl v hv hvc => ?_⟩
    · have : Dict.get? (dictLeft b d w) "schedules" = none := by
        rw [h1]
        unfold Dict.get?
        rw [lookup_erase, if_pos rfl]
      rw [he] at this
      exact this
    · obtain ⟨es, hes⟩ := h5 l hl
      rw [customOf_some, hb] at hes h1
      refine (entsLeft_combinator hes ⟨v, hv, hvc⟩).1 ?_
      have hl' : Dict.get? d "entities" = some (.list l) := hl
      have : Dict.get? (dictLeft b d w) "entities" = some (.list (entsLeft w.env (some []) b l)) := by
        rw [h1, get_erase_ne (by decide)]
        unfold withEntities
        rw [hl']
        exact get_set_self ..
      rw [he, hl'] at this
      injection this with this
      injection this with this
      exact this.symm
  · rintro ⟨hs, hc⟩
    rw [dictLeft_plain h hd hb hc, erase_eq_self]
    exact hs

/-- Loading data without their schedules. -/
theorem load_erase {b : BpId} {data data' : Val} {w w' : World} {d : Dict} (ho : Owned w)
    (h : load b data w = (.ok (), w')) (hd : unwrapData data = .ok d)
    (hd' : unwrapData data' = .ok (Dict.erase d "schedules")) :
    ∃ w'', load b data' w = (.ok (), w'') ∧ view w'' b = { view w' b with schedules := [] } := by
  obtain ⟨d1, col, iv, ic, ev, es, cs, sv, ss, h1, h2, h3, h4, h5, h6, h7, h8, h9, h10, h11, h12⟩ :=
    (load_view ho (view w' b)).1 ⟨w', h, rfl⟩
  rw [hd] at h1
  cases h1
  rw [load_view ho, h12]
  have hg : ∀ k v, k ≠ "schedules" → Dict.getD (Dict.erase d "schedules") k v = Dict.getD d k v := by
    intro k v hk
    unfold Dict.getD
    rw [get_erase_ne hk]
  have hbase : w.base b (Dict.erase d "schedules") col ic es = w.base b d col ic es := by
    unfold World.base Bp.withHead
    rw [hg _ _ (by decide), hg _ _ (by decide), hg _ _ (by decide)]
  refine ⟨Dict.erase d "schedules", col, iv, ic, ev, es, cs, [], [], hd', ?_, ?_, h4, ?_, h6, ?_, h8, ?_, ?_, rfl, ?_⟩
  · rw [hg _ _ (by decide)]; exact h2
  · rw [hg _ _ (by decide)]; exact h3
  · rw [hg _ _ (by decide)]; exact h5
  · rw [hbase]; exact h7
  · rw [hg _ _ (by decide)]; exact h9
  · unfold Dict.getD Dict.get?
    rw [lookup_erase, if_pos rfl]
    rfl
  · rw [hbase, hg _ _ (by decide), hg _ _ (by decide), hg _ _ (by decide)]

end Verif
