import Verif.Proofs.ShownControl
import Verif.Proofs.Custom
import Verif.Proofs.Moved
/-!
# Helper lemmas: what an entity was made with is what is exported
-/
set_option autoImplicit false

namespace Verif
open Spec

theorem Entity.new_klassOk {env : Env} {custom : Option Custom} {layer : Option BpId} {kw : Dict} {e : Entity}
    (h : Entity.new env custom layer kw = .ok e) : e.klass.Ok := by
  obtain ⟨-, -, name, position, number, e', -, -, -, hs, hf⟩ := Entity.new_ok.1 h
  obtain ⟨pos, dir, cb, a, -, -, -, -, rfl⟩ := Entity.finish_ok.1 hf
  have := Entity.setName_klass (env := env) (custom := custom) (v := name)
    (e := Entity.raw0 layer kw number) Klass.entity_ok
  rw [hs] at this
  exact this

theorem gameForm_settings {env : Env} {k : String} {v : Val} (h : GameForm env k v) :
    k ∉ Entity.ownKeys ++ ["connections", "control_behavior"] ∧ v ≠ .none := by
  cases h
  all_goals refine ⟨by decide, ?_⟩
  all_goals intro e
  all_goals subst_vars
  all_goals first
    | cases e; done
    | (rename_i h; obtain ⟨_, h, -⟩ := h; cases h; done)
    | (rename_i h; obtain ⟨_, h⟩ := h; cases h; done)
    | (rename_i h; obtain ⟨⟨_, h, -⟩, -⟩ := h; cases h; done)
    | (rename_i h _; obtain ⟨_, h, -⟩ := h; cases h; done)
    | skip

theorem mem_settings_free {m : Mx} {k : String} (h : k ∈ settings m) :
    k ∉ Entity.ownKeys ++ ["connections", "control_behavior"] ∧ k ∈ emitKeys m := by
  revert h
  cases m <;> simp only [settings, List.mem_cons, List.not_mem_nil, or_false, false_imp_iff]
  all_goals intro h
  all_goals first
    | (subst h; decide)
    | (rcases h with rfl | rfl <;> decide)
    | (rcases h with rfl | rfl | rfl <;> decide)

section
variable {env : Env} {custom : Option Custom} {layer : Option BpId} {kw d : Dict} {e : Entity} {c : Option Val}

/-- What one behaviour of a new entity has read, and what it writes. -/
theorem new_behaviour {e' : Entity} (he : Entity.new env custom layer kw = .ok e) (hk : e'.klass = e.klass)
    (hat : e'.attrs = e.attrs) (hd : e'.emitRest env (baseObj e' c) = .ok d) {m : Mx} (hm : m ∈ e.klass.chain) :
    ∃ strict sh g w out, mxRead env strict sh m g = .ok w ∧ (∀ k ∈ mxAttrs m, Dict.get? e.attrs k = Dict.get? w k) ∧
      (∀ k ∈ settings m, g k = List.lookup k kw ∨ (g k = none ∧ List.lookup k kw = none)) ∧
      mxEmit env m (Dict.get? e.attrs) e'.dir = .ok out ∧
      ∀ k ∈ settings m, List.lookup k d = List.lookup k out := by
  have hn := Entity.new_nodup he
  have hch := Entity.new_chain he
  obtain ⟨g, w, h1, h2, h3⟩ := initChain_read hch hn (fun _ _ _ _ => rfl) hm
  obtain ⟨out, h4, h5⟩ := emitRest_owned (hk ▸ Entity.new_klassOk he) hd (hk ▸ hm)
  rw [hat] at h4
  refine ⟨_, _, g, w, out, h1, h2, fun k hks => ?_, h4, fun k hks => ?_⟩
  · have hfree := (mem_settings_free hks).1
    rw [settings_eq] at hks
    rcases h3 k hks with h | ⟨h, hI⟩
    · rw [h, get_eraseKeys hfree]
      exact .inl rfl
    · cases hv : List.lookup k kw with
      | none => exact .inr ⟨h, rfl⟩
      | some v => exact absurd hch (initChain_behind hI hks hn (by rw [get_eraseKeys hfree]; exact hv))
  · refine h5 k (mem_settings_free hks).2 ?_
    rintro rfl
    exact (mem_settings_free hks).1 (by decide)

theorem new_shows {e' : Entity} (he : Entity.new env custom layer kw = .ok e) (hk : e'.klass = e.klass)
    (hat : e'.attrs = e.attrs) (hp : e'.pos = e.pos) (hdir : e'.dir = e.dir) (hname : e'.name = e.name)
    (hd : e'.emitRest env (baseObj e' c) = .ok d) : Shows env e.klass kw d := by
  have hfor : ∀ k ∈ ["name", "position"], ∀ m ∈ e'.klass.chain, k ∉ emitKeys m := by
    intro k hk m _
    simp only [List.mem_cons, List.not_mem_nil, or_false] at hk
    rcases hk with rfl | rfl <;> cases m <;> decide
  obtain ⟨-, -, name, position, number, e₁, hn, hpos, -, hs, hf⟩ := Entity.new_ok.1 he
  obtain ⟨pos, dir, cb, a, f1, f2, -, -, hfin⟩ := Entity.finish_ok.1 hf
  have hpos' : e.pos = pos := by rw [hfin]
  have hdir' : e.dir = dir := by rw [hfin]
  have hname' : e.name = e₁.name := by rw [hfin]
  refine ⟨fun s h => ?_, fun v h hr => ?_, fun z h hm => ?_, fun k v h hg => ?_, fun m k hks h => ?_⟩
  · rw [emitRest_foreign hd (hfor "name" (by simp)) (by decide)]
    have hb := baseObj_get e' c "name"
    unfold Dict.get? at hb
    rw [hb, if_neg (by decide), if_pos rfl, hname, hname']
    unfold Dict.get? at hn
    rw [h] at hn
    cases hn
    obtain ⟨s', hs', ⟨-, rfl⟩ | ⟨-, _, _, _, _, -, -, -, -, rfl⟩⟩ := Entity.setName_ok hs
    · cases hs'; rfl
    · cases hs'; rfl
  · rw [emitRest_foreign hd (hfor "position" (by simp)) (by decide)]
    have hb := baseObj_get e' c "position"
    unfold Dict.get? at hb
    rw [hb, if_neg (by decide), if_neg (by decide), if_pos rfl, hp, hpos']
    unfold Dict.get? at hpos
    rw [h] at hpos
    cases hpos
    refine ⟨_, rfl, (readVector_new hr (x := pos.toJson) ?_).1⟩
    unfold Entity.posOf at f1
    simp only [bind_eq_ok] at f1
    obtain ⟨o, g1, g2⟩ := f1
    unfold readVector
    rw [g1, ok_bind]
    cases o with
    | none => cases g2
    | some q => cases g2; rfl
  · rw [emit_facing (hk ▸ Entity.new_klassOk he) hd (hk ▸ hm), hdir, hdir']
    have : Dict.getD kw "direction" (.int 0) = .int z := h
    rw [this] at f2
    cases f2
    rfl
  · have hfree := (gameForm_settings hg).1
    obtain ⟨m, hm, hkm⟩ := initChain_keys (Entity.new_chain he)
      (by rw [get_eraseKeys hfree]; exact h : Dict.get? _ k = some v)
    rw [← settings_eq] at hkm
    obtain ⟨_, _, g, w, out, h1, h2, h3, h4, h5⟩ := new_behaviour he hk hat hd hm
    rw [h5 k hkm]
    refine mx_shown h1 hkm ?_ hg h2 h4
    rcases h3 k hkm with h3 | ⟨-, h3⟩
    · rw [h3, h]
    · rw [h3] at h; cases h
  · by_cases hm : m ∈ e.klass.chain
    · obtain ⟨_, _, g, w, out, h1, h2, h3, h4, h5⟩ := new_behaviour he hk hat hd hm
      rw [h5 k hks]
      refine mx_absent h1 hks ?_ h2 h4
      rcases h3 k hks with h3 | ⟨h3, -⟩
      · rw [h3]; exact h
      · exact .inl h3
    · have hfree := mem_settings_free hks
      rw [emitRest_foreign hd ?_ (fun e => hfree.1 (by rw [e]; decide))]
      · have hb := baseObj_get e' c k
        unfold Dict.get? at hb
        rw [hb]
        have h0 := hfree.1
        simp only [Entity.ownKeys, List.cons_append, List.nil_append, List.mem_cons, List.not_mem_nil, or_false, not_or] at h0
        rw [if_neg h0.2.2.2.2.1, if_neg h0.1, if_neg h0.2.1, if_neg h0.2.2.2.2.2.1]
      · intro m' hm' hk'
        have : m' = m := by
          by_cases hr : m' = .Rotatable
          · subst hr
            exfalso
            simp only [emitKeys, List.mem_cons, List.not_mem_nil, or_false] at hk'
            subst hk'
            exact hfree.1 (by decide)
          · rw [emitKeys_ne m' hr] at hk'
            rw [settings_eq] at hks
            exact mxKeys_disjoint hk' hks
        subst this
        exact hm (hk ▸ hm')

end
end Verif
