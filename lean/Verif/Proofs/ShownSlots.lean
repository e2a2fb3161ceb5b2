import Verif.Proofs.ShownEntity
/-!
# The slots of accepted filters
-/
set_option autoImplicit false

namespace Verif
open Spec

variable {env : Env} {custom : Option Custom} {layer : Option BpId} {kw : Dict} {e : Entity}

theorem new_read (he : Entity.new env custom layer kw = .ok e) {m : Mx} (hm : m ∈ e.klass.chain) :
    ∃ strict sh g w, mxRead env strict sh m g = .ok w ∧
      ∀ k ∈ settings m, g k = List.lookup k kw ∨ (g k = none ∧ List.lookup k kw = none) := by
  have hn := Entity.new_nodup he
  have hch := Entity.new_chain he
  obtain ⟨g, w, h1, h2, h3⟩ := initChain_read hch hn (fun _ _ _ _ => rfl) hm
  refine ⟨_, _, g, w, h1, fun k hks => ?_⟩
  have hfree := (mem_settings_free hks).1
  rw [settings_eq] at hks
  rcases h3 k hks with h | ⟨h, hI⟩
  · rw [h, get_eraseKeys hfree]
    exact .inl rfl
  · cases hv : List.lookup k kw with
    | none => exact .inr ⟨h, rfl⟩
    | some v => exact absurd hch (initChain_behind hI hks hn (by rw [get_eraseKeys hfree]; exact hv))

theorem foldIdx_each {step : Val → Except Exc (Val × Dict)} {fs : List Val} {acc l : List (Val × Dict)}
    (h : fs.foldlM (fun acc f => do let p ← step f; return setIdx acc p.1 p.2) acc = .ok l) :
    ∀ f ∈ fs, ∃ p, step f = .ok p := by
  induction fs generalizing acc with
  | nil => intro f hf; cases hf
  | cons f fs ih =>
    rw [List.foldlM_cons, bind_eq_ok] at h
    obtain ⟨acc', h', h⟩ := h
    simp only [bind_eq_ok, pure_eq_ok, Except.ok.injEq] at h'
    obtain ⟨p, hp, -⟩ := h'
    intro g hg
    rcases List.mem_cons.1 hg with rfl | hg
    · exact ⟨p, hp⟩
    · exact ih h g hg

theorem hashable_iff {v : Val} : v.hashable = true ↔ CanBeKey v := by
  unfold CanBeKey
  cases v <;> simp [Val.hashable]

theorem slot_of {f i : Val} (h : f.subscript "index" = .ok i) (hi : ¬ (!i.hashable) = true) :
    ∃ d i, f = .dict d ∧ List.lookup "index" d = some i ∧ CanBeKey i := by
  obtain ⟨d, rfl, hl⟩ := subscript_ok.1 h
  exact ⟨d, i, rfl, hl, hashable_iff.1 (by simpa using hi)⟩

theorem new_slots (he : Entity.new env custom layer kw = .ok e) {k : String} {v : Val} {l : List Val}
    (hk : List.lookup k kw = some v) (hs : SlotFilters k v l) {f : Val} (hf : f ∈ l) :
    ∃ d i, f = .dict d ∧ List.lookup "index" d = some i ∧ CanBeKey i := by
  have hfree : k ∉ Entity.ownKeys ++ ["connections", "control_behavior"] := by cases hs <;> decide
  obtain ⟨m, hm, hkm⟩ := initChain_keys (Entity.new_chain he)
    (by rw [get_eraseKeys hfree]; exact hk : Dict.get? _ k = some v)
  obtain ⟨strict, sh, g, w, h1, h2⟩ := new_read he hm
  have hg : g k = some v := by
    rcases h2 k (by rw [settings_eq]; exact hkm) with h | ⟨-, h⟩
    · rw [h, hk]
    · rw [h] at hk; cases hk
  cases hs with
  | request =>
    have : m = .Requester := mxKeys_disjoint hkm (by decide)
    subst this
    unfold mxRead Kw.orNone at h1
    rw [hg] at h1
    dsimp only [Option.getD_some] at h1
    rw [readRequestFilters_eq] at h1
    simp only [bind_eq_ok, iterOrNone, Val.iter, Except.ok.injEq] at h1
    obtain ⟨x, ⟨fs, rfl, l', hfold, -⟩, -⟩ := h1
    obtain ⟨p, hp⟩ := foldIdx_each hfold f hf
    unfold requestStep at hp
    simp only [bind_eq_ok] at hp
    obtain ⟨_, -, _, -, _, -, _, -, i, hi, hp⟩ := hp
    split at hp
    · cases hp
    · exact slot_of hi (by assumption)
  | inventory d _ hd =>
    have : m = .Cargo := mxKeys_disjoint hkm (by decide)
    subst this
    unfold mxRead Kw.orNone at h1
    rw [hg] at h1
    dsimp only [Option.getD_some] at h1
    rw [readCargo_eq (by intro h; cases h)] at h1
    simp only [bind_eq_ok, Val.asDict, Except.ok.injEq] at h1
    obtain ⟨_, rfl, fs, hfs, l', hfold, -⟩ := h1
    rw [show Dict.getD d "filters" (.list []) = .list l by unfold Dict.getD Dict.get?; rw [hd]; rfl] at hfs
    cases hfs
    obtain ⟨p, hp⟩ := foldIdx_each hfold f hf
    unfold cargoStep at hp
    simp only [bind_eq_ok] at hp
    obtain ⟨_, -, _, -, i, hi, hp⟩ := hp
    split at hp
    · cases hp
    · exact slot_of hi (by assumption)
  | infinity d _ hd =>
    have : m = .InfinityContainer := mxKeys_disjoint hkm (by decide)
    subst this
    unfold mxRead Kw.orNone at h1
    rw [hg] at h1
    dsimp only [Option.getD_some] at h1
    rw [readInfinity_eq] at h1
    simp only [bind_eq_ok] at h1
    obtain ⟨_, -, x, hx, fs, hfs, l', hfold, -⟩ := h1
    rw [subscript_ok] at hx
    obtain ⟨_, h0, hx⟩ := hx
    cases h0
    rw [hd] at hx
    cases hx
    cases hfs
    obtain ⟨p, hp⟩ := foldIdx_each hfold f hf
    unfold infinityStep at hp
    simp only [bind_eq_ok] at hp
    obtain ⟨_, -, hp⟩ := hp
    split at hp
    · cases hp
    simp only [bind_eq_ok] at hp
    obtain ⟨_, -, _, -, _, -, i, hi, hp⟩ := hp
    split at hp
    · cases hp
    · exact slot_of hi (by assumption)

end Verif
