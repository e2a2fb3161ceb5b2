import Verif.Proofs.CombiTrip
import Verif.Proofs.Assign
/-!
# Helper lemmas: assigned settings are settings a constructor call could have stored
-/
set_option autoImplicit false

namespace Verif

/-! ## The loops -/

/-- A stored dict by index that is read again unchanged. -/
def Relisted (step : Val → Except Exc (Val × Dict)) (l : List (Val × Dict)) : Prop :=
  (l.map (fun p => Val.dict (("index", p.1) :: p.2))).foldlM
    (fun acc f => do let p ← step f; return setIdx acc p.1 p.2) [] = .ok l

theorem fill_idx {step : Val → Except Exc (Val × Dict)} {fs : List Val} {acc : List (Val × Dict)}
    {K : Val → Prop} {Q : Dict → Prop} (hP : ∀ f p, step f = .ok p → K p.1 ∧ Q p.2)
    (ha : IdxOk acc ∧ ∀ p ∈ acc, K p.1 ∧ Q p.2) :
    IdxOk (fill step fs acc).2 ∧ ∀ p ∈ (fill step fs acc).2, K p.1 ∧ Q p.2 := by
  induction fs generalizing acc with
  | nil => exact ha
  | cons f fs ih =>
    unfold fill
    split
    · exact ha
    · rename_i p hp
      refine ih ?_
      have : ([f] : List Val).foldlM (fun acc f => do let p ← step f; return setIdx acc p.1 p.2) acc =
          .ok (setIdx acc p.1 p.2) := by
        rw [List.foldlM_cons, hp]
        rfl
      exact foldIdx_ok hP this ha

theorem fill_relisted {step : Val → Except Exc (Val × Dict)} {fs : List Val}
    {K : Val → Prop} {Q : Dict → Prop} (hP : ∀ f p, step f = .ok p → K p.1 ∧ Q p.2)
    (hA : ∀ p : Val × Dict, K p.1 ∧ Q p.2 → step (.dict (("index", p.1) :: p.2)) = .ok p) :
    Relisted step (fill step fs []).2 := by
  obtain ⟨h1, h2⟩ := fill_idx (fs := fs) (acc := []) hP ⟨List.Pairwise.nil, by intro p hp; cases hp⟩
  exact foldIdx_again (acc := []) (fun p hp => hA p (h2 p hp)) h1

theorem fillSetter_relisted {k : String} {step : Val → Except Exc (Val × Dict)} {fs : Except Exc (List Val)}
    {K : Val → Prop} {Q : Dict → Prop} (hP : ∀ f p, step f = .ok p → K p.1 ∧ Q p.2)
    (hA : ∀ p : Val × Dict, K p.1 ∧ Q p.2 → step (.dict (("index", p.1) :: p.2)) = .ok p) :
    ∃ l, (fillSetter k step fs).2 = [(k, idxJson l)] ∧ Relisted step l := by
  unfold fillSetter
  split
  · exact ⟨[], rfl, rfl⟩
  · exact ⟨_, rfl, fill_relisted hP hA⟩

theorem cargo_fill {env : Env} {k : String} {fs : Except Exc (List Val)} :
    ∃ l, (fillSetter k (cargoStep env) fs).2 = [(k, idxJson l)] ∧ Relisted (cargoStep env) l :=
  fillSetter_relisted (K := fun i => i.hashable = true)
    (Q := fun d => ∃ n, nameStr env n = .ok n ∧ d = [("name", n)])
    (fun _ _ h => cargoStep_ok h) (fun _ h => cargoStep_again h)

theorem infinity_fill {env : Env} {k : String} {fs : Except Exc (List Val)} :
    ∃ l, (fillSetter k (infinityStep env) fs).2 = [(k, idxJson l)] ∧ Relisted (infinityStep env) l :=
  fillSetter_relisted (K := fun i => i.hashable = true)
    (Q := fun d => ∃ c m n, (m == Val.str "at-least" || m == .str "at-most" || m == .str "exactly") = true ∧
      nameStr env n = .ok n ∧ d = [("count", c), ("mode", m), ("name", n)])
    (fun _ _ h => infinityStep_ok h) (fun _ h => infinityStep_again h)

theorem request_fill {env : Env} {k : String} {fs : Except Exc (List Val)} :
    ∃ l, (fillSetter k (requestStep env) fs).2 = [(k, idxJson l)] ∧ Relisted (requestStep env) l :=
  fillSetter_relisted (K := fun i => i.hashable = true)
    (Q := fun d => ∃ n c, nameStr env n = .ok n ∧ d = [("name", n), ("count", .int c)])
    (fun _ _ h => requestStep_ok h) (fun _ h => requestStep_again h)

/-! ## Mixins with dicts by index -/

theorem Made.cargo {env : Env} {sh : Bool} {a : Kw} (h : Made env sh .Cargo a) :
    ∃ bar l, a "inventory_bar" = some bar ∧ a "inventory_filters" = some (idxJson l) ∧ Relisted (cargoStep env) l := by
  obtain ⟨g, w, hr, ha⟩ := h
  change readCargo env _ = _ at hr
  by_cases hv : g.orNone "inventory" = .none
  · rw [hv] at hr
    cases hr
    exact ⟨.none, [], (ha _ (by decide)).trans rfl, (ha _ (by decide)).trans rfl, rfl⟩
  · rw [readCargo_eq hv] at hr
    simp only [bind_eq_ok, pure_eq_ok, Except.ok.injEq] at hr
    obtain ⟨d, -, fs, -, l, hl, rfl⟩ := hr
    refine ⟨_, l, (ha _ (by decide)).trans rfl, (ha _ (by decide)).trans rfl,
      idxJson_again (K := fun i => i.hashable = true)
        (Q := fun d => ∃ n, nameStr env n = .ok n ∧ d = [("name", n)])
        (fun f p h => cargoStep_ok h) (fun p h => cargoStep_again h) hl⟩

theorem Made.of_cargo {env : Env} {sh : Bool} {a : Kw} {bar : Val} {l : List (Val × Dict)}
    (h1 : a "inventory_bar" = some bar) (h2 : a "inventory_filters" = some (idxJson l))
    (h3 : Relisted (cargoStep env) l) : Made env sh .Cargo a := by
  refine ⟨fun _ => some (.dict [("bar", bar), ("filters", idxJson l)]),
    [("inventory_bar", bar), ("inventory_filters", idxJson l)], ?_, ?_⟩
  · show readCargo env (.dict [("bar", bar), ("filters", idxJson l)]) = _
    rw [readCargo_eq (by intro h; cases h)]
    show (do
      let l ← (l.map (fun p : Val × Dict => Val.dict (("index", p.1) :: p.2))).foldlM
        (fun acc f => do let p ← cargoStep env f; return setIdx acc p.1 p.2) []
      return [("inventory_bar", bar), ("inventory_filters", idxJson l)]) = _
    rw [h3]
    rfl
  · intro k hk
    simp only [mxAttrs, List.mem_cons, List.not_mem_nil, or_false] at hk
    rcases hk with rfl | rfl
    · exact h1
    · exact h2

theorem Made.infinity {env : Env} {sh : Bool} {a : Kw} (h : Made env sh .InfinityContainer a) :
    ∃ b l, a "infinity_settings_remove_unfiltered_items" = some (.bool b) ∧
      a "infinity_settings_filters" = some (idxJson l) ∧ Relisted (infinityStep env) l := by
  obtain ⟨g, w, hr, ha⟩ := h
  change readInfinity env _ = _ at hr
  rw [readInfinity_eq] at hr
  simp only [bind_eq_ok, pure_eq_ok, Except.ok.injEq] at hr
  obtain ⟨r, -, fv, -, fs, -, l, hl, rfl⟩ := hr
  exact ⟨_, l, (ha _ (by decide)).trans rfl, (ha _ (by decide)).trans rfl,
    idxJson_again (K := fun i => i.hashable = true)
    (Q := fun d => ∃ c m n, (m == Val.str "at-least" || m == .str "at-most" || m == .str "exactly") = true ∧
      nameStr env n = .ok n ∧ d = [("count", c), ("mode", m), ("name", n)])
    (fun f p h => infinityStep_ok h) (fun p h => infinityStep_again h) hl⟩

theorem Made.of_infinity {env : Env} {sh : Bool} {a : Kw} {b : Bool} {l : List (Val × Dict)}
    (h1 : a "infinity_settings_remove_unfiltered_items" = some (.bool b))
    (h2 : a "infinity_settings_filters" = some (idxJson l))
    (h3 : Relisted (infinityStep env) l) : Made env sh .InfinityContainer a := by
  refine ⟨fun _ => some (.dict [("remove_unfiltered_items", .bool b), ("filters", idxJson l)]),
    [("infinity_settings_remove_unfiltered_items", .bool b), ("infinity_settings_filters", idxJson l)], ?_, ?_⟩
  · show readInfinity env (.dict [("remove_unfiltered_items", .bool b), ("filters", idxJson l)]) = _
    rw [readInfinity_eq]
    show (do
      let l ← (l.map (fun p : Val × Dict => Val.dict (("index", p.1) :: p.2))).foldlM
        (fun acc f => do let p ← infinityStep env f; return setIdx acc p.1 p.2) []
      return [("infinity_settings_remove_unfiltered_items", Val.bool b), ("infinity_settings_filters", idxJson l)]) = _
    rw [h3]
    rfl
  · intro k hk
    simp only [mxAttrs, List.mem_cons, List.not_mem_nil, or_false] at hk
    rcases hk with rfl | rfl
    · exact h1
    · exact h2

theorem Made.requester {env : Env} {sh : Bool} {a : Kw} (h : Made env sh .Requester a) :
    ∃ b l, a "request_from_buffers" = some b ∧ a "request_filters" = some (idxJson l) ∧ Relisted (requestStep env) l := by
  obtain ⟨g, w, hr, ha⟩ := h
  simp only [mxRead, readRequestFilters_eq, bind_eq_ok, pure_eq_ok, Except.ok.injEq] at hr
  obtain ⟨li, ⟨fs, -, l, hl, rfl⟩, rfl⟩ := hr
  exact ⟨_, l, (ha _ (by decide)).trans rfl, (ha _ (by decide)).trans rfl,
    idxJson_again (K := fun i => i.hashable = true)
    (Q := fun d => ∃ n c, nameStr env n = .ok n ∧ d = [("name", n), ("count", .int c)])
    (fun f p h => requestStep_ok h) (fun p h => requestStep_again h) hl⟩

theorem Made.of_requester {env : Env} {sh : Bool} {a : Kw} {b : Val} {l : List (Val × Dict)}
    (h1 : a "request_from_buffers" = some b) (h2 : a "request_filters" = some (idxJson l))
    (h3 : Relisted (requestStep env) l) : Made env sh .Requester a := by
  refine ⟨Dict.get? [("request_from_buffers", b), ("request_filters", idxJson l)],
    [("request_from_buffers", b), ("request_filters", idxJson l)], ?_, ?_⟩
  · show (do
      let l ← readRequestFilters env (idxJson l)
      return [("request_from_buffers", b), ("request_filters", l)]) = _
    rw [readRequestFilters_eq]
    show (do
      let l ← (do
        let l ← (l.map (fun p : Val × Dict => Val.dict (("index", p.1) :: p.2))).foldlM
          (fun acc f => do let p ← requestStep env f; return setIdx acc p.1 p.2) []
        return idxJson l : Except Exc Val)
      return [("request_from_buffers", b), ("request_filters", l)]) = _
    rw [h3]
    rfl
  · intro k hk
    simp only [mxAttrs, mxKeys, List.mem_cons, List.not_mem_nil, or_false] at hk
    rcases hk with rfl | rfl
    · exact h1
    · exact h2

/-! ## One setter -/

theorem made_one {env : Env} {sh : Bool} {m : Mx} {a w : Attrs} {g : Kw} {k : String} {v u : Val}
    (ha : ∀ k ∈ mxAttrs m, Dict.get? a k = Dict.get? w k)
    (hu : mxRead env true sh m (fun x => if x = k then some v else g x) = .ok (Dict.set w k u)) :
    Made env sh m (Dict.get? (Dict.set a k u)) := by
  refine ⟨_, _, hu, fun x hx => ?_⟩
  by_cases hk : x = k
  · rw [hk, get_set_self, get_set_self]
  · rw [get_set_ne hk, get_set_ne hk, ha x hx]

theorem made_single {env : Env} {sh : Bool} {m : Mx} {a : Attrs} {g : Kw} {k : String} {u : Val} (hm : mxAttrs m = [k])
    (hr : mxRead env true sh m g = .ok [(k, u)]) : Made env sh m (Dict.get? (Dict.set a k u)) := by
  refine ⟨g, _, hr, fun x hx => ?_⟩
  rw [hm] at hx
  rw [List.mem_singleton.1 hx, get_set_self, get_single, if_pos rfl]

theorem made_setInventory {env : Env} {sh : Bool} {a : Attrs} (v : Val) (h : Made env sh .Cargo (Dict.get? a)) :
    Made env sh .Cargo (Dict.get? (setAll a (setInventory env v).2)) := by
  obtain ⟨bar, l, h1, h2, h3⟩ := h.cargo
  unfold setInventory
  split
  · exact .of_cargo (bar := .none) (l := []) (get_set_self ..)
      ((get_set_ne (by simp)).trans (get_set_self ..)) rfl
  · split
    · exact .of_cargo (bar := bar) (l := []) ((get_set_ne (by simp)).trans h1) (get_set_self ..) rfl
    · rename_i d _
      obtain ⟨l', e, hl⟩ := cargo_fill (env := env) (k := "inventory_filters")
        (fs := (Dict.getD d "filters" (.list [])).iter)
      show Made env sh .Cargo (Dict.get? (setAll a ([("inventory_filters", .list []),
        ("inventory_bar", Dict.getD d "bar" .none)] ++ (fillSetter "inventory_filters" (cargoStep env) _).2)))
      rw [e]
      exact .of_cargo (bar := Dict.getD d "bar" .none) (l := l')
        ((get_set_ne (by simp)).trans (get_set_self ..)) (get_set_self ..) hl

theorem made_setInfinity {env : Env} {sh : Bool} {a : Attrs} (v : Val) (h : Made env sh .InfinityContainer (Dict.get? a)) :
    Made env sh .InfinityContainer (Dict.get? (setAll a (setInfinity env v).2)) := by
  obtain ⟨b, l, h1, h2, h3⟩ := h.infinity
  unfold setInfinity
  split
  · exact h
  · rename_i r _
    split
    · exact .of_infinity (b := r.truthy) (l := l) (get_set_self ..) ((get_set_ne (by simp)).trans h2) h3
    · rename_i fs _
      obtain ⟨l', e, hl⟩ := infinity_fill (env := env) (k := "infinity_settings_filters") (fs := iterOrNone fs)
      show Made env sh .InfinityContainer (Dict.get? (setAll a ([("infinity_settings_remove_unfiltered_items",
        .bool r.truthy)] ++ (fillSetter "infinity_settings_filters" (infinityStep env) _).2)))
      rw [e]
      exact .of_infinity (b := r.truthy) (l := l') ((get_set_ne (by simp)).trans (get_set_self ..)) (get_set_self ..) hl

/-- Assigning an attribute of mixin `m`. -/
theorem made_assign_own {env : Env} {sh : Bool} {m : Mx} {a : Attrs} {k : String} (v : Val)
    (hm : attrOwner k = some m) (h : Made env sh m (Dict.get? a)) :
    Made env sh m (Dict.get? (setAll a (mxAssign env true sh k v).2)) := by
  have one : ∀ x : Except Exc Val, (∀ u, x = .ok u → Made env sh m (Dict.get? (Dict.set a k u))) →
      Made env sh m (Dict.get? (setAll a (setOne k x).2)) := by
    intro x hx
    unfold setOne
    split
    · exact h
    · exact hx _ rfl
  unfold attrOwner at hm
  split at hm <;> cases hm
  case h_2 => exact made_setInventory v h
  case h_10 => exact made_setInfinity v h
  case h_3 =>
    refine one _ (fun u _ => ?_)
    obtain ⟨bar, l, h1, h2, h3⟩ := h.cargo
    exact .of_cargo (get_set_self ..) ((get_set_ne (by simp)).trans h2) h3
  case h_11 =>
    refine one _ (fun u hu => ?_)
    obtain ⟨b, l, h1, h2, h3⟩ := h.infinity
    cases hu
    exact .of_infinity (get_set_self ..) ((get_set_ne (by simp)).trans h2) h3
  case h_12 =>
    obtain ⟨b, l, h1, h2, h3⟩ := h.infinity
    obtain ⟨l', e, hl⟩ := infinity_fill (env := env) (k := "infinity_settings_filters") (fs := iterOrNone v)
    show Made env sh .InfinityContainer (Dict.get? (setAll a (fillSetter "infinity_settings_filters" (infinityStep env) _).2))
    rw [e]
    exact .of_infinity ((get_set_ne (by simp)).trans h1) (get_set_self ..) hl
  case h_14 =>
    refine one _ (fun u _ => ?_)
    obtain ⟨b, l, h1, h2, h3⟩ := h.requester
    exact .of_requester (get_set_self ..) ((get_set_ne (by simp)).trans h2) h3
  case h_15 =>
    obtain ⟨b, l, h1, h2, h3⟩ := h.requester
    obtain ⟨l', e, hl⟩ := request_fill (env := env) (k := "request_filters") (fs := iterOrNone v)
    show Made env sh .Requester (Dict.get? (setAll a (fillSetter "request_filters" (requestStep env) _).2))
    rw [e]
    exact .of_requester ((get_set_ne (by simp)).trans h1) (get_set_self ..) hl
  case h_1 | h_4 | h_5 | h_13 | h_16 | h_22 | h_24 =>
    refine one _ (fun u hu => ?_)
    refine made_single (g := fun _ => some v) rfl ?_
    simp only [mxRead, Kw.orNone, Option.getD_some, hu, ok_bind, pure_eq_ok] <;> cases hu <;> rfl
  case h_23 =>
    refine one _ (fun u hu => ?_)
    refine made_single (g := fun _ => some v) rfl ?_
    unfold readType at hu
    split at hu
    · split at hu
      · rename_i h0
        cases hu
        exact if_pos h0
      · cases hu
    · cases hu
  case h_9 =>
    refine one _ (fun u hu => ?_)
    obtain ⟨g, w, hr, ha⟩ := h
    unfold mxRead at hr
    dsimp only at hr
    simp only [bind_eq_ok] at hr
    obtain ⟨fs, hfs, hr⟩ := hr
    split at hr
    · cases hr
    · rename_i hsh
      simp only [bind_eq_ok, pure_eq_ok, Except.ok.injEq, ok_bind] at hr
      obtain ⟨l, hl, mode, -, rfl⟩ := hr
      refine made_one (g := g) (v := v) ha ?_
      have e1 : Kw.orNone (fun x => if x = "filter_mode" then some v else g x) "filters" = g.orNone "filters" := rfl
      have e2 : Kw.orNone (fun x => if x = "filter_mode" then some v else g x) "filter_mode" = v := rfl
      simp only [mxRead, e1, e2, hfs, ok_bind, if_neg hsh, hl, hu, pure_eq_ok]
      rfl
  case h_25 =>
    refine one _ (fun u hu => ?_)
    refine made_single (g := fun _ => some v) rfl ?_
    show readItems env v = _
    simp only [bind_eq_ok, pure_eq_ok, Except.ok.injEq] at hu
    obtain ⟨x, hx, rfl⟩ := hu
    rw [hx]
    simp only [readItems, bind_eq_ok, pure_eq_ok, Except.ok.injEq] at hx
    obtain ⟨d, -, d', -, rfl⟩ := hx
    rfl
  case h_26 =>
    refine one _ (fun u hu => ?_)
    obtain ⟨g, w, hr, ha⟩ := h
    unfold mxRead at hr
    dsimp only at hr
    simp only [bind_eq_ok] at hr
    obtain ⟨fs, hfs, hr⟩ := hr
    split at hr
    · cases hr
    · simp only [bind_eq_ok, pure_eq_ok, Except.ok.injEq] at hr
      obtain ⟨l, hl, mode, hmode, rfl⟩ := hr
      unfold readInsFilters at hu
      simp only [bind_eq_ok] at hu
      obtain ⟨fs', hfs', hu⟩ := hu
      split at hu
      · cases hu
      · rename_i hsh
        simp only [bind_eq_ok, pure_eq_ok, Except.ok.injEq] at hu
        obtain ⟨l', hl', rfl⟩ := hu
        refine made_one (g := g) (v := v) ha ?_
        have e1 : Kw.orNone (fun x => if x = "filters" then some v else g x) "filters" = v := rfl
        have e2 : Kw.orNone (fun x => if x = "filters" then some v else g x) "filter_mode" = g.orNone "filter_mode" := rfl
        simp only [mxRead, e1, e2, hfs', ok_bind, if_neg hsh, hl', hmode, pure_eq_ok]
        rfl
  all_goals
    refine one _ (fun u hu => ?_)
    obtain ⟨g, w, hr, ha⟩ := h
    simp only [mxRead, bind_eq_ok, pure_eq_ok, Except.ok.injEq] at hr
    refine made_one (g := g) (v := v) ha ?_
    obtain ⟨x, hx, y, hy, hr⟩ := hr
    simp only [Kw.orNone] at *
    first
      | obtain ⟨z, hz, rfl⟩ := hr
        simp [mxRead, Kw.orNone, hx, hy, hz, hu, Dict.set]
        done
      | subst hr
        simp [mxRead, Kw.orNone, hx, hy, hu, Dict.set]
        done

/-- Assigning a setting. -/
theorem made_assign {env : Env} {sh : Bool} {m m' : Mx} {a : Attrs} {k : String} (v : Val)
    (hm : attrOwner k = some m') (h : Made env sh m (Dict.get? a)) :
    Made env sh m (Dict.get? (setAll a (mxAssign env true sh k v).2)) := by
  by_cases hmm : m = m'
  · subst hmm
    exact made_assign_own v hm h
  · obtain ⟨g, w, h1, h2⟩ := h
    refine ⟨g, w, h1, fun x hx => ?_⟩
    rw [get_setAll_not, h2 x hx]
    unfold Dict.get?
    rw [lookup_none_iff]
    intro hmem
    obtain ⟨p, hp, rfl⟩ := List.mem_map.1 hmem
    exact hmm (mxAttrs_disjoint hx (mxAssign_keys hm p hp))

/-! ## Control behaviours -/

theorem CbMade.assign {env : Env} {ctx : CbCtx} {m : Mx} {a : Attrs} {k : String} {v x : Val}
    (h : CbMade env ctx m (Dict.get? a)) (hx : cbAssign env ctx k v = .ok x) :
    CbMade env ctx m (Dict.get? (Dict.set a k x)) := by
  unfold CbMade at h ⊢
  split
  · rename_i hm
    rw [if_pos hm] at h
    by_cases hc : k = "comparator"
    · subst hc
      unfold Kw.orNone
      rw [get_set_self]
      exact operatorSet_again hx
    · unfold Kw.orNone at h ⊢
      rw [get_set_ne (Ne.symm hc)]
      exact h
  · rename_i hm
    rw [if_neg hm] at h
    intro hf
    obtain ⟨g, w, h1, h2⟩ := h hf
    by_cases hk : k ∈ cbAttrs m
    · rcases hf with rfl | rfl
      · cases List.mem_singleton.1 (show k ∈ ["filters"] from hk)
        change readFilters env ctx v = .ok x at hx
        refine ⟨fun _ => some v, [("filters", x)], ?_, fun y hy => ?_⟩
        · unfold readFilters at hx
          simp only [bind_eq_ok] at hx
          obtain ⟨fs, hfs, hx⟩ := hx
          split at hx
          · cases hx
          · rename_i hsh
            simp only [bind_eq_ok, pure_eq_ok, Except.ok.injEq] at hx
            obtain ⟨l, hl, rfl⟩ := hx
            simp only [cbRead, Option.getD_some, hfs, ok_bind, if_neg hsh, hl, pure_eq_ok]
        · cases List.mem_singleton.1 (show y ∈ ["filters"] from hy)
          rw [get_set_self]
          rfl
      · cases List.mem_singleton.1 (show k ∈ ["circuit_parameters"] from hk)
        change readCircuitParameters v = .ok x at hx
        refine ⟨fun _ => some v, [("circuit_parameters", x)], ?_, fun y hy => ?_⟩
        · simp only [cbRead, Option.getD_some, hx, ok_bind, pure_eq_ok]
        · cases List.mem_singleton.1 (show y ∈ ["circuit_parameters"] from hy)
          rw [get_set_self]
          rfl
    · refine ⟨g, w, h1, fun y hy => ?_⟩
      rw [get_set_ne, h2 y hy]
      rintro rfl
      exact hk hy

theorem cbAssign_operator {env : Env} {ctx : CbCtx} {os : List String} {v x : Val} (hos : ctx.options = some os)
    (h : cbAssign env ctx "operator" v = .ok x) : operatorSet os x = .ok x := by
  have : cbAssign env ctx "operator" v = (match ctx.options with
    | some os => operatorSet os v
    | none => .ok v) := rfl
  rw [this, hos] at h
  exact operatorSet_again h

theorem CbShape.setAttr {env : Env} {c : Cb} {k : String} {v : Val} (h : CbShape env c.ctx c.chain c.attrs) :
    CbShape env (c.setAttr env k v).2.ctx (c.setAttr env k v).2.chain (c.setAttr env k v).2.attrs := by
  unfold Cb.setAttr
  split
  case isFalse => exact h
  rename_i hk
  simp only [List.any_eq_true, List.contains_iff_mem] at hk
  obtain ⟨m, hm, hkm⟩ := hk
  split
  · exact h
  · rename_i x hx
    refine ⟨fun hp m hm => (h.1 hp m hm).assign hx, ?_, ?_⟩
    · intro hc os hos
      obtain ⟨op, f, s, o, ha, hop⟩ := h.2.1 hc os hos
      rw [hc] at hm
      have hk' : k ∈ ["operator", "first", "second", "output"] := by
        simp only [List.mem_cons, List.not_mem_nil, or_false] at hm
        rcases hm with rfl | rfl
        · exact absurd hkm List.not_mem_nil
        · exact hkm
      dsimp only
      rw [ha]
      simp only [List.mem_cons, List.not_mem_nil, or_false] at hk'
      rcases hk' with rfl | rfl | rfl | rfl
      · exact ⟨x, f, s, o, rfl, cbAssign_operator hos hx⟩
      · exact ⟨op, x, s, o, rfl, hop⟩
      · exact ⟨op, f, x, o, rfl, hop⟩
      · exact ⟨op, f, s, x, rfl, hop⟩
    · intro hc os hos
      obtain ⟨cc, op, f, s, o, ha, hop⟩ := h.2.2 hc os hos
      rw [hc] at hm
      have hk' : k ∈ ["copy_count_from_input", "operator", "first", "second", "output"] := by
        simp only [List.mem_cons, List.not_mem_nil, or_false] at hm
        rcases hm with rfl | rfl
        · rw [List.mem_singleton.1 (show k ∈ ["copy_count_from_input"] from hkm)]; decide
        · exact List.mem_cons_of_mem _ hkm
      dsimp only
      rw [ha]
      simp only [List.mem_cons, List.not_mem_nil, or_false] at hk'
      rcases hk' with rfl | rfl | rfl | rfl | rfl
      · exact ⟨x, op, f, s, o, rfl, hop⟩
      · exact ⟨cc, x, f, s, o, rfl, cbAssign_operator hos hx⟩
      · exact ⟨cc, op, x, s, o, rfl, hop⟩
      · exact ⟨cc, op, f, x, o, rfl, hop⟩
      · exact ⟨cc, op, f, s, x, rfl, hop⟩

theorem Cb.setAttr_frame (env : Env) (c : Cb) (k : String) (v : Val) :
    (c.setAttr env k v).2.chain = c.chain ∧ (c.setAttr env k v).2.ctx = c.ctx := by
  unfold Cb.setAttr
  repeat' split
  all_goals exact ⟨rfl, rfl⟩

theorem Cb.new_shape {env : Env} {lo : Exc} {k : Klass} {v : Val} {c : Cb} (h : Cb.new env lo k v = .ok c) :
    c.chain = k.cbChain ∧ c.ctx = k.ctx ∧ CbShape env c.ctx c.chain c.attrs := by
  unfold Cb.new at h
  simp only [bind_eq_ok, pure_eq_ok, Except.ok.injEq] at h
  obtain ⟨d, -, h⟩ := h
  split at h
  · cases h
  · simp only [bind_eq_ok, pure_eq_ok, Except.ok.injEq] at h
    obtain ⟨a', ha', rfl⟩ := h
    exact ⟨rfl, rfl, .of_init ha'⟩

end Verif
