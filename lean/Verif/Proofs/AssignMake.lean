import Verif.Proofs.EntTrip
import Verif.Proofs.Make
/-!
# Helper lemmas: assigning a setting is like constructing with it
-/
set_option autoImplicit false

namespace Verif

/-! ## Dictionaries -/

theorem put_put (d : Dict) (k : String) (v v' : Val) : Dict.set (Dict.set d k v) k v' = Dict.set d k v' := by
  induction d with
  | nil => show (if k = k then [(k, v')] else _) = _; rw [if_pos rfl]; rfl
  | cons p d ih =>
    obtain ⟨l, x⟩ := p
    by_cases hl : l = k
    · simp only [Dict.set, if_pos hl]
    · simp only [Dict.set, if_neg hl, ih]

theorem put_comm {d : Dict} {k k' : String} {v v' : Val} (hne : k ≠ k') (hk : k ∈ d.map (·.1)) :
    Dict.set (Dict.set d k v) k' v' = Dict.set (Dict.set d k' v') k v := by
  induction d with
  | nil => cases hk
  | cons p d ih =>
    obtain ⟨l, x⟩ := p
    by_cases hl : l = k
    · subst hl
      simp only [Dict.set, if_true, if_neg hne]
    · have hk' : k ∈ d.map (·.1) := by
        rcases List.mem_cons.1 hk with h | h
        · exact absurd h.symm hl
        · exact h
      by_cases hl' : l = k'
      · subst hl'
        simp only [Dict.set, if_neg hl, if_true]
      · simp only [Dict.set, if_neg hl, if_neg hl', ih hk']

theorem keys_put {d : Dict} {k k' : String} {v : Val} (h : k ∈ d.map (·.1)) : k ∈ (Dict.set d k' v).map (·.1) := by
  rw [mem_keys_iff] at *
  rw [lookup_set]
  split
  · exact fun h => by cases h
  · exact h

theorem keys_setAll {d w : Dict} {k : String} (h : k ∈ d.map (·.1)) : k ∈ (setAll d w).map (·.1) := by
  induction w generalizing d with
  | nil => exact h
  | cons p w ih => exact ih (keys_put h)

/-- Overwriting an existing entry before or after writing others. -/
theorem setAll_put {d w : Dict} {k : String} {v : Val} (hk : k ∈ d.map (·.1)) (hw : k ∉ w.map (·.1)) :
    setAll (Dict.set d k v) w = Dict.set (setAll d w) k v := by
  induction w generalizing d with
  | nil => rfl
  | cons p w ih =>
    have h1 : k ≠ p.1 := fun h => hw (by rw [h]; exact List.mem_cons_self ..)
    have h2 : k ∉ w.map (·.1) := fun h => hw (List.mem_cons_of_mem _ h)
    show setAll (Dict.set (Dict.set d k v) p.1 p.2) w = _
    rw [put_comm h1 hk, ih (keys_put hk) h2]
    rfl

theorem setAll_setAll_comm {d w s : Dict} (hs : ∀ p ∈ s, p.1 ∈ d.map (·.1)) (hw : ∀ p ∈ s, p.1 ∉ w.map (·.1)) :
    setAll (setAll d s) w = setAll (setAll d w) s := by
  induction s generalizing d with
  | nil => rfl
  | cons p s ih =>
    show setAll (setAll (Dict.set d p.1 p.2) s) w = setAll (Dict.set (setAll d w) p.1 p.2) s
    rw [ih (fun q hq => keys_put (hs q (List.mem_cons_of_mem _ hq))) (fun q hq => hw q (List.mem_cons_of_mem _ hq)),
      setAll_put (hs p (List.mem_cons_self ..)) (hw p (List.mem_cons_self ..))]

/-- Overwriting an entry of what is written. -/
theorem setAll_put_right {d w : Dict} {k : String} {v : Val} (hn : (w.map (·.1)).Nodup) (hk : k ∈ w.map (·.1)) :
    setAll d (Dict.set w k v) = Dict.set (setAll d w) k v := by
  induction w generalizing d with
  | nil => cases hk
  | cons p w ih =>
    obtain ⟨l, x⟩ := p
    have hn' := List.nodup_cons.1 hn
    by_cases hl : l = k
    · subst hl
      have e : Dict.set ((l, x) :: w) l v = (l, v) :: w := by simp only [Dict.set, if_true]
      rw [e]
      show setAll (Dict.set d l v) w = Dict.set (setAll (Dict.set d l x) w) l v
      rw [← setAll_put (by rw [mem_keys_iff, lookup_set, if_pos rfl]; exact fun h => by cases h) hn'.1, put_put]
    · have hk' : k ∈ w.map (·.1) := by
        rcases List.mem_cons.1 hk with h | h
        · exact absurd h.symm hl
        · exact h
      have e : Dict.set ((l, x) :: w) k v = (l, x) :: Dict.set w k v := by simp only [Dict.set, if_neg hl]
      rw [e]
      exact ih hn'.2 hk'

theorem keys_put_eq {d : Dict} {k : String} {v : Val} (h : k ∈ d.map (·.1)) :
    (Dict.set d k v).map (·.1) = d.map (·.1) := by
  induction d with
  | nil => cases h
  | cons p d ih =>
    obtain ⟨l, x⟩ := p
    by_cases hl : l = k
    · subst hl
      simp only [Dict.set, if_true, List.map_cons]
    · have hk' : k ∈ d.map (·.1) := by
        rcases List.mem_cons.1 h with h | h
        · exact absurd h.symm hl
        · exact h
      simp only [Dict.set, if_neg hl, List.map_cons, ih hk']

theorem setAll_setAll_right {d w s : Dict} (hn : (w.map (·.1)).Nodup) (hs : ∀ p ∈ s, p.1 ∈ w.map (·.1)) :
    setAll d (setAll w s) = setAll (setAll d w) s := by
  induction s generalizing d w with
  | nil => rfl
  | cons p s ih =>
    have h0 := hs p (List.mem_cons_self ..)
    show setAll d (setAll (Dict.set w p.1 p.2) s) = setAll (Dict.set (setAll d w) p.1 p.2) s
    rw [ih (by rw [keys_put_eq h0]; exact hn)
      (fun q hq => by rw [keys_put_eq h0]; exact hs q (List.mem_cons_of_mem _ hq)), setAll_put_right hn h0]

theorem eraseKeys_put {d : Dict} {ks : List String} {k : String} {v : Val} (h : k ∈ ks) :
    eraseKeys (Dict.set d k v) ks = eraseKeys d ks := by
  unfold eraseKeys
  induction d with
  | nil => simp [Dict.set, h]
  | cons p d ih =>
    obtain ⟨l, x⟩ := p
    unfold Dict.set
    by_cases hl : l = k
    · subst hl
      simp [h]
    · rw [if_neg hl, List.filter_cons, List.filter_cons, ih]

theorem eraseKeys_put_not {d : Dict} {ks : List String} {k : String} {v : Val} (h : k ∉ ks) :
    eraseKeys (Dict.set d k v) ks = Dict.set (eraseKeys d ks) k v := by
  unfold eraseKeys
  induction d with
  | nil => simp [Dict.set, h]
  | cons p d ih =>
    obtain ⟨l, x⟩ := p
    by_cases hl : l = k
    · subst hl
      simp [h, Dict.set]
    · simp only [Dict.set, if_neg hl, List.filter_cons, ih]
      split
      · simp only [Dict.set, if_neg hl]
      · rfl

/-! ## One mixin -/

/-- The loop of the setter and the one of the constructor. -/
theorem fill_fold (step : Val → Except Exc (Val × Dict)) (fs : List Val) (acc : List (Val × Dict)) :
    fs.foldlM (fun acc f => do let p ← step f; return setIdx acc p.1 p.2) acc =
      match (fill step fs acc).1 with
      | .error e => .error e
      | .ok _ => .ok (fill step fs acc).2 := by
  induction fs generalizing acc with
  | nil => rfl
  | cons f fs ih =>
    rw [List.foldlM_cons]
    unfold fill
    cases hs : step f with
    | error e => rfl
    | ok p => exact ih _

/-- The outcome of a setter on attributes `w`. -/
def Setter.on (s : Setter) (w : Attrs) : Except Exc Attrs :=
  match s.1 with
  | .error e => .error e
  | .ok _ => .ok (setAll w s.2)

theorem setOne_on (k : String) (x : Except Exc Val) (w : Attrs) : (setOne k x).on w = (do return Dict.set w k (← x)) := by
  cases x <;> rfl

theorem setInventory_on (env : Env) (v bar fl : Val) :
    (setInventory env v).on [("inventory_bar", bar), ("inventory_filters", fl)] = readCargo env v := by
  by_cases hv : v = .none
  · subst hv; rfl
  · rw [readCargo_eq hv]
    have e : setInventory env v = (match v.asDict with
      | .error e => (.error e, [("inventory_filters", .list [])])
      | .ok d =>
        Setter.andThen (.ok (), [("inventory_filters", .list []), ("inventory_bar", Dict.getD d "bar" .none)])
          (fillSetter "inventory_filters" (cargoStep env) (Dict.getD d "filters" (.list [])).iter)) := by
      cases v <;> first | rfl | exact absurd rfl hv
    rw [e]
    cases v.asDict with
    | error x => rfl
    | ok d =>
      dsimp only
      rw [ok_bind]
      unfold fillSetter
      cases (Dict.getD d "filters" (.list [])).iter with
      | error x => rfl
      | ok fs =>
        rw [ok_bind, fill_fold]
        unfold Setter.andThen Setter.on
        dsimp only
        cases (fill (cargoStep env) fs []).1 <;> rfl

theorem setInfinity_on (env : Env) (v r fl : Val) :
    (setInfinity env v).on [("infinity_settings_remove_unfiltered_items", r), ("infinity_settings_filters", fl)] =
      readInfinity env v := by
  rw [readInfinity_eq]
  unfold setInfinity
  cases v.subscript "remove_unfiltered_items" with
  | error x => rfl
  | ok r =>
    dsimp only
    rw [ok_bind]
    cases v.subscript "filters" with
    | error x => rfl
    | ok fv =>
      dsimp only
      rw [ok_bind]
      unfold setInfinityFilters fillSetter
      cases iterOrNone fv with
      | error x => rfl
      | ok fs =>
        rw [ok_bind, fill_fold]
        unfold Setter.andThen Setter.on
        dsimp only
        cases (fill (infinityStep env) fs []).1 <;> rfl

theorem setRequest_on (env : Env) (v b fl : Val) :
    (setRequestFilters env v).on [("request_from_buffers", b), ("request_filters", fl)] =
      (do return [("request_from_buffers", b), ("request_filters", ← readRequestFilters env v)]) := by
  rw [readRequestFilters_eq]
  unfold setRequestFilters fillSetter
  cases iterOrNone v with
  | error x => rfl
  | ok fs =>
    rw [ok_bind, fill_fold]
    unfold Setter.on
    dsimp only
    cases (fill (requestStep env) fs []).1 <;> rfl

/-- The constructor of a mixin with one more setting. -/
theorem mxRead_put {env : Env} {strict sh : Bool} {m : Mx} {g : Kw} {w : Attrs} {k : String} {v : Val}
    (hm : attrOwner k = some m) (hk : k ∈ mxKeys m) (h : mxRead env strict sh m g = .ok w) :
    mxRead env strict sh m (fun x => if x = k then some v else g x) = (mxAssign env strict sh k v).on w := by
  unfold attrOwner at hm
  split at hm <;> cases hm
  case h_3 | h_11 | h_12 => exact absurd hk (by decide)
  case h_2 =>
    have hw : ∃ bar fl, w = [("inventory_bar", bar), ("inventory_filters", fl)] := by
      change readCargo env _ = _ at h
      by_cases hv : g.orNone "inventory" = .none
      · rw [hv] at h
        cases h
        exact ⟨_, _, rfl⟩
      · rw [readCargo_eq hv] at h
        simp only [bind_eq_ok, pure_eq_ok, Except.ok.injEq] at h
        obtain ⟨d, -, fs, -, l, hl, rfl⟩ := h
        exact ⟨_, _, rfl⟩
    obtain ⟨bar, fl, rfl⟩ := hw
    exact (setInventory_on ..).symm
  case h_10 =>
    change readInfinity env _ = _ at h
    rw [readInfinity_eq] at h
    simp only [bind_eq_ok, pure_eq_ok, Except.ok.injEq] at h
    obtain ⟨r, -, fv, -, fs, -, l, hl, rfl⟩ := h
    exact (setInfinity_on ..).symm
  case h_15 =>
    simp only [mxRead, bind_eq_ok, pure_eq_ok, Except.ok.injEq] at h
    obtain ⟨li, -, rfl⟩ := h
    exact (setRequest_on ..).symm
  case h_23 =>
    simp only [mxAssign, setOne_on]
    have hw : ∃ t, w = [("type", t)] := by
      unfold mxRead at h
      dsimp only at h
      repeat' split at h
      all_goals first | cases h; done | (cases h; exact ⟨_, rfl⟩)
    obtain ⟨t, rfl⟩ := hw
    unfold readType
    cases v <;> first | rfl | skip
    rename_i s
    show (if s == "input" || s == "output" then .ok [("type", .str s)] else .error .valueError : Except Exc Attrs) = _
    dsimp only
    split <;> rfl
  case h_9 =>
    unfold mxRead at h
    dsimp only at h
    simp only [bind_eq_ok] at h
    obtain ⟨fs, hfs, h⟩ := h
    split at h
    · cases h
    · rename_i hsh
      simp only [bind_eq_ok, pure_eq_ok, Except.ok.injEq, ok_bind] at h
      obtain ⟨l, hl, mode, -, rfl⟩ := h
      have e1 : Kw.orNone (fun x => if x = "filter_mode" then some v else g x) "filters" = g.orNone "filters" := rfl
      have e2 : Kw.orNone (fun x => if x = "filter_mode" then some v else g x) "filter_mode" = v := rfl
      simp only [mxAssign, setOne_on]
      simp only [mxRead, e1, e2, hfs, ok_bind, if_neg hsh, hl, pure_eq_ok]
      rfl
  case h_25 =>
    change readItems env _ = _ at h
    simp only [readItems, bind_eq_ok, pure_eq_ok, Except.ok.injEq] at h
    obtain ⟨d, -, d', -, rfl⟩ := h
    show readItems env v = _
    simp only [mxAssign, setItems, setOne_on]
    cases hx : readItems env v with
    | error x => rfl
    | ok x =>
      simp only [readItems, bind_eq_ok, pure_eq_ok, Except.ok.injEq] at hx
      obtain ⟨e, -, e', -, rfl⟩ := hx
      rfl
  case h_26 =>
    unfold mxRead at h
    dsimp only at h
    simp only [bind_eq_ok] at h
    obtain ⟨fs, hfs, h⟩ := h
    split at h
    · cases h
    · simp only [bind_eq_ok, pure_eq_ok, Except.ok.injEq] at h
      obtain ⟨l, hl, mode, hmode, rfl⟩ := h
      have e1 : Kw.orNone (fun x => if x = "filters" then some v else g x) "filters" = v := rfl
      have e2 : Kw.orNone (fun x => if x = "filters" then some v else g x) "filter_mode" = g.orNone "filter_mode" := rfl
      simp only [mxAssign, setOne_on, readInsFilters]
      simp only [mxRead, e1, e2, hmode, pure_eq_ok]
      cases iterOrNone v with
      | error x => rfl
      | ok fs =>
        simp only [ok_bind]
        split
        · rfl
        · cases List.mapM (readInsFilter env) fs <;> rfl
  all_goals
    simp only [mxAssign, setOne_on]
    simp only [mxRead, bind_eq_ok, pure_eq_ok, Except.ok.injEq] at h
    simp only [Kw.orNone] at *
  case h_1 | h_4 | h_5 | h_13 | h_16 | h_24 =>
    obtain ⟨x, -, rfl⟩ := h
    simp [mxRead, Kw.orNone, Dict.set]
  case h_22 =>
    subst h
    rfl
  case h_14 =>
    obtain ⟨x, hx, rfl⟩ := h
    simp [mxRead, Kw.orNone, Dict.set, hx]
  all_goals
    obtain ⟨x, hx, y, hy, h⟩ := h
    first
      | obtain ⟨z, hz, rfl⟩ := h
        simp [mxRead, Kw.orNone, hx, hy, hz, Dict.set]
        done
      | subst h
        simp [mxRead, Kw.orNone, hx, hy, Dict.set]
        done

/-- The constructor of a mixin sets all its attributes. -/
theorem mxRead_full {env : Env} {strict sh : Bool} {m : Mx} {g : Kw} {w : Attrs}
    (h : mxRead env strict sh m g = .ok w) : ∀ k ∈ mxAttrs m, k ∈ w.map (·.1) := by
  intro k hk
  cases m <;> simp only [mxRead, bind_eq_ok, pure_eq_ok, Except.ok.injEq] at h
  all_goals first
    | (subst h; simpa [mxAttrs, mxKeys] using hk; done)
    | (obtain ⟨_, -, rfl⟩ := h; simpa [mxAttrs, mxKeys] using hk; done)
    | (obtain ⟨_, -, _, -, rfl⟩ := h; simpa [mxAttrs, mxKeys] using hk; done)
    | skip
  case Items =>
    simp only [readItems, bind_eq_ok, pure_eq_ok, Except.ok.injEq] at h
    obtain ⟨d, -, d', -, rfl⟩ := h
    simpa [mxAttrs, mxKeys] using hk
  case Cargo =>
    unfold readCargo at h
    split at h
    · cases h
      simpa [mxAttrs, mxKeys] using hk
    · simp only [bind_eq_ok, pure_eq_ok, Except.ok.injEq] at h
      obtain ⟨_, -, _, -, _, -, rfl⟩ := h
      simpa [mxAttrs, mxKeys] using hk
  case Inserter =>
    obtain ⟨_, -, _, -, _, -, rfl⟩ := h
    simp [mxAttrs, mxKeys] at hk ⊢
    rcases hk with rfl | rfl | rfl <;> simp
  case FilterInserter =>
    obtain ⟨fs, -, h⟩ := h
    split at h
    · simp at h
    · simp only [bind_eq_ok, Except.ok.injEq] at h
      obtain ⟨_, -, _, -, rfl⟩ := h
      simpa [mxAttrs, mxKeys] using hk
  case InfinityContainer =>
    simp only [readInfinity, bind_eq_ok, pure_eq_ok, Except.ok.injEq] at h
    obtain ⟨_, -, _, -, _, -, _, -, rfl⟩ := h
    simpa [mxAttrs, mxKeys] using hk
  case Splitter =>
    obtain ⟨_, -, _, -, _, -, rfl⟩ := h
    simp [mxAttrs, mxKeys] at hk ⊢
    rcases hk with rfl | rfl | rfl <;> simp
  case Underground =>
    split at h
    · cases h
    · split at h
      · cases h; simpa [mxAttrs, mxKeys] using hk
      · cases h
    · cases h

/-! ## The chain -/

section
variable {env : Env} {strict sh : Bool} {lo : Exc}

/-- Attributes that the rest of the chain does not touch may be overwritten before or after it. -/
theorem initChain_put_attrs {ms : List Mx} {args : Bool} {kw : Dict} {a a' s : Attrs}
    (h : initChain env strict sh lo ms args kw a = .ok a') (hs : ∀ p ∈ s, p.1 ∈ a.map (·.1))
    (hms : ∀ m ∈ ms, ∀ p ∈ s, p.1 ∉ mxAttrs m) :
    initChain env strict sh lo ms args kw (setAll a s) = .ok (setAll a' s) := by
  induction ms generalizing args kw a with
  | nil =>
    unfold initChain at h ⊢
    split at h
    · cases h
    · rename_i hn
      cases h
      rw [if_neg hn]
  | cons m ms ih =>
    unfold initChain at h ⊢
    split at h
    · cases h
    · rename_i w hw
      have hc : setAll (setAll a s) w = setAll (setAll a w) s :=
        setAll_setAll_comm hs (fun p hp hpw => by
          obtain ⟨q, hq, hqe⟩ := List.mem_map.1 hpw
          exact hms m (List.mem_cons_self ..) p hp (by rw [← hqe]; exact mxRead_keys hw q hq))
      have hs' : ∀ p ∈ s, p.1 ∈ (setAll a w).map (·.1) := fun p hp => keys_setAll (hs p hp)
      have hms' : ∀ n ∈ ms, ∀ p ∈ s, p.1 ∉ mxAttrs n := fun n hn => hms n (List.mem_cons_of_mem _ hn)
      dsimp only at h ⊢
      rw [hc]
      split at h
      · rename_i hm
        rw [if_pos hm]
        exact ih h hs' hms'
      · rename_i hm
        rw [if_neg hm]
        exact ih h hs' hms'

theorem get_put (d : Dict) (k : String) (v : Val) :
    Dict.get? (Dict.set d k v) = fun x => if x = k then some v else Dict.get? d x := by
  funext x
  unfold Dict.get?
  rw [lookup_set]

/-- The chain of constructors with one more setting. -/
theorem initChain_put {ms : List Mx} {args : Bool} {kw : Dict} {a a' : Attrs} {k : String} {v : Val} {m₀ : Mx}
    (hm₀ : m₀ ∈ ms) (ho : attrOwner k = some m₀) (hk : k ∈ mxKeys m₀) (hn : ms.Nodup)
    (hI : ¬ [Mx.Items, m₀].Sublist ms)
    (h : initChain env strict sh lo ms args kw a = .ok a') :
    initChain env strict sh lo ms args (Dict.set kw k v) a = (mxAssign env strict sh k v).on a' := by
  induction ms generalizing args kw a with
  | nil => cases hm₀
  | cons m ms ih =>
    have hn' := List.nodup_cons.1 hn
    by_cases hm : m = m₀
    · subst hm
      unfold initChain at h ⊢
      split at h
      · cases h
      · rename_i w hw
        dsimp only at h
        rw [get_put, mxRead_put ho hk hw]
        unfold Setter.on
        cases (mxAssign env strict sh k v).1 with
        | error x => rfl
        | ok u =>
          dsimp only
          rw [eraseKeys_put hk]
          have hkeys : ∀ p ∈ (mxAssign env strict sh k v).2, p.1 ∈ w.map (·.1) := fun p hp =>
            mxRead_full hw _ (mxAssign_keys ho p hp)
          rw [setAll_setAll_right (mxRead_nodup hw) hkeys]
          have h1 : ∀ p ∈ (mxAssign env strict sh k v).2, p.1 ∈ (setAll a w).map (·.1) := by
            intro p hp
            have hl := mem_keys_iff.1 (hkeys p hp)
            rw [mem_keys_iff, lookup_setAll (mxRead_nodup hw)]
            split
            · exact fun h => by cases h
            · rename_i h
              exact absurd h hl
          have h2 : ∀ n ∈ ms, ∀ p ∈ (mxAssign env strict sh k v).2, p.1 ∉ mxAttrs n := by
            intro n hn₀ p hp hpn
            have := mxAttrs_disjoint hpn (mxAssign_keys ho p hp)
            subst this
            exact hn'.1 hn₀
          split at h
          · rename_i hmi
            rw [if_pos hmi]
            exact initChain_put_attrs h h1 h2
          · rename_i hmi
            rw [if_neg hmi]
            exact initChain_put_attrs h h1 h2
    · have hkm : k ∉ mxKeys m := fun h => hm (mxKeys_disjoint h hk)
      have hm' : m₀ ∈ ms := by
        rcases List.mem_cons.1 hm₀ with h | h
        · exact absurd h.symm hm
        · exact h
      have hmi : m ≠ .Items := by
        intro e
        subst e
        exact hI ((List.singleton_sublist.2 hm').cons_cons _)
      have hr : mxRead env strict sh m (Dict.get? (Dict.set kw k v)) = mxRead env strict sh m (Dict.get? kw) :=
        mxRead_congr (fun k' hk' => get_set_ne (by rintro rfl; exact hkm hk'))
      unfold initChain at h ⊢
      rw [hr]
      split at h
      · cases h
      · rename_i w hw
        dsimp only at h ⊢
        rw [if_neg hmi] at h ⊢
        rw [eraseKeys_put_not hkm]
        exact ih hm' hn'.2 (fun hs => hI (hs.cons _)) h

end

/-! ## Entities -/

theorem mem_put_ne {d : Dict} {k k' : String} {v : Val} (h : k' ≠ k) : Dict.mem (Dict.set d k v) k' = Dict.mem d k' := by
  unfold Dict.mem
  rw [get_set_ne h]

theorem getD_put_ne {d : Dict} {k k' : String} {v x : Val} (h : k' ≠ k) :
    Dict.getD (Dict.set d k v) k' x = Dict.getD d k' x := by
  unfold Dict.getD
  rw [get_set_ne h]

/-- The keywords every class of entities has. -/
def commonKeys : List String :=
  ["self", "blueprint_layer", "name", "position", "strict", "direction", "entity_number", "connections"]

theorem Entity.new_of {env : Env} {custom : Option Custom} {layer : Option BpId} {kw : Dict} {name position : Val}
    {number : Option Int} {e : Entity}
    (h1 : Dict.mem kw "self" = false) (h2 : Dict.mem kw "blueprint_layer" = false)
    (h3 : Dict.get? kw "name" = some name) (h4 : Dict.get? kw "position" = some position)
    (h5 : numberOf (Dict.getD kw "entity_number" .none) = .ok number)
    (h6 : setName env custom (raw0 layer kw number) name = (.ok (), e)) :
    Entity.new env custom layer kw = finish env e position kw := by
  unfold Entity.new
  rw [h1, h2, h3, h4, h5]
  unfold raw0 at h6
  simp [h6]

/-- Constructing with another keyword that the whole class does not have in common. -/
theorem Entity.new_put {env : Env} {custom : Option Custom} {layer : Option BpId} {kw : Dict} {e : Entity}
    {k : String} {v : Val} (hk : k ∉ commonKeys) (h : Entity.new env custom layer kw = .ok e) :
    ∃ e' position, Entity.new env custom layer (Dict.set kw k v) = finish env e' position (Dict.set kw k v) ∧
      finish env e' position kw = .ok e := by
  obtain ⟨h1, h2, name, position, number, e', h3, h4, h5, h6, h7⟩ := Entity.new_ok.1 h
  simp only [commonKeys, List.mem_cons, List.not_mem_nil, or_false, not_or] at hk
  obtain ⟨k1, k2, k3, k4, k5, k6, k7, k8⟩ := hk
  refine ⟨e', position, ?_, h7⟩
  refine Entity.new_of (name := name) (number := number) ?_ ?_ ?_ ?_ ?_ ?_
  · rw [mem_put_ne (Ne.symm k1), h1]
  · rw [mem_put_ne (Ne.symm k2), h2]
  · rw [get_set_ne (Ne.symm k3), h3]
  · rw [get_set_ne (Ne.symm k4), h4]
  · rw [getD_put_ne (Ne.symm k7), h5]
  · unfold raw0 at h6 ⊢
    rw [getD_put_ne (Ne.symm k5), h6]

theorem attrOwner_common {k : String} {m : Mx} (h : attrOwner k = some m) :
    k ∉ Entity.ownKeys ++ ["connections", "control_behavior"] ∧ k ∉ commonKeys := by
  unfold attrOwner at h
  split at h <;> cases h <;> decide

/-- The constructor with one more setting, against assigning the setting. -/
theorem Entity.new_assign {env : Env} {custom : Option Custom} {layer : Option BpId} {kw : Dict} {e : Entity}
    {k : String} {v : Val} {m : Mx} (h : Entity.new env custom layer kw = .ok e) (ho : attrOwner k = some m)
    (hk : k ∈ mxKeys m) (hm : m ∈ e.klass.chain) (hn : e.klass.chain.Nodup)
    (hI : ¬ [Mx.Items, m].Sublist e.klass.chain) :
    Entity.new env custom layer (Dict.set kw k v) =
      match (e.setAttr env k v).1 with
      | .error x => .error x
      | .ok _ => .ok (e.setAttr env k v).2 := by
  obtain ⟨hk1, hk2⟩ := attrOwner_common ho
  obtain ⟨e', position, h1, h2⟩ := Entity.new_put (v := v) hk2 h
  rw [h1]
  obtain ⟨pos, dir, cb, a, h6, h7, h8, h9, rfl⟩ := Entity.finish_ok.1 h2
  have hdir : Dict.getD (Dict.set kw k v) "direction" (.int 0) = Dict.getD kw "direction" (.int 0) :=
    getD_put_ne (by rintro rfl; exact hk2 (by decide))
  have hcon : Dict.getD (Dict.set kw k v) "connections" .none = Dict.getD kw "connections" .none :=
    getD_put_ne (by rintro rfl; exact hk2 (by decide))
  have hcb : cbOf env e' (Dict.set kw k v) = cbOf env e' kw := by
    unfold cbOf
    rw [get_set_ne (by rintro rfl; exact hk1 (by decide))]
  have hch := initChain_put (v := v) hm ho hk hn hI h9
  have hhas : e'.klass.has m = true := by
    unfold Klass.has
    simpa using Klass.mem_chain.1 hm
  unfold Entity.finish
  rw [h6, hdir, h7, hcb, h8, eraseKeys_put_not hk1, hcon]
  simp only [ok_bind]
  rw [hch]
  unfold Entity.setAttr Setter.on
  simp only [ho, hhas, if_true]
  cases (mxAssign env e'.strict e'.klass.insFiltersShadowed k v).1 <;> rfl

/-- The constructor with a control behaviour, against assigning it. -/
theorem Entity.new_control {env : Env} {custom : Option Custom} {layer : Option BpId} {kw : Dict} {e : Entity}
    {v : Val} (h : Entity.new env custom layer kw = .ok e) :
    Entity.new env custom layer (Dict.set kw "control_behavior" v) =
      match (e.newControl env v).1 with
      | .error x => .error x
      | .ok _ => .ok (e.newControl env v).2 := by
  obtain ⟨e', position, h1, h2⟩ := Entity.new_put (v := v) (k := "control_behavior") (by decide) h
  rw [h1]
  obtain ⟨pos, dir, cb, a, h6, h7, h8, h9, rfl⟩ := Entity.finish_ok.1 h2
  have hdir : Dict.getD (Dict.set kw "control_behavior" v) "direction" (.int 0) = Dict.getD kw "direction" (.int 0) :=
    getD_put_ne (by decide)
  have hcon : Dict.getD (Dict.set kw "control_behavior" v) "connections" .none = Dict.getD kw "connections" .none :=
    getD_put_ne (by decide)
  have hcb : cbOf env e' (Dict.set kw "control_behavior" v) =
      (do return some (← Cb.new env (leftoverExc env e'.name) e'.klass v)) := by
    unfold cbOf
    rw [get_set_self]
  unfold Entity.finish
  rw [h6, hdir, h7, hcb, eraseKeys_put (by decide), hcon]
  unfold Entity.newControl
  simp only [ok_bind]
  cases Cb.new env (leftoverExc env e'.name) e'.klass v with
  | error x => rfl
  | ok c =>
    simp only [ok_bind, pure_eq_ok]
    rw [h9]
    rfl

/-! ## The layer -/

/-- An update of an entity that leaves alone what the layer looks at. -/
structure Mild (g : Entity → Entity) : Prop where
  pos : ∀ e, (g e).pos = e.pos
  layer : ∀ e, (g e).layer = e.layer
  setAuto : ∀ e n, g { e with auto := n } = { g e with auto := n }
  setLayer : ∀ e l, g { e with layer := l } = { g e with layer := l }

/-- The update of one object. -/
def World.upd (w : World) (r : Ref) (g : Entity → Entity) : World := w.setEnt r (g (w.heap r))

theorem upd_heap (w : World) (r : Ref) (g : Entity → Entity) (s : Ref) :
    (w.upd r g).heap s = if s = r then g (w.heap s) else w.heap s := by
  unfold World.upd
  rw [setEnt_heap]
  split
  · rename_i h; rw [h]
  · rfl

theorem reindex_upd {g : Entity → Entity} (hg : Mild g) (r : Ref) (l : List Ref) (i : Nat) (h : Ref → Entity) :
    reindexFrom (fun s => if s = r then g (h s) else h s) i l =
      fun s => if s = r then g (reindexFrom h i l s) else reindexFrom h i l s := by
  induction l generalizing h i with
  | nil => rfl
  | cons t l ih =>
    unfold reindexFrom
    rw [← ih]
    congr 1
    funext s
    by_cases hs : s = t
    · subst hs
      simp only [if_true]
      by_cases hr : s = r
      · simp only [hr, if_true]
        exact (hg.setAuto ..).symm
      · simp only [hr, if_false]
    · simp only [hs, if_false]

theorem sort_upd {g : Entity → Entity} (hg : Mild g) (w : World) (r : Ref) (b : BpId) :
    (w.upd r g).sort b = (w.sort b).upd r g := by
  have hp : ∀ s, ((w.upd r g).heap s).pos = (w.heap s).pos := by
    intro s
    rw [upd_heap]
    split
    · exact hg.pos _
    · rfl
  have hh : (w.upd r g).heap = fun s => if s = r then g (w.heap s) else w.heap s := funext (upd_heap w r g)
  refine World.ext rfl ?_ rfl ?_
  · funext s
    rw [upd_heap]
    unfold World.sort
    dsimp only
    simp only [hp]
    rw [hh]
    exact congrFun (reindex_upd hg r _ 0 w.heap) s
  · unfold World.sort
    dsimp only
    simp only [hp]
    rfl

theorem listed_upd {g : Entity → Entity} (hg : Mild g) (w : World) (b : BpId) (r : Ref) :
    (w.upd r g).listed b r = (w.listed b r).upd r g := by
  refine World.ext rfl ?_ rfl rfl
  funext s
  rw [upd_heap]
  unfold World.listed
  rw [setEnt_heap, setEnt_heap]
  split
  · rw [upd_heap, if_pos rfl]
    exact (hg.setLayer ..).symm
  · rename_i hs
    show (w.upd r g).heap s = w.heap s
    rw [upd_heap, if_neg hs]

theorem layerAdd_upd {g : Entity → Entity} (hg : Mild g) (w : World) (b : BpId) (r : Ref) :
    layerAdd b (.ent r) (w.upd r g) =
      ((layerAdd b (.ent r) w).1, (layerAdd b (.ent r) w).2.upd r g) := by
  have hl : ((w.upd r g).heap r).layer = (w.heap r).layer := by
    rw [upd_heap, if_pos rfl, hg.layer]
  have e : ∀ w : World, layerAdd b (.ent r) w =
      if (w.heap r).layer ≠ none ∧ (w.heap r).layer ≠ some b then (.error .duplicateEntity, w)
      else if r ∈ (w.bp b).objs then (.ok (), w) else (.ok (), (w.listed b r).sort b) := fun _ => rfl
  rw [e, e, hl]
  split
  · rfl
  · have : ((w.upd r g).bp b).objs = (w.bp b).objs := rfl
    rw [this]
    split
    · rfl
    · rw [listed_upd hg, sort_upd hg]

/-- `make` with keywords that give an updated entity. -/
theorem layerMake_upd {g : Entity → Entity} (hg : Mild g) {b : BpId} {kw kw' : Dict} {w w₀ : World} {r : Ref}
    {e : Entity} (h : layerMake b kw w = (.ok r, w₀))
    (he : Entity.new w.env (w.customOf (some b)) (some b) kw = .ok e)
    (he' : Entity.new w.env (w.customOf (some b)) (some b) kw' = .ok (g e)) :
    layerMake b kw' w = (.ok r, w₀.upd r g) := by
  unfold layerMake at h ⊢
  obtain ⟨s, v, hn, h⟩ := M.bind_eq_ok.1 h
  obtain ⟨e₁, he₁, rfl, rfl⟩ := newEntity_ok hn
  rw [he] at he₁
  cases he₁
  obtain ⟨_, u, ha, h⟩ := M.bind_eq_ok.1 h
  cases h
  have hn' : newEntity (some b) kw' w =
      (.ok w.next, World.upd { w.setEnt w.next e with next := w.next + 1 } w.next g) := by
    unfold newEntity
    rw [he']
    dsimp only
    unfold alloc
    refine Prod.ext rfl (World.ext rfl ?_ rfl rfl)
    funext s
    rw [upd_heap]
    show (if s = w.next then g e else w.heap s) = if s = w.next then g (if s = w.next then e else w.heap s) else
      if s = w.next then e else w.heap s
    split <;> rfl
  rw [M.bind_ok hn']
  have ha' := layerAdd_upd hg { w.setEnt w.next e with next := w.next + 1 } b w.next
  rw [ha] at ha'
  rw [M.bind_ok ha']
  rfl

theorem mild_attrs (s : Attrs) : Mild (fun e => { e with attrs := setAll e.attrs s }) :=
  ⟨fun _ => rfl, fun _ => rfl, fun _ _ => rfl, fun _ _ => rfl⟩

theorem mild_cb (c : Option Cb) : Mild (fun e => { e with cb := c }) :=
  ⟨fun _ => rfl, fun _ => rfl, fun _ _ => rfl, fun _ _ => rfl⟩

end Verif
