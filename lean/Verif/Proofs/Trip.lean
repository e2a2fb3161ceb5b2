import Verif.Proofs.CbTrip
/-!
# Helper lemmas: exported settings of a whole chain of mixins are read again
-/
set_option autoImplicit false

namespace Verif

/-! ## Keys are written once -/

theorem objSet_sub (k : String) (v : Val) : ((objSet k v).map (·.1)).Sublist [k] := by
  unfold objSet
  split
  · exact List.nil_sublist _
  · exact List.Sublist.refl _

theorem ite_sub (c : Prop) [Decidable c] (k : String) (v : Val) :
    ((if c then [(k, v)] else [] : Dict).map (·.1)).Sublist [k] := by
  split
  · exact List.Sublist.refl _
  · exact List.nil_sublist _

theorem ite_sub' (c : Prop) [Decidable c] (k : String) (v : Val) :
    ((if c then [] else [(k, v)] : Dict).map (·.1)).Sublist [k] := by
  split
  · exact List.nil_sublist _
  · exact List.Sublist.refl _

theorem append_sub {A B : Dict} {ks ls : List String} (hA : (A.map (·.1)).Sublist ks)
    (hB : (B.map (·.1)).Sublist ls) : ((A ++ B).map (·.1)).Sublist (ks ++ ls) := by
  rw [List.map_append]
  exact hA.append hB

theorem mxEmit_nodup {env : Env} {m : Mx} {a : Kw} {dir : Direction} {out : Dict}
    (h : mxEmit env m a dir = .ok out) : (out.map (·.1)).Nodup := by
  have key : ∀ ks : List String, ks.Nodup → (out.map (·.1)).Sublist ks → (out.map (·.1)).Nodup :=
    fun ks hk hs => hs.nodup hk
  cases m <;> simp only [mxEmit, bind_eq_ok, pure_eq_ok, Except.ok.injEq] at h
  case Items => obtain ⟨_, -, rfl⟩ := h; exact key _ (List.nodup_singleton _) (ite_sub ..)
  case Train => obtain ⟨_, -, rfl⟩ := h; exact key _ (List.nodup_singleton _) (objSet_sub ..)
  case Cargo => obtain ⟨_, -, _, -, rfl⟩ := h; exact key _ (List.nodup_singleton _) (objSet_sub ..)
  case Color => subst h; exact key _ (List.nodup_singleton _) (objSet_sub ..)
  case Container => obtain ⟨_, -, rfl⟩ := h; exact key _ (List.nodup_singleton _) (objSet_sub ..)
  case Inserter =>
    obtain ⟨_, -, _, -, _, -, rfl⟩ := h
    exact key _ (by decide) (append_sub (append_sub (objSet_sub ..) (objSet_sub ..)) (objSet_sub ..))
  case FilterInserter =>
    obtain ⟨_, -, _, -, rfl⟩ := h
    exact key _ (by decide) (append_sub (objSet_sub ..) (ite_sub ..))
  case InfinityContainer => obtain ⟨_, -, _, -, rfl⟩ := h; exact List.nodup_singleton _
  case Recipe => subst h; exact key _ (List.nodup_singleton _) (objSet_sub ..)
  case Requester =>
    obtain ⟨_, -, _, -, rfl⟩ := h
    exact key _ (by decide) (append_sub (ite_sub ..) (ite_sub ..))
  case Rotatable => subst h; exact key _ (List.nodup_singleton _) (ite_sub' ..)
  case Silo => obtain ⟨_, -, rfl⟩ := h; exact key _ (List.nodup_singleton _) (objSet_sub ..)
  case Speaker =>
    obtain ⟨_, -, _, -, al, hx, rfl⟩ := h
    refine key ["parameters", "alert_parameters"] (by decide) (append_sub (objSet_sub ..) ?_)
    unfold alertJson at hx
    split at hx
    · cases hx; exact List.nil_sublist _
    · simp only [bind_eq_ok, pure_eq_ok, Except.ok.injEq] at hx
      obtain ⟨_, -, _, -, _, -, _, -, _, -, rfl⟩ := hx
      exact List.Sublist.refl _
  case Splitter =>
    obtain ⟨_, -, _, -, _, -, rfl⟩ := h
    exact key _ (by decide) (append_sub (append_sub (objSet_sub ..) (objSet_sub ..)) (objSet_sub ..))
  case Station => obtain ⟨_, -, rfl⟩ := h; exact key _ (List.nodup_singleton _) (objSet_sub ..)
  case Underground => obtain ⟨_, -, rfl⟩ := h; exact key _ (List.nodup_singleton _) (objSet_sub ..)
  case Variation => obtain ⟨_, -, rfl⟩ := h; exact key _ (List.nodup_singleton _) (objSet_sub ..)
  all_goals subst h; exact List.nodup_nil

theorem mxRead_nodup {env : Env} {strict sh : Bool} {m : Mx} {g : Kw} {w : Attrs}
    (h : mxRead env strict sh m g = .ok w) : (w.map (·.1)).Nodup := by
  cases m <;> simp only [mxRead, bind_eq_ok, pure_eq_ok, Except.ok.injEq] at h
  case Items =>
    unfold readItems at h
    simp only [bind_eq_ok, pure_eq_ok, Except.ok.injEq] at h
    obtain ⟨_, -, _, -, rfl⟩ := h
    exact List.nodup_singleton _
  case Cargo =>
    unfold readCargo at h
    split at h
    · cases h; show List.Nodup ["inventory_bar", "inventory_filters"]; decide
    · simp only [bind_eq_ok, pure_eq_ok, Except.ok.injEq] at h
      obtain ⟨_, -, _, -, _, -, rfl⟩ := h
      show List.Nodup ["inventory_bar", "inventory_filters"]
      decide
  case Inserter =>
    obtain ⟨_, -, _, -, _, -, rfl⟩ := h
    show List.Nodup ["override_stack_size", "pickup_position", "drop_position"]
    decide
  case FilterInserter =>
    obtain ⟨_, -, h⟩ := h
    split at h
    · cases h
    · simp only [bind_eq_ok, pure_eq_ok, Except.ok.injEq] at h
      obtain ⟨_, -, _, -, rfl⟩ := h
      show List.Nodup ["filters", "filter_mode"]
      decide
  case InfinityContainer =>
    rw [readInfinity_eq] at h
    simp only [bind_eq_ok, pure_eq_ok, Except.ok.injEq] at h
    obtain ⟨_, -, _, -, _, -, _, -, rfl⟩ := h
    show List.Nodup ["infinity_settings_remove_unfiltered_items", "infinity_settings_filters"]
    decide
  case Requester =>
    obtain ⟨_, -, rfl⟩ := h
    show List.Nodup ["request_from_buffers", "request_filters"]
    decide
  case Speaker =>
    obtain ⟨_, -, _, -, rfl⟩ := h
    show List.Nodup ["parameters", "alert_parameters"]
    decide
  case Splitter =>
    obtain ⟨_, -, _, -, _, -, rfl⟩ := h
    show List.Nodup ["input_priority", "output_priority", "filter"]
    decide
  case Underground =>
    split at h
    · cases h
    · split at h
      · cases h; exact List.nodup_singleton _
      · cases h
    · cases h
  case Train => obtain ⟨_, -, rfl⟩ := h; exact List.nodup_singleton _
  case Color => obtain ⟨_, -, rfl⟩ := h; exact List.nodup_singleton _
  case Container => obtain ⟨_, -, rfl⟩ := h; exact List.nodup_singleton _
  case Recipe => obtain ⟨_, -, rfl⟩ := h; exact List.nodup_singleton _
  case Silo => obtain ⟨_, -, rfl⟩ := h; exact List.nodup_singleton _
  case Variation => obtain ⟨_, -, rfl⟩ := h; exact List.nodup_singleton _
  case Station => subst h; exact List.nodup_singleton _
  all_goals subst h; exact List.nodup_nil

theorem mxAttrs_disjoint {m n : Mx} {k : String} (h : k ∈ mxAttrs m) (hn : k ∈ mxAttrs n) : m = n := by
  have key : ∀ m, ∀ k ∈ mxAttrs m, keyOwner (if k = "inventory_bar" ∨ k = "inventory_filters" then "inventory"
      else if k = "infinity_settings_remove_unfiltered_items" ∨ k = "infinity_settings_filters"
        then "infinity_settings" else k) = m := by
    intro m
    cases m <;> decide
  rw [← key m k h, key n k hn]

/-! ## The chain of mixins -/

theorem get_setAll {obj ws : Dict} {k : String} (hn : (ws.map (·.1)).Nodup) (h : Dict.get? obj k = none) :
    Dict.get? (setAll obj ws) k = Dict.get? ws k := by
  unfold Dict.get? at *
  rw [lookup_setAll hn, h]
  split
  · next hx => rw [hx]
  · next hx => rw [hx]

theorem get_setAll_not {obj ws : Dict} {k : String} (h : Dict.get? ws k = none) :
    Dict.get? (setAll obj ws) k = Dict.get? obj k := by
  unfold Dict.get? at *
  exact lookup_setAll_of_not (lookup_none_iff.1 h)

/-- Every mixin of the chain has the attributes its constructor sets. -/
theorem initChain_made {env : Env} {sh : Bool} {lo : Exc} {ms : List Mx} {args : Bool} {kw : Dict}
    {a a' : Attrs} (h : initChain env true sh lo ms args kw a = .ok a') (hn : ms.Nodup)
    (ha : ∀ m ∈ ms, ∀ k ∈ mxAttrs m, Dict.get? a k = none) : ∀ m ∈ ms, Made env sh m (Dict.get? a') := by
  induction ms generalizing args kw a with
  | nil => intro m hm; cases hm
  | cons m ms ih =>
    rw [List.nodup_cons] at hn
    have disj : ∀ m' ∈ ms, ∀ k ∈ mxAttrs m, k ∉ mxAttrs m' := fun m' hm' k hk hk' =>
      hn.1 (by rw [mxAttrs_disjoint hk hk']; exact hm')
    unfold initChain at h
    split at h
    · cases h
    · rename_i w hw
      have step : ∀ {args kw}, initChain env true sh lo ms args kw (setAll a w) = .ok a' →
          ∀ m' ∈ m :: ms, Made env sh m' (Dict.get? a') := by
        intro args kw h' m' hm'
        rcases List.mem_cons.1 hm' with rfl | hm'
        · refine ⟨_, w, hw, fun k hk => ?_⟩
          have e : Dict.get? a' k = Dict.get? (setAll a w) k := initChain_lookup h' (fun m' hm' => disj m' hm' k hk)
          rw [e, get_setAll (mxRead_nodup hw) (ha _ (List.mem_cons_self ..) k hk)]
        · refine ih h' hn.2 (fun n hnm k hk => ?_) m' hm'
          rw [get_setAll_not, ha n (List.mem_cons_of_mem _ hnm) k hk]
          unfold Dict.get?
          rw [lookup_none_iff]
          intro hx
          obtain ⟨p, hp, rfl⟩ := List.mem_map.1 hx
          exact disj n hnm _ (mxRead_keys hw p hp) hk
      dsimp only at h
      split at h
      · exact step h
      · exact step h

/-- Each mixin's part of the exported object. -/
theorem emitChain_get {env : Env} {dir : Direction} {ms : List Mx} {a : Kw} {obj obj' : Dict}
    (h : emitChain env dir ms a obj = .ok obj') (hn : ms.Nodup)
    (ho : ∀ m ∈ ms, ∀ k ∈ emitKeys m, Dict.get? obj k = none) :
    ∀ m ∈ ms, ∃ out, mxEmit env m a dir = .ok out ∧ ∀ k ∈ emitKeys m, Dict.get? obj' k = Dict.get? out k := by
  have own : ∀ {m n : Mx} {k : String}, k ∈ emitKeys m → k ∈ emitKeys n → m = n := by
    intro m n k hk hk'
    have key : ∀ m, ∀ k ∈ emitKeys m, (if k = "direction" then Mx.Rotatable else keyOwner k) = m := by
      intro m; cases m <;> decide
    rw [← key m k hk, key n k hk']
  induction ms generalizing obj with
  | nil => intro m hm; cases hm
  | cons m ms ih =>
    rw [List.nodup_cons] at hn
    have disj : ∀ m' ∈ ms, ∀ k ∈ emitKeys m, k ∉ emitKeys m' := fun m' hm' k hk hk' =>
      hn.1 (by rw [own hk hk']; exact hm')
    unfold emitChain at h
    split at h
    · cases h
    · rename_i w hw
      intro m' hm'
      rcases List.mem_cons.1 hm' with rfl | hm'
      · refine ⟨w, hw, fun k hk => ?_⟩
        have e : Dict.get? obj' k = Dict.get? (setAll obj w) k := emitChain_lookup h (fun m' hm' => disj m' hm' k hk)
        rw [e, get_setAll (mxEmit_nodup hw) (ho _ (List.mem_cons_self ..) k hk)]
      · refine ih h hn.2 (fun n hnm k hk => ?_) m' hm'
        rw [get_setAll_not, ho n (List.mem_cons_of_mem _ hnm) k hk]
        unfold Dict.get?
        rw [lookup_none_iff]
        intro hx
        obtain ⟨p, hp, rfl⟩ := List.mem_map.1 hx
        exact disj n hnm _ (mxEmit_keys hw p hp) hk

theorem emitChain_congr {env : Env} {dir dir' : Direction} {ms : List Mx} {a a' : Kw} {obj : Dict}
    (h : ∀ m ∈ ms, mxEmit env m a dir = mxEmit env m a' dir') :
    emitChain env dir ms a obj = emitChain env dir' ms a' obj := by
  induction ms generalizing obj with
  | nil => rfl
  | cons m ms ih =>
    unfold emitChain
    rw [h m (List.mem_cons_self ..)]
    split
    · rfl
    · exact ih (fun n hn => h n (List.mem_cons_of_mem _ hn))

/-- The keys of the exported object. -/
theorem emitChain_keys {env : Env} {dir : Direction} {ms : List Mx} {a : Kw} {obj obj' : Dict} {k : String}
    (h : emitChain env dir ms a obj = .ok obj') (hk : Dict.get? obj' k ≠ none) :
    Dict.get? obj k ≠ none ∨ ∃ m ∈ ms, k ∈ emitKeys m := by
  by_cases hm : ∃ m ∈ ms, k ∈ emitKeys m
  · exact .inr hm
  · refine .inl ?_
    have := emitChain_lookup h (k := k) (fun m hm' hk' => hm ⟨m, hm', hk'⟩)
    unfold Dict.get? at *
    rwa [← this]

/-- `Items` only comes last. -/
def ItemsLast : List Mx → Prop
  | [] => True
  | m :: ms => (m = .Items → ms = []) ∧ ItemsLast ms

/-- Reading the exported settings of a chain. -/
theorem initChain_trip {env : Env} {sh : Bool} {lo : Exc} {ms : List Mx} {kw : Dict} {a : Attrs}
    {w : Mx → Attrs} (hn : ms.Nodup) (hi : ItemsLast ms)
    (hr : ∀ m ∈ ms, mxRead env true sh m (Dict.get? kw) = .ok (w m))
    (hk : ∀ k, Dict.get? kw k ≠ none → ∃ m ∈ ms, k ∈ mxKeys m)
    (ha : ∀ m ∈ ms, ∀ k ∈ mxAttrs m, Dict.get? a k = none) :
    ∃ a', initChain env true sh lo ms false kw a = .ok a' ∧
      ∀ m ∈ ms, ∀ k ∈ mxAttrs m, Dict.get? a' k = Dict.get? (w m) k := by
  induction ms generalizing kw a with
  | nil =>
    refine ⟨a, ?_, fun m hm => by cases hm⟩
    have : kw = [] := by
      cases kw with
      | nil => rfl
      | cons p kw =>
        obtain ⟨m, hm, -⟩ := hk p.1 (by
          unfold Dict.get?
          rw [← mem_keys_iff]
          exact List.mem_cons_self ..)
        cases hm
    rw [this]
    rfl
  | cons m ms ih =>
    rw [List.nodup_cons] at hn
    have hw := hr m (List.mem_cons_self ..)
    have disj : ∀ m' ∈ ms, ∀ k ∈ mxAttrs m, k ∉ mxAttrs m' := fun m' hm' k hk hk' =>
      hn.1 (by rw [mxAttrs_disjoint hk hk']; exact hm')
    have hr' : ∀ n ∈ ms, mxRead env true sh n (Dict.get? (eraseKeys kw (mxKeys m))) = .ok (w n) := by
      intro n hnm
      rw [← hr n (List.mem_cons_of_mem _ hnm)]
      refine mxRead_congr (fun k hkn => ?_)
      refine get_eraseKeys (fun hkm => ?_)
      rw [mxKeys_disjoint hkm hkn] at hn
      exact hn.1 hnm
    have hk' : ∀ k, Dict.get? (eraseKeys kw (mxKeys m)) k ≠ none → ∃ m' ∈ ms, k ∈ mxKeys m' := by
      intro k hkk
      unfold Dict.get? at hkk
      rw [lookup_eraseKeys] at hkk
      split at hkk
      · exact absurd rfl hkk
      · next hkm =>
        obtain ⟨m', hm', hkm'⟩ := hk k hkk
        rcases List.mem_cons.1 hm' with rfl | hm'
        · exact absurd hkm' hkm
        · exact ⟨m', hm', hkm'⟩
    have ha' : ∀ n ∈ ms, ∀ k ∈ mxAttrs n, Dict.get? (setAll a (w m)) k = none := by
      intro n hnm k hkn
      rw [get_setAll_not, ha n (List.mem_cons_of_mem _ hnm) k hkn]
      unfold Dict.get?
      rw [lookup_none_iff]
      intro hx
      obtain ⟨p, hp, rfl⟩ := List.mem_map.1 hx
      exact disj n hnm _ (mxRead_keys hw p hp) hkn
    obtain ⟨a', e, hx⟩ := ih (a := setAll a (w m)) hn.2 hi.2 hr' hk' ha'
    refine ⟨a', ?_, fun n hnm k hkn => ?_⟩
    · unfold initChain
      rw [hw]
      dsimp only
      split
      · next hm =>
        have hms := hi.1 hm
        subst hms
        have hemp : eraseKeys kw (mxKeys m) = [] := by
          cases hkw : eraseKeys kw (mxKeys m) with
          | nil => rfl
          | cons p d =>
            obtain ⟨m', hm', -⟩ := hk' p.1 (by
              rw [hkw]
              unfold Dict.get?
              rw [← mem_keys_iff]
              exact List.mem_cons_self ..)
            cases hm'
        rw [hemp] at e ⊢
        exact e
      · exact e
    · rcases List.mem_cons.1 hnm with rfl | hnm
      · have e' : Dict.get? a' k = Dict.get? (setAll a (w n)) k :=
          initChain_lookup e (fun m' hm' => disj m' hm' k hkn)
        rw [e', get_setAll (mxRead_nodup hw) (ha _ (List.mem_cons_self ..) k hkn)]
      · exact hx n hnm k hkn

/-! ## The chain of control behaviours -/

theorem sig_sub {env : Env} {k : String} {s : Val} {out : Dict} (h : objSetSignal env k s = .ok out) :
    (out.map (·.1)).Sublist [k] := by
  unfold objSetSignal at h
  split at h
  · cases h; exact List.nil_sublist _
  · simp only [bind_eq_ok, pure_eq_ok, Except.ok.injEq] at h
    obtain ⟨_, -, rfl⟩ := h
    exact List.Sublist.refl _
  · cases h; exact List.Sublist.refl _

theorem ifSig_sub {env : Env} {k : String} {s : Val} {out : Dict} (h : objSetIfSignal env k s = .ok out) :
    (out.map (·.1)).Sublist [k] := by
  unfold objSetIfSignal at h
  dsimp only at h
  split at h
  · simp only [bind_eq_ok, pure_eq_ok, Except.ok.injEq] at h
    obtain ⟨_, -, rfl⟩ := h
    exact List.Sublist.refl _
  · cases h; exact List.nil_sublist _

/-- The keys in the order in which they are written. -/
def cbOrder : Mx → List String
  | .TransportBelt => ["circuit_read_hand_contents", "circuit_enable_disable", "circuit_contents_read_mode"]
  | m => cbKeys m

theorem cbEmit_sub {env : Env} {m : Mx} {a : Kw} {out : Dict} (h : cbEmit env m a = .ok out) :
    (out.map (·.1)).Sublist (cbOrder m) := by
  cases m <;> simp only [cbEmit, bind_eq_ok, pure_eq_ok, Except.ok.injEq] at h
  case Accumulator => exact sig_sub h
  case Filters =>
    obtain ⟨_, -, fs, -, h⟩ := h
    split at h
    · cases h; exact List.nil_sublist _
    · simp only [bind_eq_ok, pure_eq_ok, Except.ok.injEq] at h
      obtain ⟨_, -, rfl⟩ := h
      exact List.Sublist.refl _
  case ConstantCombinator => obtain ⟨_, -, rfl⟩ := h; exact ite_sub' ..
  case TransportBelt => obtain ⟨_, -, _, -, _, -, rfl⟩ := h; exact List.Sublist.refl _
  case TrainSignal =>
    obtain ⟨_, -, _, h1, _, h2, _, h3, rfl⟩ := h
    exact append_sub (append_sub (append_sub (objSet_sub ..) (sig_sub h1)) (sig_sub h2)) (sig_sub h3)
  case ChainSignal => exact sig_sub h
  case RailSignal => obtain ⟨_, -, rfl⟩ := h; exact objSet_sub ..
  case CircuitCondition => obtain ⟨_, -, _, -, rfl⟩ := h; exact ite_sub' ..
  case Lamp => obtain ⟨_, -, rfl⟩ := h; exact objSet_sub ..
  case MiningDrill => obtain ⟨_, -, _, -, _, -, rfl⟩ := h; exact List.Sublist.refl _
  case Inserter =>
    obtain ⟨_, -, _, -, _, h1, _, -, _, -, rfl⟩ := h
    exact append_sub (append_sub (append_sub (append_sub (objSet_sub ..) (objSet_sub ..)) (sig_sub h1))
      (objSet_sub ..)) (objSet_sub ..)
  case Requester => obtain ⟨_, -, rfl⟩ := h; exact objSet_sub ..
  case Roboport =>
    obtain ⟨_, -, _, -, _, h1, _, h2, _, h3, _, h4, rfl⟩ := h
    exact append_sub (append_sub (append_sub (append_sub (append_sub (objSet_sub ..) (objSet_sub ..))
      (ifSig_sub h1)) (ifSig_sub h2)) (ifSig_sub h3)) (ifSig_sub h4)
  case Speaker => obtain ⟨_, -, rfl⟩ := h; exact List.Sublist.refl _
  case Station =>
    obtain ⟨_, -, _, -, _, -, _, h1, rfl⟩ := h
    exact append_sub (append_sub (append_sub (objSet_sub ..) (objSet_sub ..)) (objSet_sub ..)) (ifSig_sub h1)
  all_goals subst h; exact List.nil_sublist _

theorem cbEmit_nodup {env : Env} {m : Mx} {a : Kw} {out : Dict} (h : cbEmit env m a = .ok out) :
    (out.map (·.1)).Nodup := (cbEmit_sub h).nodup (by cases m <;> decide)

theorem cbEmit_keys {env : Env} {m : Mx} {a : Kw} {out : Dict} {k : String} (h : cbEmit env m a = .ok out)
    (hk : k ∉ cbKeys m) : Dict.get? out k = none := by
  unfold Dict.get?
  rw [lookup_none_iff]
  intro hx
  have := (cbEmit_sub h).subset hx
  refine hk ?_
  have e : ∀ k ∈ cbOrder m, k ∈ cbKeys m := by cases m <;> decide
  exact e k this

theorem cbRead_sub {env : Env} {ctx : CbCtx} {m : Mx} {g : Kw} {w : Attrs} (h : cbRead env ctx m g = .ok w) :
    (w.map (·.1)).Sublist (cbAttrs m) := by
  cases m <;> simp only [cbRead, bind_eq_ok, pure_eq_ok, Except.ok.injEq] at h
  case Accumulator => obtain ⟨_, -, rfl⟩ := h; exact List.Sublist.refl _
  case Filters =>
    obtain ⟨_, -, h⟩ := h
    split at h
    · cases h
    · simp only [bind_eq_ok, pure_eq_ok, Except.ok.injEq] at h
      obtain ⟨_, -, rfl⟩ := h
      exact List.Sublist.refl _
  case TrainSignal => obtain ⟨_, -, _, -, _, -, rfl⟩ := h; exact List.Sublist.refl _
  case ChainSignal => obtain ⟨_, -, rfl⟩ := h; exact List.Sublist.refl _
  case CircuitCondition =>
    split at h
    · cases h; exact List.nil_sublist _
    · simp only [bind_eq_ok, pure_eq_ok, Except.ok.injEq] at h
      obtain ⟨_, -, _, -, _, -, _, -, rfl⟩ := h
      exact List.Sublist.refl _
  case Inserter => obtain ⟨_, -, rfl⟩ := h; exact List.Sublist.refl _
  case Roboport => obtain ⟨_, -, _, -, _, -, _, -, rfl⟩ := h; exact List.Sublist.refl _
  case Speaker => obtain ⟨_, -, rfl⟩ := h; exact List.Sublist.refl _
  case Station => obtain ⟨_, -, rfl⟩ := h; exact List.Sublist.refl _
  all_goals subst h; first | exact List.Sublist.refl _ | exact List.nil_sublist _

theorem cbRead_nodup {env : Env} {ctx : CbCtx} {m : Mx} {g : Kw} {w : Attrs} (h : cbRead env ctx m g = .ok w) :
    (w.map (·.1)).Nodup := (cbRead_sub h).nodup (by cases m <;> decide)

theorem cbRead_keys {env : Env} {ctx : CbCtx} {m : Mx} {g : Kw} {w : Attrs} {k : String}
    (h : cbRead env ctx m g = .ok w) (hk : k ∉ cbAttrs m) : Dict.get? w k = none := by
  unfold Dict.get?
  rw [lookup_none_iff]
  exact fun hx => hk ((cbRead_sub h).subset hx)

/-- A chain of behaviours with settings and attributes of their own, none of them a combinator's, and the
inserter's only at the end. -/
def CbPlain : List Mx → Prop
  | [] => True
  | m :: ms => m ≠ .Combinator ∧ m ≠ .Decider ∧ (m = .Inserter → ms = []) ∧
      (∀ n ∈ ms, (∀ k ∈ cbKeys m, k ∉ cbKeys n) ∧ ∀ k ∈ cbAttrs m, k ∉ cbAttrs n) ∧ CbPlain ms

instance CbPlain.dec : (ms : List Mx) → Decidable (CbPlain ms)
  | [] => isTrue trivial
  | m :: ms => by
    have := CbPlain.dec ms
    unfold CbPlain
    infer_instance

instance ItemsLast.dec : (ms : List Mx) → Decidable (ItemsLast ms)
  | [] => isTrue trivial
  | m :: ms => by
    have := ItemsLast.dec ms
    unfold ItemsLast
    infer_instance

theorem cbInit_plain {env : Env} {ctx : CbCtx} {m : Mx} (h1 : m ≠ .Combinator) (h2 : m ≠ .Decider) (kw : Dict) :
    cbInit env ctx m kw = (do
      let a ← cbRead env ctx m (Dict.get? kw)
      return (a, eraseKeys kw (cbKeys m))) := by
  cases m <;> first | rfl | exact absurd rfl h1 | exact absurd rfl h2

theorem cbEmit1_plain {env : Env} {ctx : CbCtx} {m : Mx} (h1 : m ≠ .Combinator) (h2 : m ≠ .Decider) (a : Kw) (obj : Dict) :
    cbEmit1 env ctx m a obj = (do return setAll obj (← cbEmit env m a)) := by
  cases m <;> first | rfl | exact absurd rfl h1 | exact absurd rfl h2

theorem cbInitChain_other {env : Env} {ctx : CbCtx} {lo : Exc} {ms : List Mx} {kw : Dict} {a a' : Attrs}
    {k : String} (hp : CbPlain ms) (h : cbInitChain env ctx lo ms kw a = .ok a') (hk : ∀ m ∈ ms, k ∉ cbAttrs m) :
    Dict.get? a' k = Dict.get? a k := by
  induction ms generalizing kw a with
  | nil =>
    unfold cbInitChain at h
    split at h
    · cases h; rfl
    · cases h
  | cons m ms ih =>
    obtain ⟨h1, h2, h3, h4, h5⟩ := hp
    unfold cbInitChain at h
    rw [cbInit_plain h1 h2] at h
    cases hr : cbRead env ctx m (Dict.get? kw) with
    | error e => rw [hr] at h; cases h
    | ok w =>
      rw [hr] at h
      simp only [ok_bind, pure_eq_ok] at h
      have e := get_setAll_not (obj := a) (cbRead_keys hr (hk m (List.mem_cons_self ..)))
      split at h
      · cases h; exact e
      · rw [ih h5 h (fun n hn => hk n (List.mem_cons_of_mem _ hn)), e]

theorem cbInitChain_made {env : Env} {ctx : CbCtx} {lo : Exc} {ms : List Mx} {kw : Dict} {a a' : Attrs}
    (hp : CbPlain ms) (h : cbInitChain env ctx lo ms kw a = .ok a')
    (ha : ∀ m ∈ ms, ∀ k ∈ cbAttrs m, Dict.get? a k = none) : ∀ m ∈ ms, CbMade env ctx m (Dict.get? a') := by
  induction ms generalizing kw a with
  | nil => intro m hm; cases hm
  | cons m ms ih =>
    obtain ⟨h1, h2, h3, h4, h5⟩ := hp
    unfold cbInitChain at h
    rw [cbInit_plain h1 h2] at h
    cases hr : cbRead env ctx m (Dict.get? kw) with
    | error e => rw [hr] at h; cases h
    | ok w =>
      rw [hr] at h
      simp only [ok_bind, pure_eq_ok] at h
      split at h
      · next hs =>
        cases h
        have hm : m = .Inserter := by simpa [cbStops] using hs
        have := h3 hm
        subst this
        intro m' hm'
        cases List.mem_singleton.1 hm'
        exact .of_read hr (fun k hk => get_setAll (cbRead_nodup hr) (ha _ (List.mem_cons_self ..) k hk))
      · intro m' hm'
        rcases List.mem_cons.1 hm' with rfl | hm'
        · refine .of_read hr (fun k hk => ?_)
          rw [cbInitChain_other h5 h (fun n hn => (h4 n hn).2 k hk),
            get_setAll (cbRead_nodup hr) (ha _ (List.mem_cons_self ..) k hk)]
        · refine ih h5 h (fun n hn k hk => ?_) m' hm'
          rw [get_setAll_not (cbRead_keys hr (fun hx => (h4 n hn).2 k hx hk)), ha n (List.mem_cons_of_mem _ hn) k hk]

theorem cbEmitChain_other {env : Env} {ctx : CbCtx} {ms : List Mx} {a : Kw} {obj obj' : Dict} {k : String}
    (hp : CbPlain ms) (h : cbEmitChain env ctx ms a obj = .ok obj') (hk : ∀ m ∈ ms, k ∉ cbKeys m) :
    Dict.get? obj' k = Dict.get? obj k := by
  induction ms generalizing obj with
  | nil => cases h; rfl
  | cons m ms ih =>
    obtain ⟨h1, h2, h3, h4, h5⟩ := hp
    unfold cbEmitChain at h
    rw [cbEmit1_plain h1 h2] at h
    cases hr : cbEmit env m a with
    | error e => rw [hr] at h; cases h
    | ok w =>
      rw [hr] at h
      simp only [ok_bind, pure_eq_ok] at h
      rw [ih h5 h (fun n hn => hk n (List.mem_cons_of_mem _ hn)),
        get_setAll_not (cbEmit_keys hr (hk m (List.mem_cons_self ..)))]

theorem cbEmitChain_get {env : Env} {ctx : CbCtx} {ms : List Mx} {a : Kw} {obj obj' : Dict}
    (hp : CbPlain ms) (h : cbEmitChain env ctx ms a obj = .ok obj')
    (ho : ∀ m ∈ ms, ∀ k ∈ cbKeys m, Dict.get? obj k = none) :
    ∀ m ∈ ms, ∃ out, cbEmit env m a = .ok out ∧ ∀ k ∈ cbKeys m, Dict.get? obj' k = Dict.get? out k := by
  induction ms generalizing obj with
  | nil => intro m hm; cases hm
  | cons m ms ih =>
    obtain ⟨h1, h2, h3, h4, h5⟩ := hp
    unfold cbEmitChain at h
    rw [cbEmit1_plain h1 h2] at h
    cases hr : cbEmit env m a with
    | error e => rw [hr] at h; cases h
    | ok w =>
      rw [hr] at h
      simp only [ok_bind, pure_eq_ok] at h
      intro m' hm'
      rcases List.mem_cons.1 hm' with rfl | hm'
      · refine ⟨w, hr, fun k hk => ?_⟩
        rw [cbEmitChain_other h5 h (fun n hn => (h4 n hn).1 k hk),
          get_setAll (cbEmit_nodup hr) (ho _ (List.mem_cons_self ..) k hk)]
      · refine ih h5 h (fun n hn k hk => ?_) m' hm'
        rw [get_setAll_not (cbEmit_keys hr (fun hx => (h4 n hn).1 k hx hk)), ho n (List.mem_cons_of_mem _ hn) k hk]

theorem cbEmitChain_congr {env : Env} {ctx : CbCtx} {ms : List Mx} {a a' : Kw} {obj : Dict} (hp : CbPlain ms)
    (h : ∀ m ∈ ms, cbEmit env m a = cbEmit env m a') :
    cbEmitChain env ctx ms a obj = cbEmitChain env ctx ms a' obj := by
  induction ms generalizing obj with
  | nil => rfl
  | cons m ms ih =>
    obtain ⟨h1, h2, h3, h4, h5⟩ := hp
    unfold cbEmitChain
    rw [cbEmit1_plain h1 h2, cbEmit1_plain h1 h2, h m (List.mem_cons_self ..)]
    split
    · rfl
    · exact ih h5 (fun n hn => h n (List.mem_cons_of_mem _ hn))

theorem cbInitChain_trip {env : Env} {ctx : CbCtx} {lo : Exc} {ms : List Mx} {kw : Dict} {a : Attrs}
    {w : Mx → Attrs} (hp : CbPlain ms) (hr : ∀ m ∈ ms, cbRead env ctx m (Dict.get? kw) = .ok (w m))
    (hk : ∀ k, Dict.get? kw k ≠ none → ∃ m ∈ ms, k ∈ cbKeys m)
    (ha : ∀ m ∈ ms, ∀ k ∈ cbAttrs m, Dict.get? a k = none) :
    ∃ a', cbInitChain env ctx lo ms kw a = .ok a' ∧
      ∀ m ∈ ms, ∀ k ∈ cbAttrs m, Dict.get? a' k = Dict.get? (w m) k := by
  induction ms generalizing kw a with
  | nil =>
    refine ⟨a, ?_, fun m hm => by cases hm⟩
    have : kw = [] := by
      cases kw with
      | nil => rfl
      | cons p kw =>
        obtain ⟨m, hm, -⟩ := hk p.1 (by
          unfold Dict.get?
          rw [← mem_keys_iff]
          exact List.mem_cons_self ..)
        cases hm
    rw [this]
    rfl
  | cons m ms ih =>
    obtain ⟨h1, h2, h3, h4, h5⟩ := hp
    have hw := hr m (List.mem_cons_self ..)
    have hr' : ∀ n ∈ ms, cbRead env ctx n (Dict.get? (eraseKeys kw (cbKeys m))) = .ok (w n) := by
      intro n hn
      rw [← hr n (List.mem_cons_of_mem _ hn)]
      exact cbRead_congr (fun k hk => get_eraseKeys (fun hx => (h4 n hn).1 k hx hk))
    have hk' : ∀ k, Dict.get? (eraseKeys kw (cbKeys m)) k ≠ none → ∃ m' ∈ ms, k ∈ cbKeys m' := by
      intro k hkk
      unfold Dict.get? at hkk
      rw [lookup_eraseKeys] at hkk
      split at hkk
      · exact absurd rfl hkk
      · next hkm =>
        obtain ⟨m', hm', hkm'⟩ := hk k hkk
        rcases List.mem_cons.1 hm' with rfl | hm'
        · exact absurd hkm' hkm
        · exact ⟨m', hm', hkm'⟩
    have ha' : ∀ n ∈ ms, ∀ k ∈ cbAttrs n, Dict.get? (setAll a (w m)) k = none := by
      intro n hn k hk
      rw [get_setAll_not (cbRead_keys hw (fun hx => (h4 n hn).2 k hx hk)), ha n (List.mem_cons_of_mem _ hn) k hk]
    obtain ⟨a', e, hx⟩ := ih (a := setAll a (w m)) h5 hr' hk' ha'
    unfold cbInitChain
    rw [cbInit_plain h1 h2, hw]
    simp only [ok_bind, pure_eq_ok]
    by_cases hs : cbStops m = true
    · have hm : m = .Inserter := by simpa [cbStops] using hs
      have := h3 hm
      subst this
      refine ⟨setAll a (w m), by rw [if_pos hs], fun n hn k hk => ?_⟩
      cases List.mem_singleton.1 hn
      exact get_setAll (cbRead_nodup hw) (ha _ (List.mem_cons_self ..) k hk)
    · refine ⟨a', by rw [if_neg hs]; exact e, fun n hn k hkn => ?_⟩
      rcases List.mem_cons.1 hn with rfl | hn
      · rw [cbInitChain_other h5 e (fun n' hn' => (h4 n' hn').2 k hkn),
          get_setAll (cbRead_nodup hw) (ha _ (List.mem_cons_self ..) k hkn)]
      · exact hx n hn k hkn

/-- A control behaviour without combinator: exporting, reading and exporting again. -/
theorem cb_trip {env : Env} {ctx : CbCtx} {lo' : Exc} {ms : List Mx} {a : Attrs} {obj : Dict}
    (hp : CbPlain ms) (hmade : ∀ m ∈ ms, CbMade env ctx m (Dict.get? a))
    (he : cbEmitChain env ctx ms (Dict.get? a) [] = .ok obj)
    (hc : .CircuitCondition ∈ ms → NoFirstConstant obj) :
    ∃ a', cbInitChain env ctx lo' ms obj [] = .ok a' ∧ cbEmitChain env ctx ms (Dict.get? a') [] = .ok obj := by
  have hget := cbEmitChain_get hp he (fun _ _ _ _ => rfl)
  have htrip : ∀ m ∈ ms, ∃ w out, cbEmit env m (Dict.get? a) = .ok out ∧
      cbRead env ctx m (Dict.get? obj) = .ok w ∧
      ∀ a', (∀ k ∈ cbAttrs m, a' k = Dict.get? w k) → cbEmit env m a' = .ok out := by
    intro m hm
    obtain ⟨out, ho, hg⟩ := hget m hm
    obtain ⟨w, hw, hx⟩ := cbTrips (hmade m hm) ho (by
      rintro rfl c hcc
      refine hc hm c ?_
      rw [hg _ (by decide)]
      exact hcc)
    refine ⟨w, out, ho, ?_, hx⟩
    rw [← hw]
    exact cbRead_congr hg
  have hw : ∃ W : Mx → Attrs, ∀ m ∈ ms, ∃ out, cbEmit env m (Dict.get? a) = .ok out ∧
      cbRead env ctx m (Dict.get? obj) = .ok (W m) ∧
      ∀ a', (∀ k ∈ cbAttrs m, a' k = Dict.get? (W m) k) → cbEmit env m a' = .ok out := by
    refine ⟨fun m => (cbRead env ctx m (Dict.get? obj)).toOption.getD [], fun m hm => ?_⟩
    obtain ⟨w, out, h1, h2, h3⟩ := htrip m hm
    have e : (cbRead env ctx m (Dict.get? obj)).toOption.getD [] = w := by rw [h2]; rfl
    dsimp only
    rw [e]
    exact ⟨out, h1, h2, h3⟩
  obtain ⟨W, hW⟩ := hw
  obtain ⟨a', e, hx⟩ := cbInitChain_trip (lo := lo') (a := []) (kw := obj) (w := W) hp
    (fun m hm => by obtain ⟨_, _, h, _⟩ := hW m hm; exact h) (fun k hk => by
      by_cases hm : ∃ m ∈ ms, k ∈ cbKeys m
      · exact hm
      · exact absurd (cbEmitChain_other hp he (fun m hm' hk' => hm ⟨m, hm', hk'⟩)) hk) (fun _ _ _ _ => rfl)
  refine ⟨a', e, ?_⟩
  rw [← he]
  refine cbEmitChain_congr hp (fun m hm => ?_)
  obtain ⟨out, h1, -, h3⟩ := hW m hm
  rw [h1, h3 _ (hx m hm)]

end Verif
