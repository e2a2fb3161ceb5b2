import Verif.Proofs.Dict
import Verif.Proofs.Entity
/-!
# Helper lemmas: the chain of constructors, key by key
-/
set_option autoImplicit false

namespace Verif

/-- The class that consumes a keyword. -/
def keyOwner (k : String) : Mx :=
  if k = "items" then .Items
  else if k = "orientation" then .Train
  else if k = "inventory" then .Cargo
  else if k = "color" then .Color
  else if k = "bar" then .Container
  else if k = "override_stack_size" ∨ k = "drop_position" ∨ k = "pickup_position" then .Inserter
  else if k = "filters" ∨ k = "filter_mode" then .FilterInserter
  else if k = "infinity_settings" then .InfinityContainer
  else if k = "recipe" then .Recipe
  else if k = "request_from_buffers" ∨ k = "request_filters" then .Requester
  else if k = "auto_launch" then .Silo
  else if k = "parameters" ∨ k = "alert_parameters" then .Speaker
  else if k = "input_priority" ∨ k = "output_priority" ∨ k = "filter" then .Splitter
  else if k = "station" then .Station
  else if k = "type" then .Underground
  else .Variation

theorem mxKeys_owner {m : Mx} {k : String} (h : k ∈ mxKeys m) : keyOwner k = m := by
  cases m <;> simp only [mxKeys, List.mem_cons, List.not_mem_nil, or_false] at h
  all_goals first
    | (subst h; decide)
    | (rcases h with rfl | rfl <;> decide)
    | (rcases h with rfl | rfl | rfl <;> decide)

theorem mxKeys_disjoint {m n : Mx} {k : String} (h : k ∈ mxKeys m) (hn : k ∈ mxKeys n) : m = n := by
  rw [← mxKeys_owner h, mxKeys_owner hn]

/-- A mixin looks at its own keywords only. -/
theorem mxRead_congr {env : Env} {strict sh : Bool} {m : Mx} {g g' : Kw} (h : ∀ k ∈ mxKeys m, g k = g' k) :
    mxRead env strict sh m g = mxRead env strict sh m g' := by
  cases m <;> simp only [mxKeys, List.mem_cons, List.not_mem_nil, or_false, forall_eq_or_imp,
    forall_eq] at h <;> simp only [mxRead, Kw.orNone, h]

theorem erase_eraseKeys (d : Dict) (k : String) (ks : List String) :
    eraseKeys (Dict.erase d k) ks = Dict.erase (eraseKeys d ks) k := by
  unfold eraseKeys Dict.erase
  rw [List.filter_filter, List.filter_filter]
  congr 1
  funext p
  exact Bool.and_comm _ _

theorem get_erase_ne {d : Dict} {k k' : String} (h : k' ≠ k) :
    Dict.get? (Dict.erase d k) k' = Dict.get? d k' := by
  unfold Dict.get?
  rw [lookup_erase, if_neg h]

theorem get_erase_self (d : Dict) (k : String) : Dict.get? (Dict.erase d k) k = none := by
  unfold Dict.get?
  rw [lookup_erase, if_pos rfl]

theorem getD_erase_ne {d : Dict} {k k' : String} {v : Val} (h : k' ≠ k) :
    Dict.getD (Dict.erase d k) k' v = Dict.getD d k' v := by
  unfold Dict.getD
  rw [get_erase_ne h]

theorem mem_erase_ne {d : Dict} {k k' : String} (h : k' ≠ k) :
    Dict.mem (Dict.erase d k) k' = Dict.mem d k' := by
  unfold Dict.mem
  rw [get_erase_ne h]

theorem get_eraseKeys {d : Dict} {k : String} {ks : List String} (h : k ∉ ks) :
    Dict.get? (eraseKeys d ks) k = Dict.get? d k := by
  unfold Dict.get?
  rw [lookup_eraseKeys, if_neg h]

theorem ne_nil_of_get {d : Dict} {k : String} {v : Val} (h : Dict.get? d k = some v) :
    d.isEmpty = false := by
  cases d with
  | nil => simp [Dict.get?] at h
  | cons p d => rfl

section
variable {env : Env} {strict sh : Bool} {lo : Exc}

/-- With a positional argument the chain raises at its end. -/
theorem initChain_args {ms : List Mx} {args : Bool} {kw : Dict} {a a' : Attrs}
    (h : initChain env strict sh lo ms args kw a = .ok a') :
    args = false ∧ initChain env strict sh lo ms true kw a = .error lo := by
  induction ms generalizing args kw a with
  | nil =>
    unfold initChain at h ⊢
    split at h
    · cases h
    · rename_i hn
      simp only [Bool.or_eq_true, not_or, Bool.not_eq_true] at hn
      exact ⟨hn.1, by simp⟩
  | cons m ms ih =>
    unfold initChain at h ⊢
    split at h
    · cases h
    · rename_i w hw
      dsimp only at h
      split at h
      · rename_i hm
        rw [if_pos hm]
        obtain ⟨h1, h2⟩ := ih h
        simp only [Bool.or_eq_false_iff] at h1
        exact ⟨h1.1, by simpa using h2⟩
      · rename_i hm
        rw [if_neg hm]
        exact ih h

/-- A keyword that no class of the chain consumes makes the constructor raise at its end. -/
theorem initChain_extra {ms : List Mx} {args : Bool} {kw : Dict} {a a' : Attrs} {k : String} {v : Val}
    (hk : ∀ m ∈ ms, k ∉ mxKeys m) (hv : Dict.get? kw k = some v)
    (h : initChain env strict sh lo ms args (Dict.erase kw k) a = .ok a') :
    initChain env strict sh lo ms args kw a = .error lo := by
  induction ms generalizing args kw a with
  | nil =>
    unfold initChain
    simp [ne_nil_of_get hv]
  | cons m ms ih =>
    have hkm := hk m (List.mem_cons_self ..)
    have hk' := fun n hn => hk n (List.mem_cons_of_mem _ hn)
    have hr : mxRead env strict sh m (Dict.get? (Dict.erase kw k)) = mxRead env strict sh m (Dict.get? kw) :=
      mxRead_congr (fun k' hk'' => get_erase_ne (by rintro rfl; exact hkm hk''))
    have hv' : Dict.get? (eraseKeys kw (mxKeys m)) k = some v := by rw [get_eraseKeys hkm, hv]
    unfold initChain at h ⊢
    rw [hr] at h
    split at h
    · cases h
    · rename_i w hw
      dsimp only at h ⊢
      rw [erase_eraseKeys] at h
      split at h
      · rename_i hm
        rw [if_pos hm]
        obtain ⟨h1, h2⟩ := initChain_args h
        rw [ne_nil_of_get hv']
        simpa using h2
      · rename_i hm
        rw [if_neg hm]
        exact ih hk' hv' h

/-- A value that the owner of its keyword rejects makes the constructor raise that exception. -/
theorem initChain_bad {ms : List Mx} {args : Bool} {kw : Dict} {a a' : Attrs} {k : String} {v : Val} {m₀ : Mx}
    {x : Exc} (hm₀ : m₀ ∈ ms) (hk : k ∈ mxKeys m₀) (hI : m₀ = .Items ∨ .Items ∉ ms)
    (hv : Dict.get? kw k = some v)
    (bad : ∀ g g' w, (∀ k', k' ≠ k → g k' = g' k') → g k = some v → g' k = none →
      mxRead env strict sh m₀ g' = .ok w → mxRead env strict sh m₀ g = .error x)
    (h : initChain env strict sh lo ms args (Dict.erase kw k) a = .ok a') :
    initChain env strict sh lo ms args kw a = .error x := by
  induction ms generalizing args kw a with
  | nil => cases hm₀
  | cons m ms ih =>
    unfold initChain at h ⊢
    by_cases hm : m = m₀
    · subst hm
      split at h
      · cases h
      · rename_i w hw
        rw [bad _ _ w (fun k' hk' => (get_erase_ne hk').symm) hv (get_erase_self _ _) hw]
    · have hkm : k ∉ mxKeys m := fun h => hm (mxKeys_disjoint h hk)
      have hr : mxRead env strict sh m (Dict.get? (Dict.erase kw k)) =
          mxRead env strict sh m (Dict.get? kw) :=
        mxRead_congr (fun k' hk'' => get_erase_ne (by rintro rfl; exact hkm hk''))
      rw [hr] at h
      have hmi : m ≠ .Items := by
        rintro rfl
        rcases hI with rfl | hI
        · exact hm rfl
        · exact hI (List.mem_cons_self ..)
      split at h
      · cases h
      · rename_i w hw
        dsimp only at h ⊢
        rw [erase_eraseKeys] at h
        rw [if_neg hmi] at h ⊢
        refine ih ?_ (hI.imp_right (fun h hi => h (List.mem_cons_of_mem _ hi))) ?_ h
        · rcases List.mem_cons.1 hm₀ with rfl | h
          · exact absurd rfl hm
          · exact h
        · rw [get_eraseKeys hkm, hv]

end

/-- All keywords of an accepted call are consumed by some class of the chain. -/
theorem initChain_keys {env : Env} {strict sh : Bool} {lo : Exc} {ms : List Mx} {args : Bool} {kw : Dict}
    {a a' : Attrs} {k : String} {v : Val} (h : initChain env strict sh lo ms args kw a = .ok a')
    (hv : Dict.get? kw k = some v) : ∃ m ∈ ms, k ∈ mxKeys m := by
  induction ms generalizing args kw a with
  | nil =>
    unfold initChain at h
    rw [ne_nil_of_get hv] at h
    simp at h
  | cons m ms ih =>
    by_cases hm : k ∈ mxKeys m
    · exact ⟨m, List.mem_cons_self .., hm⟩
    · have hv' : Dict.get? (eraseKeys kw (mxKeys m)) k = some v := by rw [get_eraseKeys hm, hv]
      unfold initChain at h
      split at h
      · cases h
      · dsimp only at h
        split at h
        · obtain ⟨h1, -⟩ := initChain_args h
          rw [ne_nil_of_get hv'] at h1
          simp at h1
        · obtain ⟨n, hn, hk⟩ := ih h hv'
          exact ⟨n, List.mem_cons_of_mem _ hn, hk⟩

/-! ## Control behaviours -/

theorem cbRead_congr {env : Env} {ctx : CbCtx} {m : Mx} {g g' : Kw} (h : ∀ k ∈ cbKeys m, g k = g' k) :
    cbRead env ctx m g = cbRead env ctx m g' := by
  cases m <;> simp only [cbKeys, List.mem_cons, List.not_mem_nil, or_false, forall_eq_or_imp,
    forall_eq] at h <;> simp only [cbRead, Kw.orNone, h]

/-- The keywords a control behaviour class consumes, given the entity class. -/
def cbKeysIn (ctx : CbCtx) (m : Mx) : List String :=
  match m with
  | .Combinator | .Decider => [ctx.field]
  | m => cbKeys m

theorem erase_erase (d : Dict) (k l : String) :
    Dict.erase (Dict.erase d k) l = Dict.erase (Dict.erase d l) k := by
  unfold Dict.erase
  rw [List.filter_filter, List.filter_filter]
  congr 1
  funext p
  exact Bool.and_comm _ _

theorem erase_set {d : Dict} {k l : String} {v : Val} (h : l ≠ k) :
    Dict.erase (Dict.set d l v) k = Dict.set (Dict.erase d k) l v := by
  induction d with
  | nil =>
    have : (l != k) = true := by simpa using h
    simp [Dict.set, Dict.erase, this]
  | cons p d ih =>
    obtain ⟨j, u⟩ := p
    have sc : ∀ d : Dict, Dict.set ((j, u) :: d) l v = if j = l then (j, v) :: d else (j, u) :: Dict.set d l v :=
      fun _ => rfl
    rw [sc]
    by_cases hj : j = l
    · subst hj
      have : (j != k) = true := by simpa using h
      simp [Dict.erase, this, Dict.set]
    · rw [if_neg hj]
      unfold Dict.erase at ih ⊢
      rw [List.filter_cons, List.filter_cons]
      by_cases hk : j = k
      · simp [hk, ih]
      · have : (j != k) = true := by simpa using hk
        simp only [this, if_true, ih]
        rw [sc, if_neg hj]

/-- Keywords a control behaviour class does not consume are passed on and do not matter. -/
theorem cbInit_erase {env : Env} {ctx : CbCtx} {m : Mx} {kw : Dict} {k : String} (hk : k ∉ cbKeysIn ctx m) :
    cbInit env ctx m (Dict.erase kw k) =
      (cbInit env ctx m kw).map (fun p => (p.1, Dict.erase p.2 k)) := by
  have gen : ∀ m : Mx, k ∉ cbKeys m →
      (do let a ← cbRead env ctx m (Dict.get? (Dict.erase kw k))
          return (a, eraseKeys (Dict.erase kw k) (cbKeys m)) : Except Exc (Attrs × Dict)) =
      (do let a ← cbRead env ctx m (Dict.get? kw)
          return (a, eraseKeys kw (cbKeys m)) : Except Exc (Attrs × Dict)).map
        (fun p => (p.1, Dict.erase p.2 k)) := by
    intro m hk
    rw [cbRead_congr (g' := Dict.get? kw) (fun k' hk' => get_erase_ne (by rintro rfl; exact hk hk'))]
    cases cbRead env ctx m (Dict.get? kw) with
    | error e => rfl
    | ok a =>
      show Except.ok _ = Except.ok _
      rw [erase_eraseKeys]
  by_cases hc : m = .Combinator
  · subst hc
    have hf : ctx.field ≠ k := by
      rintro rfl
      exact hk (by simp [cbKeysIn])
    show combinatorInit env ctx _ = (combinatorInit env ctx kw).map _
    unfold combinatorInit
    rw [getD_erase_ne hf]
    cases (Dict.getD kw ctx.field (.dict [])).asPopDict with
    | error e => rfl
    | ok cond =>
      simp only [ok_bind]
      rcases combinatorBody env ctx cond with ⟨_ | a, rest⟩
      · rfl
      · show Except.ok _ = Except.ok _
        dsimp only
        rw [erase_erase]
        split
        · rfl
        · rw [erase_set hf]
  · by_cases hd : m = .Decider
    · subst hd
      have hf : ctx.field ≠ k := by
        rintro rfl
        exact hk (by simp [cbKeysIn])
      show deciderInit ctx _ = (deciderInit ctx kw).map _
      unfold deciderInit Dict.getItem
      rw [get_erase_ne hf]
      cases Dict.get? kw ctx.field with
      | none => rfl
      | some v =>
        simp only [ok_bind]
        cases v.asPopDict with
        | error e => rfl
        | ok cond =>
          show Except.ok _ = Except.ok _
          dsimp only
          rw [erase_erase]
          split
          · rfl
          · rw [erase_set hf]
    · have h1 : cbInit env ctx m = fun kw => (do
          let a ← cbRead env ctx m (Dict.get? kw)
          return (a, eraseKeys kw (cbKeys m))) := by
        cases m <;> first | rfl | exact absurd rfl hc | exact absurd rfl hd
      have h2 : cbKeysIn ctx m = cbKeys m := by
        cases m <;> first | rfl | exact absurd rfl hc | exact absurd rfl hd
      rw [h1]
      exact gen m (by rw [← h2]; exact hk)

/-- What a control behaviour class does not consume stays. -/
theorem cbInit_get {env : Env} {ctx : CbCtx} {m : Mx} {kw kw' : Dict} {w : Attrs} {k : String}
    (hk : k ∉ cbKeysIn ctx m) (h : cbInit env ctx m kw = .ok (w, kw')) :
    Dict.get? kw' k = Dict.get? kw k := by
  have set_ne : ∀ {d : Dict} {l : String} {v : Val}, l ≠ k → Dict.get? (Dict.set d l v) k = Dict.get? d k := by
    intro d l v hl
    unfold Dict.get?
    rw [lookup_set, if_neg (Ne.symm hl)]
  by_cases hc : m = .Combinator
  · subst hc
    have hf : ctx.field ≠ k := by
      rintro rfl
      exact hk (by simp [cbKeysIn])
    have h : combinatorInit env ctx kw = .ok (w, kw') := h
    unfold combinatorInit at h
    simp only [bind_eq_ok] at h
    obtain ⟨cond, -, h⟩ := h
    split at h
    · cases h
    · cases h
      split
      · exact get_erase_ne (Ne.symm hf)
      · rw [set_ne hf, get_erase_ne (Ne.symm hf)]
  · by_cases hd : m = .Decider
    · subst hd
      have hf : ctx.field ≠ k := by
        rintro rfl
        exact hk (by simp [cbKeysIn])
      have h : deciderInit ctx kw = .ok (w, kw') := h
      unfold deciderInit at h
      simp only [bind_eq_ok, pure_eq_ok] at h
      obtain ⟨v, -, cond, -, h⟩ := h
      cases h
      split
      · exact get_erase_ne (Ne.symm hf)
      · rw [set_ne hf, get_erase_ne (Ne.symm hf)]
    · have h1 : cbInit env ctx m = fun kw => (do
          let a ← cbRead env ctx m (Dict.get? kw)
          return (a, eraseKeys kw (cbKeys m))) := by
        cases m <;> first | rfl | exact absurd rfl hc | exact absurd rfl hd
      have h2 : cbKeysIn ctx m = cbKeys m := by
        cases m <;> first | rfl | exact absurd rfl hc | exact absurd rfl hd
      rw [h1] at h
      simp only [bind_eq_ok, pure_eq_ok] at h
      obtain ⟨a, -, h⟩ := h
      cases h
      exact get_eraseKeys (by rw [← h2]; exact hk)

/-- A keyword that no control behaviour class of the chain consumes makes the constructor raise. -/
theorem cbInitChain_extra {env : Env} {ctx : CbCtx} {lo : Exc} {ms : List Mx} {kw : Dict} {a a' : Attrs}
    {k : String} {v : Val} (hs : ∀ m ∈ ms, cbStops m = false) (hk : ∀ m ∈ ms, k ∉ cbKeysIn ctx m)
    (hv : Dict.get? kw k = some v) (h : cbInitChain env ctx lo ms (Dict.erase kw k) a = .ok a') :
    cbInitChain env ctx lo ms kw a = .error lo := by
  induction ms generalizing kw a with
  | nil =>
    unfold cbInitChain
    simp [ne_nil_of_get hv]
  | cons m ms ih =>
    have hkm := hk m (List.mem_cons_self ..)
    unfold cbInitChain at h ⊢
    rw [cbInit_erase hkm] at h
    cases hc : cbInit env ctx m kw with
    | error e => rw [hc] at h; cases h
    | ok p =>
      obtain ⟨w, kw'⟩ := p
      rw [hc] at h
      simp only [Except.map] at h
      rw [hs m (List.mem_cons_self ..)] at h
      simp only [Bool.false_eq_true, if_false] at h
      dsimp only
      rw [hs m (List.mem_cons_self ..)]
      simp only [Bool.false_eq_true, if_false]
      exact ih (fun n hn => hs n (List.mem_cons_of_mem _ hn)) (fun n hn => hk n (List.mem_cons_of_mem _ hn))
        (by rw [cbInit_get hkm hc, hv]) h

/-- All settings of an accepted control behaviour are consumed by some class of the chain. -/
theorem cbInitChain_keys {env : Env} {ctx : CbCtx} {lo : Exc} {ms : List Mx} {kw : Dict} {a a' : Attrs}
    {k : String} {v : Val} (hs : ∀ m ∈ ms, cbStops m = false)
    (h : cbInitChain env ctx lo ms kw a = .ok a') (hv : Dict.get? kw k = some v) :
    ∃ m ∈ ms, k ∈ cbKeysIn ctx m := by
  induction ms generalizing kw a with
  | nil =>
    unfold cbInitChain at h
    rw [ne_nil_of_get hv] at h
    simp at h
  | cons m ms ih =>
    by_cases hm : k ∈ cbKeysIn ctx m
    · exact ⟨m, List.mem_cons_self .., hm⟩
    · unfold cbInitChain at h
      cases hc : cbInit env ctx m kw with
      | error e => rw [hc] at h; cases h
      | ok p =>
        obtain ⟨w, kw'⟩ := p
        rw [hc] at h
        dsimp only at h
        rw [hs m (List.mem_cons_self ..)] at h
        simp only [Bool.false_eq_true, if_false] at h
        obtain ⟨n, hn, hk⟩ := ih (fun n hn => hs n (List.mem_cons_of_mem _ hn)) h (by rw [cbInit_get hm hc, hv])
        exact ⟨n, List.mem_cons_of_mem _ hn, hk⟩

/-- A value that the owner of its keyword rejects makes the constructor raise that exception. -/
theorem cbInitChain_bad {env : Env} {ctx : CbCtx} {lo x : Exc} {ms : List Mx} {kw : Dict} {a a' : Attrs}
    {k : String} {v : Val} {m₀ : Mx} (hm₀ : m₀ ∈ ms) (hc : m₀ ≠ .Combinator) (hd : m₀ ≠ .Decider)
    (hs : ∀ m ∈ ms, m ≠ m₀ → cbStops m = false) (hk : ∀ m ∈ ms, m ≠ m₀ → k ∉ cbKeysIn ctx m)
    (hv : Dict.get? kw k = some v)
    (bad : ∀ g g' w, (∀ k', k' ≠ k → g k' = g' k') → g k = some v → g' k = none →
      cbRead env ctx m₀ g' = .ok w → cbRead env ctx m₀ g = .error x)
    (h : cbInitChain env ctx lo ms (Dict.erase kw k) a = .ok a') :
    cbInitChain env ctx lo ms kw a = .error x := by
  induction ms generalizing kw a with
  | nil => cases hm₀
  | cons m ms ih =>
    unfold cbInitChain at h ⊢
    by_cases hm : m = m₀
    · subst hm
      have h1 : cbInit env ctx m = fun kw => (do
          let a ← cbRead env ctx m (Dict.get? kw)
          return (a, eraseKeys kw (cbKeys m))) := by
        cases m <;> first | rfl | exact absurd rfl hc | exact absurd rfl hd
      rw [h1] at h ⊢
      dsimp only at h ⊢
      cases hr : cbRead env ctx m (Dict.get? (Dict.erase kw k)) with
      | error e => rw [hr] at h; cases h
      | ok w => rw [bad _ _ w (fun k' hk' => (get_erase_ne hk').symm) hv (get_erase_self _ _) hr]; rfl
    · have hkm := hk m (List.mem_cons_self ..) hm
      have hsm := hs m (List.mem_cons_self ..) hm
      rw [cbInit_erase hkm] at h
      cases hc : cbInit env ctx m kw with
      | error e => rw [hc] at h; cases h
      | ok p =>
        obtain ⟨w, kw'⟩ := p
        rw [hc] at h
        simp only [Except.map] at h
        rw [hsm] at h
        simp only [Bool.false_eq_true, if_false] at h
        dsimp only
        rw [hsm]
        simp only [Bool.false_eq_true, if_false]
        refine ih ?_ (fun n hn => hs n (List.mem_cons_of_mem _ hn))
          (fun n hn => hk n (List.mem_cons_of_mem _ hn)) (by rw [cbInit_get hkm hc, hv]) h
        rcases List.mem_cons.1 hm₀ with rfl | h
        · exact absurd rfl hm
        · exact h

/-! ## The conditions of combinators -/

/-- The key of a constant operand. -/
def constKey (ctx : CbCtx) (key : String) : String :=
  if ctx.type == "decider" && key == "first" then "constant" else key ++ "_constant"

theorem getFrom_get {ctx : CbCtx} {d : Dict} {key k : String} (h1 : k ≠ constKey ctx key)
    (h2 : k ≠ key ++ "_signal") : Dict.get? (getFrom ctx d key).2 k = Dict.get? d k := by
  unfold getFrom
  rw [← constKey]
  dsimp only
  split
  · split
    · rw [get_erase_ne h2, get_erase_ne h1]
    · rw [get_erase_ne h2, get_erase_ne h1]
  · rw [get_erase_ne h1]

/-- The keys the combinator takes from its conditions. -/
def condKeys (ctx : CbCtx) : List String :=
  [ctx.operator, constKey ctx "first", "first_signal", constKey ctx "second", "second_signal",
   constKey ctx "output", "output_signal"]

theorem combinatorBody_get {env : Env} {ctx : CbCtx} {cond rest : Dict} {r : Except Exc Attrs} {k : String}
    (h : combinatorBody env ctx cond = (r, rest)) (hk : k ∉ condKeys ctx) :
    Dict.get? rest k = Dict.get? cond k := by
  simp only [condKeys, List.mem_cons, List.not_mem_nil, or_false, not_or] at hk
  obtain ⟨k1, k2, k3, k4, k5, k6, k7⟩ := hk
  have g0 : Dict.get? (Dict.erase cond ctx.operator) k = Dict.get? cond k := get_erase_ne k1
  have g1 := fun d => getFrom_get (ctx := ctx) (d := d) (key := "first") k2 (show k ≠ _ from k3)
  have g2 := fun d => getFrom_get (ctx := ctx) (d := d) (key := "second") k4 (show k ≠ _ from k5)
  have g3 := fun d => getFrom_get (ctx := ctx) (d := d) (key := "output") k6 (show k ≠ _ from k7)
  unfold combinatorBody at h
  split at h
  · cases h; rfl
  · dsimp only at h
    split at h
    · cases h; exact g0
    · have e1 := g1 (Dict.erase cond ctx.operator)
      split at h
      · rename_i hf
        cases h
        rw [hf] at e1
        exact e1.trans g0
      · rename_i f c1 hf
        rw [hf] at e1
        have e1 := e1.trans g0
        split at h
        · cases h; exact e1
        · have e2 := g2 c1
          split at h
          · rename_i hf
            cases h
            rw [hf] at e2
            exact e2.trans e1
          · rename_i f c2 hf
            rw [hf] at e2
            have e2 := e2.trans e1
            split at h
            · cases h; exact e2
            · have e3 := g3 c2
              split at h
              · rename_i hf
                cases h
                rw [hf] at e3
                exact e3.trans e2
              · rename_i f c3 hf
                rw [hf] at e3
                have e3 := e3.trans e2
                split at h <;> (cases h; exact e3)

/-! ## The entity constructor -/

/-- The keywords with a fixed meaning in `Entity.__init__`. -/
def fixedKeys : List String :=
  ["self", "blueprint_layer", "name", "position", "strict", "direction", "entity_number", "connections",
   "control_behavior"]

namespace Entity

/-- What happens in the chain of mixins if one more keyword is passed decides the construction. -/
theorem new_erase {env : Env} {custom : Option Custom} {layer : Option BpId} {kw : Dict} {e : Entity} {k : String}
    {x : Exc} (hk : k ∉ fixedKeys) (h : new env custom layer (Dict.erase kw k) = .ok e)
    (hx : ∀ a, initChain env e.strict e.klass.insFiltersShadowed (leftoverExc env e.name) e.klass.chain false
        (Dict.erase (eraseKeys kw (ownKeys ++ ["connections", "control_behavior"])) k) [] = .ok a →
      initChain env e.strict e.klass.insFiltersShadowed (leftoverExc env e.name) e.klass.chain false
        (eraseKeys kw (ownKeys ++ ["connections", "control_behavior"])) [] = .error x) :
    new env custom layer kw = .error x := by
  simp only [fixedKeys, List.mem_cons, List.not_mem_nil, or_false, not_or] at hk
  obtain ⟨k1, k2, k3, k4, k5, k6, k7, k8, k9⟩ := hk
  obtain ⟨h1, h2, name, position, number, e', hn, hp, hnum, hs, hf⟩ := new_ok.1 h
  obtain ⟨pos, dir, cb, a, hpos, hdir, hcb, ha, rfl⟩ := finish_ok.1 hf
  rw [mem_erase_ne (Ne.symm k1)] at h1
  rw [mem_erase_ne (Ne.symm k2)] at h2
  rw [get_erase_ne (Ne.symm k3)] at hn
  rw [get_erase_ne (Ne.symm k4)] at hp
  rw [getD_erase_ne (Ne.symm k7)] at hnum
  rw [getD_erase_ne (Ne.symm k6)] at hdir
  have hs : setName env custom (raw0 layer kw number) name = (.ok (), e') := by
    rw [← hs]
    unfold raw0
    rw [getD_erase_ne (Ne.symm k5)]
  have hcb : cbOf env e' kw = .ok cb := by
    rw [← hcb]
    unfold cbOf
    rw [get_erase_ne (Ne.symm k9)]
  unfold new
  rw [h1, h2, hn, hp]
  simp only [Bool.or_self, Bool.false_eq_true, if_false, hnum]
  rw [raw0] at hs
  rw [hs]
  dsimp only
  unfold finish
  rw [hpos, hdir, hcb]
  simp only [ok_bind]
  rw [erase_eraseKeys] at ha
  rw [hx a ha]
  rfl

/-- A strict entity has a prototype with a type. -/
theorem new_leftover {env : Env} {custom : Option Custom} {layer : Option BpId} {kw : Dict} {e : Entity}
    (h : new env custom layer kw = .ok e) (hs : e.strict = true) : leftoverExc env e.name = .typeError := by
  obtain ⟨-, -, name, position, number, e', -, -, -, hn, hf⟩ := new_ok.1 h
  obtain ⟨pos, dir, cb, a, -, -, -, -, rfl⟩ := finish_ok.1 hf
  obtain ⟨s, rfl, ⟨h0, rfl⟩ | ⟨-, data, t, ms, kl, hd, ht, -, -, rfl⟩⟩ := setName_ok hn
  · have h0' : (raw0 layer kw number).strict = false := h0
    rw [show (_ : Bool) = (raw0 layer kw number).strict from rfl, h0'] at hs
    cases hs
  · unfold leftoverExc protoType Dict.getItem
    dsimp only
    rw [hd]
    simp only [ok_bind, ht]

/-- The same for the settings inside `control_behavior`. -/
theorem new_cb {env : Env} {custom : Option Custom} {layer : Option BpId} {kw d : Dict} {e : Entity} {k : String}
    {x : Exc} (hk : k ≠ "self") (hk' : k ≠ "_entity")
    (hcb : Dict.get? kw "control_behavior" = some (.dict d))
    (h : new env custom layer (Dict.set kw "control_behavior" (.dict (Dict.erase d k))) = .ok e)
    (hx : ∀ a, cbInitChain env e.klass.ctx (leftoverExc env e.name) e.klass.cbChain (Dict.erase d k) [] = .ok a →
      cbInitChain env e.klass.ctx (leftoverExc env e.name) e.klass.cbChain d [] = .error x) :
    new env custom layer kw = .error x := by
  have hg : ∀ l, l ≠ "control_behavior" →
      Dict.get? (Dict.set kw "control_behavior" (.dict (Dict.erase d k))) l = Dict.get? kw l := by
    intro l hl
    unfold Dict.get?
    rw [lookup_set, if_neg hl]
  have hgD : ∀ l v, l ≠ "control_behavior" →
      Dict.getD (Dict.set kw "control_behavior" (.dict (Dict.erase d k))) l v = Dict.getD kw l v := by
    intro l v hl
    unfold Dict.getD
    rw [hg l hl]
  have hm : ∀ l, l ≠ "control_behavior" →
      Dict.mem (Dict.set kw "control_behavior" (.dict (Dict.erase d k))) l = Dict.mem kw l := by
    intro l hl
    unfold Dict.mem
    rw [hg l hl]
  obtain ⟨h1, h2, name, position, number, e', hn, hp, hnum, hs, hf⟩ := new_ok.1 h
  obtain ⟨pos, dir, cb, a, hpos, hdir, hcb', ha, rfl⟩ := finish_ok.1 hf
  rw [hm _ (by decide)] at h1 h2
  rw [hg _ (by decide)] at hn hp
  rw [hgD _ _ (by decide)] at hnum hdir
  have hs : setName env custom (raw0 layer kw number) name = (.ok (), e') := by
    rw [← hs]
    unfold raw0
    rw [hgD _ _ (by decide)]
  have hcbs : Dict.get? (Dict.set kw "control_behavior" (.dict (Dict.erase d k))) "control_behavior" =
      some (.dict (Dict.erase d k)) := by
    unfold Dict.get?
    rw [lookup_set, if_pos rfl]
  have hcb2 : cbOf env e' kw = .error x := by
    unfold cbOf at hcb' ⊢
    rw [hcbs] at hcb'
    rw [hcb]
    simp only [bind_eq_ok, Cb.new, Val.kwargs, ok_bind] at hcb'
    obtain ⟨c, hc, -⟩ := hcb'
    simp only [Cb.new, Val.kwargs, ok_bind]
    rw [mem_erase_ne (Ne.symm hk), mem_erase_ne (Ne.symm hk')] at hc
    split at hc
    · cases hc
    · rename_i hn
      rw [if_neg hn]
      simp only [bind_eq_ok] at hc
      obtain ⟨a, ha, -⟩ := hc
      rw [hx a ha]
      rfl
  unfold new
  rw [h1, h2, hn, hp]
  simp only [Bool.or_self, Bool.false_eq_true, if_false, hnum]
  rw [raw0] at hs
  rw [hs]
  dsimp only
  unfold finish
  rw [hpos, hdir, hcb2]
  rfl

end Entity

end Verif
