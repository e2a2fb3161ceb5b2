import Verif.Proofs.Trip
/-!
# Helper lemmas: exported combinator settings are read again
-/
set_option autoImplicit false

namespace Verif

/-- The two entries that describe one operand: `c` under the key for constants, `s` under the one for
signals. -/
def OperandIs (env : Env) (c s : Option Val) (v : Val) : Prop :=
  (c = none ∧ s = none ∧ signalGet v = .none) ∨
  (∃ z, c = some (.int z) ∧ s = none ∧ signalGet v = .int z) ∨
  (∃ t j, c = none ∧ s = some j ∧ signalGet v = .str t ∧ signalJson env t = .ok j)

/-- The key under which `get_from` looks for a constant. -/
def readKey (ctx : CbCtx) (key : String) : String :=
  if ctx.type == "decider" && key == "first" then "constant" else key ++ "_constant"

/-- The key under which `set_to` writes a constant. -/
def writeKey (ctx : CbCtx) (key : String) : String :=
  if ctx.field == "decider_conditions" then "constant" else key ++ "_constant"

theorem getFrom_read {env : Env} {ctx : CbCtx} {d : Dict} {key : String} {v : Val}
    (hne : readKey ctx key ≠ key ++ "_signal")
    (h : OperandIs env (Dict.get? d (readKey ctx key)) (Dict.get? d (key ++ "_signal")) v) :
    ∃ x d' v', getFrom ctx d key = (.ok x, d') ∧ signalSet env x = .ok v' ∧ signalGet v' = signalGet v ∧
      Dict.get? d' (readKey ctx key) = none ∧ Dict.get? d' (key ++ "_signal") = none ∧
      ∀ k, k ≠ readKey ctx key → k ≠ key ++ "_signal" → Dict.get? d' k = Dict.get? d k := by
  have eq : getFrom ctx d key = (match Dict.getD d (readKey ctx key) .none with
    | .none => match Dict.getD (Dict.erase d (readKey ctx key)) (key ++ "_signal") .none with
      | .none => (.ok .none, Dict.erase (Dict.erase d (readKey ctx key)) (key ++ "_signal"))
      | v => (v.subscript "name", Dict.erase (Dict.erase d (readKey ctx key)) (key ++ "_signal"))
    | v => (.ok v, Dict.erase d (readKey ctx key))) := rfl
  have e1 : Dict.getD d (readKey ctx key) .none = (Dict.get? d (readKey ctx key)).getD .none := rfl
  have e2 : Dict.getD (Dict.erase d (readKey ctx key)) (key ++ "_signal") .none =
      (Dict.get? d (key ++ "_signal")).getD .none := by
    unfold Dict.getD
    rw [get_erase_ne hne.symm]
  have two : ∀ k, k ≠ readKey ctx key → k ≠ key ++ "_signal" →
      Dict.get? (Dict.erase (Dict.erase d (readKey ctx key)) (key ++ "_signal")) k = Dict.get? d k := by
    intro k h1 h2
    rw [get_erase_ne h2, get_erase_ne h1]
  have two1 : Dict.get? (Dict.erase (Dict.erase d (readKey ctx key)) (key ++ "_signal")) (readKey ctx key) = none := by
    rw [get_erase_ne hne, get_erase_self]
  rw [eq, e1, e2]
  rcases h with ⟨hc, hs, hv⟩ | ⟨z, hc, hs, hv⟩ | ⟨t, j, hc, hs, hv, hj⟩
  · rw [hc, hs, hv]
    exact ⟨_, _, .none, rfl, rfl, rfl, two1, get_erase_self .., two⟩
  · rw [hc, hv]
    refine ⟨_, _, .int z, rfl, rfl, rfl, get_erase_self .., ?_, fun k h1 _ => get_erase_ne h1⟩
    rw [get_erase_ne hne.symm, hs]
  · rw [hc, hs, hv]
    obtain ⟨hm, ty, rfl⟩ := signalJson_ok hj
    exact ⟨.str t, _, .str t, rfl, signalSet_str (.inr hm), rfl, two1, get_erase_self .., two⟩

theorem get_set_ne {d : Dict} {k k' : String} {v : Val} (h : k' ≠ k) : Dict.get? (Dict.set d k v) k' = Dict.get? d k' := by
  unfold Dict.get?
  rw [lookup_set, if_neg h]

theorem get_set_self (d : Dict) (k : String) (v : Val) : Dict.get? (Dict.set d k v) k = some v := by
  unfold Dict.get?
  rw [lookup_set, if_pos rfl]

theorem setTo_write {env : Env} {ctx : CbCtx} {s s' : Dict} {key : String} {v : Val}
    (h : setTo env ctx s key v = .ok s') (hr : (∃ z, signalGet v = .int z) → writeKey ctx key = readKey ctx key)
    (hne : readKey ctx key ≠ key ++ "_signal")
    (h1 : Dict.get? s (readKey ctx key) = none) (h2 : Dict.get? s (key ++ "_signal") = none) :
    OperandIs env (Dict.get? s' (readKey ctx key)) (Dict.get? s' (key ++ "_signal")) v ∧
      ∀ k, k ≠ readKey ctx key → k ≠ key ++ "_signal" → Dict.get? s' k = Dict.get? s k := by
  unfold setTo at h
  rcases signalGet_cases v with hv | ⟨z, hv⟩ | ⟨t, hv⟩
  · rw [hv] at h
    cases h
    exact ⟨.inl ⟨h1, h2, hv⟩, fun _ _ _ => rfl⟩
  · rw [hv] at h
    change Except.ok (Dict.set s (writeKey ctx key) (.int z)) = _ at h
    rw [hr ⟨z, hv⟩] at h
    cases h
    exact ⟨.inr (.inl ⟨z, get_set_self .., by rw [get_set_ne hne.symm, h2], hv⟩), fun k hk _ => get_set_ne hk⟩
  · rw [hv] at h
    simp only [bind_eq_ok, pure_eq_ok, Except.ok.injEq] at h
    obtain ⟨o, ho, rfl⟩ := h
    unfold objSetSignal at ho
    change (do return [(key ++ "_signal", ← signalJson env t)]) = _ at ho
    simp only [bind_eq_ok, pure_eq_ok, Except.ok.injEq] at ho
    obtain ⟨j, hj, rfl⟩ := ho
    refine ⟨.inr (.inr ⟨t, j, ?_, ?_, hv, hj⟩), fun k _ hk => get_set_ne hk⟩
    · exact (get_set_ne hne).trans h1
    · exact get_set_self ..

theorem setTo_congr {env : Env} {ctx : CbCtx} {s : Dict} {key : String} {v v' : Val} (h : signalGet v' = signalGet v) :
    setTo env ctx s key v' = setTo env ctx s key v := by
  unfold setTo
  rw [h]

theorem nil_of_get {d : Dict} (h : ∀ k, Dict.get? d k = none) : d = [] := by
  cases d with
  | nil => rfl
  | cons p d =>
    have := h p.1
    unfold Dict.get? at this
    rw [lookup_none_iff] at this
    exact absurd (List.mem_cons_self ..) this

/-- The keys of a conditions dict. -/
def tripKeys (ctx : CbCtx) : List String :=
  [ctx.operator, readKey ctx "first", "first" ++ "_signal", readKey ctx "second", "second" ++ "_signal",
    readKey ctx "output", "output" ++ "_signal"]

/-- Reading a conditions dict that consists of an operator and three operands. -/
theorem combinatorBody_read {env : Env} {ctx : CbCtx} {os : List String} {cond : Dict} {op f s o : Val}
    (hos : ctx.options = some os) (hn : (tripKeys ctx).Nodup)
    (hop : Dict.get? cond ctx.operator = some op) (hop' : operatorSet os op = .ok op)
    (hf : OperandIs env (Dict.get? cond (readKey ctx "first")) (Dict.get? cond ("first" ++ "_signal")) f)
    (hs : OperandIs env (Dict.get? cond (readKey ctx "second")) (Dict.get? cond ("second" ++ "_signal")) s)
    (ho : OperandIs env (Dict.get? cond (readKey ctx "output")) (Dict.get? cond ("output" ++ "_signal")) o)
    (hk : ∀ k, Dict.get? cond k ≠ none → k ∈ tripKeys ctx) :
    ∃ f' s' o', combinatorBody env ctx cond =
        (.ok [("operator", op), ("first", f'), ("second", s'), ("output", o')], []) ∧
      signalGet f' = signalGet f ∧ signalGet s' = signalGet s ∧ signalGet o' = signalGet o := by
  unfold tripKeys at hn
  simp only [List.nodup_cons, List.mem_cons, List.not_mem_nil, or_false, not_or, -String.reduceAppend] at hn
  obtain ⟨⟨n01, n02, n03, n04, n05, n06⟩, ⟨n12, n13, n14, n15, n16⟩, ⟨n23, n24, n25, n26⟩, ⟨n34, n35, n36⟩,
    ⟨n45, n46⟩, n56, -⟩ := hn
  have e1 := get_erase_ne (d := cond) (Ne.symm n01)
  have e2 := get_erase_ne (d := cond) (Ne.symm n02)
  rw [← e1, ← e2] at hf
  obtain ⟨x, d1, f', g1, sf, hf', z11, z12, r1⟩ := getFrom_read n12 hf
  have hs1 : OperandIs env (Dict.get? d1 (readKey ctx "second")) (Dict.get? d1 ("second" ++ "_signal")) s := by
    rw [r1 _ (Ne.symm n13) (Ne.symm n23), r1 _ (Ne.symm n14) (Ne.symm n24),
      get_erase_ne (Ne.symm n03), get_erase_ne (Ne.symm n04)]
    exact hs
  obtain ⟨y, d2, s', g2, ss, hs', z21, z22, r2⟩ := getFrom_read n34 hs1
  have ho1 : OperandIs env (Dict.get? d2 (readKey ctx "output")) (Dict.get? d2 ("output" ++ "_signal")) o := by
    rw [r2 _ (Ne.symm n35) (Ne.symm n45), r2 _ (Ne.symm n36) (Ne.symm n46),
      r1 _ (Ne.symm n15) (Ne.symm n25), r1 _ (Ne.symm n16) (Ne.symm n26),
      get_erase_ne (Ne.symm n05), get_erase_ne (Ne.symm n06)]
    exact ho
  obtain ⟨u, d3, o', g3, so, ho', z31, z32, r3⟩ := getFrom_read n56 ho1
  have hd3 : d3 = [] := by
    refine nil_of_get (fun k => ?_)
    by_cases k5 : k = readKey ctx "output"
    · rw [k5, z31]
    by_cases k6 : k = "output" ++ "_signal"
    · rw [k6, z32]
    rw [r3 k k5 k6]
    by_cases k3 : k = readKey ctx "second"
    · rw [k3, z21]
    by_cases k4 : k = "second" ++ "_signal"
    · rw [k4, z22]
    rw [r2 k k3 k4]
    by_cases k1 : k = readKey ctx "first"
    · rw [k1, z11]
    by_cases k2 : k = "first" ++ "_signal"
    · rw [k2, z12]
    rw [r1 k k1 k2]
    by_cases k0 : k = ctx.operator
    · rw [k0, get_erase_self]
    rw [get_erase_ne k0]
    cases hx : Dict.get? cond k with
    | none => rfl
    | some v =>
      have := hk k (by rw [hx]; exact fun h => by cases h)
      simp only [tripKeys, List.mem_cons, List.not_mem_nil, or_false, -String.reduceAppend] at this
      rcases this with h | h | h | h | h | h | h <;> contradiction
  refine ⟨f', s', o', ?_, hf', hs', ho'⟩
  unfold combinatorBody
  rw [hop, hos]
  dsimp only
  rw [hop']
  dsimp only
  rw [g1]
  dsimp only
  rw [sf]
  dsimp only
  rw [g2]
  dsimp only
  rw [ss]
  dsimp only
  rw [g3]
  dsimp only
  rw [so, hd3]

/-- Writing an operator and three operands. -/
theorem setTo_three {env : Env} {ctx : CbCtx} {op f s o : Val} {d1 d2 d3 : Dict}
    (hn : (tripKeys ctx).Nodup)
    (hw1 : (∃ z, signalGet f = .int z) → writeKey ctx "first" = readKey ctx "first")
    (hw2 : (∃ z, signalGet s = .int z) → writeKey ctx "second" = readKey ctx "second")
    (hw3 : (∃ z, signalGet o = .int z) → writeKey ctx "output" = readKey ctx "output")
    (h1 : setTo env ctx [(ctx.operator, op)] "first" f = .ok d1)
    (h2 : setTo env ctx d1 "second" s = .ok d2) (h3 : setTo env ctx d2 "output" o = .ok d3) :
    Dict.get? d3 ctx.operator = some op ∧
    OperandIs env (Dict.get? d3 (readKey ctx "first")) (Dict.get? d3 ("first" ++ "_signal")) f ∧
    OperandIs env (Dict.get? d3 (readKey ctx "second")) (Dict.get? d3 ("second" ++ "_signal")) s ∧
    OperandIs env (Dict.get? d3 (readKey ctx "output")) (Dict.get? d3 ("output" ++ "_signal")) o ∧
    ∀ k, Dict.get? d3 k ≠ none → k ∈ tripKeys ctx := by
  unfold tripKeys at hn ⊢
  simp only [List.nodup_cons, List.mem_cons, List.not_mem_nil, or_false, not_or, -String.reduceAppend] at hn
  obtain ⟨⟨n01, n02, n03, n04, n05, n06⟩, ⟨n12, n13, n14, n15, n16⟩, ⟨n23, n24, n25, n26⟩, ⟨n34, n35, n36⟩,
    ⟨n45, n46⟩, n56, -⟩ := hn
  have z : ∀ k, k ≠ ctx.operator → Dict.get? [(ctx.operator, op)] k = none := by
    intro k hk
    rw [get_single, if_neg hk]
  obtain ⟨o1, r1⟩ := setTo_write h1 hw1 n12 (z _ (Ne.symm n01)) (z _ (Ne.symm n02))
  obtain ⟨o2, r2⟩ := setTo_write h2 hw2 n34
    (by rw [r1 _ (Ne.symm n13) (Ne.symm n23), z _ (Ne.symm n03)])
    (by rw [r1 _ (Ne.symm n14) (Ne.symm n24), z _ (Ne.symm n04)])
  obtain ⟨o3, r3⟩ := setTo_write h3 hw3 n56
    (by rw [r2 _ (Ne.symm n35) (Ne.symm n45), r1 _ (Ne.symm n15) (Ne.symm n25), z _ (Ne.symm n05)])
    (by rw [r2 _ (Ne.symm n36) (Ne.symm n46), r1 _ (Ne.symm n16) (Ne.symm n26), z _ (Ne.symm n06)])
  refine ⟨?_, ?_, ?_, o3, ?_⟩
  · rw [r3 _ n05 n06, r2 _ n03 n04, r1 _ n01 n02, get_single, if_pos rfl]
  · rw [r3 _ n15 n16, r3 _ n25 n26, r2 _ n13 n14, r2 _ n23 n24]
    exact o1
  · rw [r3 _ n35 n36, r3 _ n45 n46]
    exact o2
  · intro k hk
    simp only [List.mem_cons, List.not_mem_nil, or_false, -String.reduceAppend]
    by_cases k5 : k = readKey ctx "output"
    · simp [k5]
    by_cases k6 : k = "output" ++ "_signal"
    · simp [k6]
    rw [r3 k k5 k6] at hk
    by_cases k3 : k = readKey ctx "second"
    · simp [k3]
    by_cases k4 : k = "second" ++ "_signal"
    · simp [k4]
    rw [r2 k k3 k4] at hk
    by_cases k1 : k = readKey ctx "first"
    · simp [k1]
    by_cases k2 : k = "first" ++ "_signal"
    · simp [k2]
    rw [r1 k k1 k2] at hk
    by_cases k0 : k = ctx.operator
    · exact .inl k0
    · exact absurd (z k k0) hk

theorem operatorSet_again {os : List String} {x op : Val} (h : operatorSet os x = .ok op) : operatorSet os op = .ok op := by
  unfold operatorSet at h
  split at h
  · cases h; rfl
  · split at h
    · cases h
      unfold operatorSet
      dsimp only
      rw [if_pos (by assumption)]
    · cases h
  · cases h

/-- What the body of the combinator constructor stores. -/
theorem combinatorBody_ok {env : Env} {ctx : CbCtx} {os : List String} {cond rest : Dict} {a : Attrs}
    (hos : ctx.options = some os) (h : combinatorBody env ctx cond = (.ok a, rest)) :
    ∃ op f s o, a = [("operator", op), ("first", f), ("second", s), ("output", o)] ∧ operatorSet os op = .ok op := by
  unfold combinatorBody at h
  rw [hos] at h
  dsimp only at h
  split at h
  · cases h
  · split at h
    · cases h
    · rename_i op hop
      refine ⟨op, ?_⟩
      repeat' split at h
      all_goals first | cases h; done | skip
      cases h
      exact ⟨_, _, _, rfl, operatorSet_again hop⟩

theorem cbInit_arithmetic (env : Env) (ctx : CbCtx) (kw : Dict) : cbInit env ctx .Arithmetic kw = .ok ([], kw) := by
  show Except.ok (([] : Attrs), eraseKeys kw []) = _
  unfold eraseKeys
  simp

theorem combinatorInit_ok {env : Env} {ctx : CbCtx} {os : List String} {kw kw' : Dict} {a : Attrs}
    (hos : ctx.options = some os) (h : combinatorInit env ctx kw = .ok (a, kw')) :
    ∃ op f s o, a = [("operator", op), ("first", f), ("second", s), ("output", o)] ∧ operatorSet os op = .ok op := by
  unfold combinatorInit at h
  simp only [bind_eq_ok] at h
  obtain ⟨cond, -, h⟩ := h
  split at h
  · cases h
  · rename_i hb
    cases h
    exact combinatorBody_ok hos hb

theorem operatorRead_eq {ctx : CbCtx} {a : Kw} {os : List String} (hos : ctx.options = some os) :
    operatorRead ctx a = if ctx.noOperator then .error .attributeError else .ok (a.orNone "operator") := by
  unfold operatorRead
  rw [hos]

theorem combinatorEmit_congr {env : Env} {ctx : CbCtx} {a a' : Kw} {obj : Dict} {os : List String}
    (hos : ctx.options = some os) (h0 : a' "operator" = a "operator")
    (h1 : signalGet (a'.orNone "first") = signalGet (a.orNone "first"))
    (h2 : signalGet (a'.orNone "second") = signalGet (a.orNone "second"))
    (h3 : signalGet (a'.orNone "output") = signalGet (a.orNone "output")) :
    combinatorEmit env ctx a' obj = combinatorEmit env ctx a obj := by
  unfold combinatorEmit
  rw [operatorRead_eq hos, operatorRead_eq hos]
  have e0 : a'.orNone "operator" = a.orNone "operator" := by unfold Kw.orNone; rw [h0]
  simp only [e0, setTo_congr h1, setTo_congr h2, setTo_congr h3]

theorem combinatorEmit_ok {env : Env} {ctx : CbCtx} {a : Kw} {obj obj' : Dict} {os : List String}
    (hos : ctx.options = some os) (h : combinatorEmit env ctx a obj = .ok obj') :
    ∃ d1 d2 d3 old, setTo env ctx [(ctx.operator, a.orNone "operator")] "first" (a.orNone "first") = .ok d1 ∧
      setTo env ctx d1 "second" (a.orNone "second") = .ok d2 ∧ setTo env ctx d2 "output" (a.orNone "output") = .ok d3 ∧
      (Dict.getD obj ctx.field (.dict [])).kwargs = .ok old ∧ obj' = Dict.set obj ctx.field (.dict (setAll d3 old)) := by
  unfold combinatorEmit at h
  rw [operatorRead_eq hos] at h
  simp only [bind_eq_ok, pure_eq_ok, Except.ok.injEq] at h
  obtain ⟨op, hop, d1, h1, d2, h2, d3, h3, old, h4, rfl⟩ := h
  split at hop
  · cases hop
  cases hop
  exact ⟨d1, d2, d3, old, h1, h2, h3, h4, rfl⟩

/-- An operand is a constant. -/
def IsConst (v : Val) : Prop := ∃ z, signalGet v = .int z

/-- The attributes of a combinator's control behaviour seen through their descriptors. -/
def SameOperands (a a' : Attrs) : Prop :=
  Dict.get? a' "operator" = Dict.get? a "operator" ∧
  (∀ k ∈ ["first", "second", "output"],
    signalGet ((Dict.get? a' k).getD .none) = signalGet ((Dict.get? a k).getD .none)) ∧
  Dict.get? a' "copy_count_from_input" = Dict.get? a "copy_count_from_input"

/-- The attributes of an arithmetic combinator's control behaviour. -/
def ArithShape (os : List String) (a : Attrs) : Prop :=
  ∃ op f s o, a = [("operator", op), ("first", f), ("second", s), ("output", o)] ∧ operatorSet os op = .ok op

/-- The attributes of a decider combinator's control behaviour. -/
def DeciderShape (os : List String) (a : Attrs) : Prop :=
  ∃ c op f s o, a = [("copy_count_from_input", c), ("operator", op), ("first", f), ("second", s), ("output", o)] ∧
    operatorSet os op = .ok op

theorem ArithShape.of_init {env : Env} {ctx : CbCtx} {os : List String} {lo : Exc} {kw : Dict} {a : Attrs}
    (hos : ctx.options = some os) (h : cbInitChain env ctx lo [.Arithmetic, .Combinator] kw [] = .ok a) : ArithShape os a := by
  have h' : (match combinatorInit env ctx kw with
      | .error e => .error e
      | .ok (w, kw) => if kw.isEmpty then .ok (setAll [] w) else .error lo : Except Exc Attrs) = .ok a := by
    rw [cbInitChain, cbInit_arithmetic] at h
    exact h
  split at h'
  · cases h'
  rename_i w kw' hi
  split at h'
  case isFalse => cases h'
  obtain ⟨op, f, s, o, rfl, hopn⟩ := combinatorInit_ok hos hi
  cases h'
  exact ⟨op, f, s, o, rfl, hopn⟩

theorem DeciderShape.of_init {env : Env} {ctx : CbCtx} {os : List String} {lo : Exc} {kw : Dict} {a : Attrs}
    (hos : ctx.options = some os) (h : cbInitChain env ctx lo [.Decider, .Combinator] kw [] = .ok a) : DeciderShape os a := by
  have h' : (match deciderInit ctx kw with
      | .error e => .error e
      | .ok (w, kw) => match combinatorInit env ctx kw with
        | .error e => .error e
        | .ok (w', kw) => if kw.isEmpty then .ok (setAll (setAll [] w) w') else .error lo : Except Exc Attrs) = .ok a := h
  split at h'
  · cases h'
  rename_i w kw' hd
  split at h'
  · cases h'
  rename_i w' kw'' hi
  split at h'
  case isFalse => cases h'
  obtain ⟨op, f, s, o, rfl, hopn⟩ := combinatorInit_ok hos hi
  have hw : ∃ c, w = [("copy_count_from_input", c)] := by
    unfold deciderInit at hd
    simp only [bind_eq_ok, pure_eq_ok, Except.ok.injEq, Prod.mk.injEq] at hd
    obtain ⟨_, _, _, _, rfl, _⟩ := hd
    exact ⟨_, rfl⟩
  obtain ⟨c, rfl⟩ := hw
  cases h'
  exact ⟨c, op, f, s, o, rfl, hopn⟩

/-- The attributes of a control behaviour, as the constructor and assignment leave them. -/
def CbShape (env : Env) (ctx : CbCtx) (ms : List Mx) (a : Attrs) : Prop :=
  (CbPlain ms → ∀ m ∈ ms, CbMade env ctx m (Dict.get? a)) ∧
  (ms = [.Arithmetic, .Combinator] → ∀ os, ctx.options = some os → ArithShape os a) ∧
  (ms = [.Decider, .Combinator] → ∀ os, ctx.options = some os → DeciderShape os a)

theorem CbShape.of_init {env : Env} {ctx : CbCtx} {lo : Exc} {ms : List Mx} {kw : Dict} {a : Attrs}
    (h : cbInitChain env ctx lo ms kw [] = .ok a) : CbShape env ctx ms a := by
  refine ⟨fun hp => cbInitChain_made hp h (fun _ _ _ _ => rfl), ?_, ?_⟩
  · rintro rfl os hos
    exact .of_init hos h
  · rintro rfl os hos
    exact .of_init hos h

theorem arithmetic_trip {env : Env} {ctx : CbCtx} {os : List String} {lo' : Exc} {a : Attrs} {obj : Dict}
    (ht : ctx.type = "arithmetic") (hop : ctx.operator = "operation") (hos : ctx.options = some os)
    (h : ArithShape os a)
    (he : cbEmitChain env ctx [.Arithmetic, .Combinator] (Dict.get? a) [] = .ok obj) :
    ∃ a', cbInitChain env ctx lo' [.Arithmetic, .Combinator] obj [] = .ok a' ∧
      cbEmitChain env ctx [.Arithmetic, .Combinator] (Dict.get? a') [] = .ok obj ∧ SameOperands a a' := by
  have hfield : ctx.field = "arithmetic_conditions" := by unfold CbCtx.field; rw [ht]; decide
  have hwr : ∀ k, writeKey ctx k = readKey ctx k := by
    intro k
    unfold writeKey readKey
    rw [hfield, ht]
    rfl
  have hn : (tripKeys ctx).Nodup := by
    unfold tripKeys readKey
    rw [hop, ht]
    decide
  obtain ⟨op, f, s, o, rfl, hopn⟩ := h
  have he' : (match combinatorEmit env ctx (Dict.get? [("operator", op), ("first", f), ("second", s), ("output", o)]) [] with
      | .error e => .error e
      | .ok obj => .ok obj : Except Exc Dict) = .ok obj := he
  split at he'
  · cases he'
  rename_i obj' hem
  cases he'
  obtain ⟨d1, d2, d3, old, h1, h2, h3, h4, rfl⟩ := combinatorEmit_ok hos hem
  cases h4
  obtain ⟨r0, r1, r2, r3, r4⟩ := setTo_three hn (fun _ => hwr _) (fun _ => hwr _) (fun _ => hwr _) h1 h2 h3
  obtain ⟨f', s', o', hb, ef, es, eo⟩ := combinatorBody_read hos hn r0 hopn r1 r2 r3 r4
  have eobj : Dict.set [] ctx.field (.dict (setAll d3 [])) = [(ctx.field, .dict d3)] := rfl
  rw [eobj] at hem ⊢
  have hinit : combinatorInit env ctx [(ctx.field, .dict d3)] =
      .ok ([("operator", op), ("first", f'), ("second", s'), ("output", o')], []) := by
    unfold combinatorInit
    have e1 : Dict.getD [(ctx.field, .dict d3)] ctx.field (.dict []) = .dict d3 := by
      unfold Dict.getD
      rw [get_single, if_pos rfl]
      rfl
    have e2 : Dict.erase [(ctx.field, .dict d3)] ctx.field = [] := by
      unfold Dict.erase
      simp
    rw [e1, e2]
    show (match combinatorBody env ctx d3 with
      | (.error e, _) => Except.error e
      | (.ok a, rest) => Except.ok (a, if rest.isEmpty then [] else Dict.set [] ctx.field (.dict rest))) = _
    rw [hb]
    rfl
  refine ⟨[("operator", op), ("first", f'), ("second", s'), ("output", o')], ?_, ?_, rfl, ?_, rfl⟩
  · rw [cbInitChain, cbInit_arithmetic]
    show (match combinatorInit env ctx [(ctx.field, .dict d3)] with
      | .error e => .error e
      | .ok (w, kw) => if kw.isEmpty then .ok (setAll [] w) else .error lo' : Except Exc Attrs) = _
    rw [hinit]
    rfl
  · show (match combinatorEmit env ctx (Dict.get? [("operator", op), ("first", f'), ("second", s'), ("output", o')]) [] with
      | .error e => .error e
      | .ok obj => .ok obj : Except Exc Dict) = _
    rw [combinatorEmit_congr (a' := Dict.get? [("operator", op), ("first", f'), ("second", s'), ("output", o')])
      (a := Dict.get? [("operator", op), ("first", f), ("second", s), ("output", o)])
      hos rfl ef es eo, hem]
  · intro k hk
    simp only [List.mem_cons, List.not_mem_nil, or_false] at hk
    rcases hk with rfl | rfl | rfl
    · exact ef
    · exact es
    · exact eo

theorem decider_trip {env : Env} {ctx : CbCtx} {os : List String} {lo' : Exc} {a : Attrs} {obj : Dict}
    (ht : ctx.type = "decider") (hop : ctx.operator = "comparator") (hos : ctx.options = some os)
    (h : DeciderShape os a)
    (he : cbEmitChain env ctx [.Decider, .Combinator] (Dict.get? a) [] = .ok obj)
    (hc1 : ¬ IsConst ((Dict.get? a "second").getD .none)) (hc2 : ¬ IsConst ((Dict.get? a "output").getD .none)) :
    ∃ a', cbInitChain env ctx lo' [.Decider, .Combinator] obj [] = .ok a' ∧
      cbEmitChain env ctx [.Decider, .Combinator] (Dict.get? a') [] = .ok obj ∧ SameOperands a a' := by
  have hfield : ctx.field = "decider_conditions" := by unfold CbCtx.field; rw [ht]; decide
  have hwr : writeKey ctx "first" = readKey ctx "first" := by
    unfold writeKey readKey
    rw [hfield, ht]
    rfl
  have hn : (tripKeys ctx).Nodup := by
    unfold tripKeys readKey
    rw [hop, ht]
    decide
  have hcopy : "copy_count_from_input" ∉ tripKeys ctx := by
    unfold tripKeys readKey
    rw [hop, ht]
    decide
  obtain ⟨c, op, f, s, o, rfl, hopn⟩ := h
  have hdec : ∀ f s o, deciderEmit ctx (Dict.get? [("copy_count_from_input", c), ("operator", op), ("first", f),
      ("second", s), ("output", o)]) [] = .ok [(ctx.field, .dict [("copy_count_from_input", c)])] := fun _ _ _ => rfl
  have he' : (match deciderEmit ctx (Dict.get? [("copy_count_from_input", c), ("operator", op), ("first", f),
      ("second", s), ("output", o)]) [] with
      | .error e => .error e
      | .ok obj1 => match combinatorEmit env ctx (Dict.get? [("copy_count_from_input", c), ("operator", op),
          ("first", f), ("second", s), ("output", o)]) obj1 with
        | .error e => .error e
        | .ok obj => .ok obj : Except Exc Dict) = .ok obj := he
  rw [hdec] at he'
  dsimp only at he'
  split at he'
  · cases he'
  rename_i obj' hem
  cases he'
  obtain ⟨d1, d2, d3, old, h1, h2, h3, h4, rfl⟩ := combinatorEmit_ok hos hem
  have e1 : ∀ d : Dict, Dict.getD [(ctx.field, .dict d)] ctx.field (.dict []) = .dict d := by
    intro d
    unfold Dict.getD
    rw [get_single, if_pos rfl]
    rfl
  have e2 : ∀ v, Dict.erase [(ctx.field, v)] ctx.field = [] := by
    intro v
    unfold Dict.erase
    simp
  rw [e1] at h4
  cases h4
  obtain ⟨r0, r1, r2, r3, r4⟩ := setTo_three hn (fun _ => hwr) (fun hx => absurd hx hc1) (fun hx => absurd hx hc2) h1 h2 h3
  have eobj : ∀ d : Dict, Dict.set [(ctx.field, .dict [("copy_count_from_input", c)])] ctx.field
      (.dict d) = [(ctx.field, .dict d)] := by
    intro d
    simp [Dict.set]
  rw [eobj] at hem ⊢
  have eset : setAll d3 [("copy_count_from_input", c)] = Dict.set d3 "copy_count_from_input" c := rfl
  rw [eset] at hem ⊢
  have hcond : ∀ k, Dict.get? (Dict.erase (Dict.set d3 "copy_count_from_input" c) "copy_count_from_input") k =
      Dict.get? d3 k := by
    intro k
    by_cases hk : k = "copy_count_from_input"
    · subst hk
      rw [get_erase_self]
      cases hx : Dict.get? d3 "copy_count_from_input" with
      | none => rfl
      | some v => exact absurd (r4 _ (by rw [hx]; exact fun h => by cases h)) hcopy
    · rw [get_erase_ne hk, get_set_ne hk]
  obtain ⟨f', s', o', hb, ef, es, eo⟩ := combinatorBody_read
    (cond := Dict.erase (Dict.set d3 "copy_count_from_input" c) "copy_count_from_input")
    hos hn (by rw [hcond]; exact r0) hopn (by rw [hcond, hcond]; exact r1) (by rw [hcond, hcond]; exact r2)
    (by rw [hcond, hcond]; exact r3) (fun k => by rw [hcond]; exact r4 k)
  have hne : (Dict.erase (Dict.set d3 "copy_count_from_input" c) "copy_count_from_input").isEmpty = false := by
    cases hx : Dict.erase (Dict.set d3 "copy_count_from_input" c) "copy_count_from_input" with
    | nil =>
      have := hcond ctx.operator
      rw [hx, r0] at this
      cases this
    | cons _ _ => rfl
  have hdi : deciderInit ctx [(ctx.field, .dict (Dict.set d3 "copy_count_from_input" c))] =
      .ok ([("copy_count_from_input", c)],
        [(ctx.field, .dict (Dict.erase (Dict.set d3 "copy_count_from_input" c) "copy_count_from_input"))]) := by
    unfold deciderInit
    have g1 : Dict.getItem [(ctx.field, .dict (Dict.set d3 "copy_count_from_input" c))] ctx.field =
        .ok (.dict (Dict.set d3 "copy_count_from_input" c)) := by
      rw [lookup_getItem]
      exact (get_single ..).trans (if_pos rfl)
    have g2 : Dict.getD (Dict.set d3 "copy_count_from_input" c) "copy_count_from_input" (.bool false) = c := by
      unfold Dict.getD
      rw [get_set_self]
      rfl
    rw [g1]
    show Except.ok ([("copy_count_from_input", Dict.getD (Dict.set d3 "copy_count_from_input" c) "copy_count_from_input" (.bool false))],
      if (Dict.erase (Dict.set d3 "copy_count_from_input" c) "copy_count_from_input").isEmpty then _ else _) = _
    rw [g2, hne, e2]
    rfl
  have hinit : combinatorInit env ctx
      [(ctx.field, .dict (Dict.erase (Dict.set d3 "copy_count_from_input" c) "copy_count_from_input"))] =
      .ok ([("operator", op), ("first", f'), ("second", s'), ("output", o')], []) := by
    unfold combinatorInit
    rw [e1, e2]
    show (match combinatorBody env ctx (Dict.erase (Dict.set d3 "copy_count_from_input" c) "copy_count_from_input") with
      | (.error e, _) => Except.error e
      | (.ok a, rest) => Except.ok (a, if rest.isEmpty then [] else Dict.set [] ctx.field (.dict rest))) = _
    rw [hb]
    rfl
  refine ⟨[("copy_count_from_input", c), ("operator", op), ("first", f'), ("second", s'), ("output", o')],
    ?_, ?_, rfl, ?_, rfl⟩
  · show (match deciderInit ctx _ with
      | .error e => .error e
      | .ok (w, kw) => match combinatorInit env ctx kw with
        | .error e => .error e
        | .ok (w', kw) => if kw.isEmpty then .ok (setAll (setAll [] w) w') else .error lo' : Except Exc Attrs) = _
    rw [hdi]
    dsimp only
    rw [hinit]
    rfl
  · show (match deciderEmit ctx (Dict.get? [("copy_count_from_input", c), ("operator", op), ("first", f'),
      ("second", s'), ("output", o')]) [] with
      | .error e => .error e
      | .ok obj1 => match combinatorEmit env ctx (Dict.get? [("copy_count_from_input", c), ("operator", op),
          ("first", f'), ("second", s'), ("output", o')]) obj1 with
        | .error e => .error e
        | .ok obj => .ok obj : Except Exc Dict) = _
    rw [hdec]
    dsimp only
    rw [combinatorEmit_congr (a' := Dict.get? [("copy_count_from_input", c), ("operator", op), ("first", f'),
      ("second", s'), ("output", o')]) (a := Dict.get? [("copy_count_from_input", c), ("operator", op), ("first", f),
      ("second", s), ("output", o)]) hos rfl ef es eo, hem]
  · intro k hk
    simp only [List.mem_cons, List.not_mem_nil, or_false] at hk
    rcases hk with rfl | rfl | rfl
    · exact ef
    · exact es
    · exact eo

/-! ## Constants that are not read back -/

theorem get_erase_none {d : Dict} {k k' : String} (h : Dict.get? d k = none) : Dict.get? (Dict.erase d k') k = none := by
  by_cases hk : k = k'
  · rw [hk, get_erase_self]
  · rw [get_erase_ne hk, h]

theorem getFrom_gone {ctx : CbCtx} {d : Dict} {key k : String} (h : Dict.get? d k = none) :
    Dict.get? (getFrom ctx d key).2 k = none := by
  unfold getFrom
  dsimp only
  repeat' split
  all_goals first | exact get_erase_none (get_erase_none h) | exact get_erase_none h

theorem getFrom_none {ctx : CbCtx} {d : Dict} {key : String} (h1 : Dict.get? d (readKey ctx key) = none)
    (h2 : Dict.get? d (key ++ "_signal") = none) : (getFrom ctx d key).1 = .ok .none := by
  have eq : getFrom ctx d key = (match Dict.getD d (readKey ctx key) .none with
    | .none => match Dict.getD (Dict.erase d (readKey ctx key)) (key ++ "_signal") .none with
      | .none => (.ok .none, Dict.erase (Dict.erase d (readKey ctx key)) (key ++ "_signal"))
      | v => (v.subscript "name", Dict.erase (Dict.erase d (readKey ctx key)) (key ++ "_signal"))
    | v => (.ok v, Dict.erase d (readKey ctx key))) := rfl
  have e1 : Dict.getD d (readKey ctx key) .none = .none := by unfold Dict.getD; rw [h1]; rfl
  have e2 : Dict.getD (Dict.erase d (readKey ctx key)) (key ++ "_signal") .none = .none := by
    unfold Dict.getD
    rw [get_erase_none h2]
    rfl
  rw [eq, e1]
  dsimp only
  rw [e2]

theorem setTo_other {env : Env} {ctx : CbCtx} {s s' : Dict} {key k : String} {v : Val}
    (h : setTo env ctx s key v = .ok s') (h1 : k ≠ writeKey ctx key) (h2 : IsConst v ∨ k ≠ key ++ "_signal") :
    Dict.get? s' k = Dict.get? s k := by
  unfold setTo at h
  rcases signalGet_cases v with hv | ⟨z, hv⟩ | ⟨t, hv⟩
  · rw [hv] at h
    cases h
    rfl
  · rw [hv] at h
    change Except.ok (Dict.set s (writeKey ctx key) (.int z)) = _ at h
    cases h
    exact get_set_ne h1
  · rw [hv] at h
    simp only [bind_eq_ok, pure_eq_ok, Except.ok.injEq] at h
    obtain ⟨o, ho, rfl⟩ := h
    unfold objSetSignal at ho
    change (do return [(key ++ "_signal", ← signalJson env t)]) = _ at ho
    simp only [bind_eq_ok, pure_eq_ok, Except.ok.injEq] at ho
    obtain ⟨j, hj, rfl⟩ := ho
    refine get_set_ne ?_
    rcases h2 with ⟨z, hz⟩ | h2
    · rw [hv] at hz; cases hz
    · exact h2

/-- A constant as the second or the output operand of a decider combinator is not read back. -/
theorem decider_lost {env : Env} {ctx : CbCtx} {os : List String} {lo' : Exc} {a a' : Attrs} {obj : Dict}
    (ht : ctx.type = "decider") (hop : ctx.operator = "comparator") (hos : ctx.options = some os)
    (he : cbEmitChain env ctx [.Decider, .Combinator] (Dict.get? a) [] = .ok obj)
    (h' : cbInitChain env ctx lo' [.Decider, .Combinator] obj [] = .ok a')
    (k : String) (hk : k = "second" ∨ k = "output") (hc : IsConst ((Dict.get? a k).getD .none)) :
    signalGet ((Dict.get? a' k).getD .none) = .none := by
  have hfield : ctx.field = "decider_conditions" := by unfold CbCtx.field; rw [ht]; decide
  have hwr : ∀ k, writeKey ctx k = "constant" := by
    intro k
    unfold writeKey
    rw [hfield]
    rfl
  have hrd : readKey ctx k = k ++ "_constant" := by
    unfold readKey
    rw [ht]
    rcases hk with rfl | rfl <;> rfl
  -- what is exported
  have hx : ∃ d3 c, obj = [(ctx.field, .dict (Dict.set d3 "copy_count_from_input" c))] ∧
      Dict.get? d3 (k ++ "_constant") = none ∧ Dict.get? d3 (k ++ "_signal") = none := by
    have hm : (match deciderEmit ctx (Dict.get? a) [] with
        | .error e => .error e
        | .ok obj1 => match combinatorEmit env ctx (Dict.get? a) obj1 with
          | .error e => .error e
          | .ok obj => .ok obj : Except Exc Dict) = .ok obj := he
    split at hm
    · cases hm
    rename_i o1 ho1
    have ho1' : ∃ c, o1 = [(ctx.field, .dict [("copy_count_from_input", c)])] := by
      change (do let c ← attr (Dict.get? a) "copy_count_from_input"
                 return Dict.set [] ctx.field (.dict (Dict.set [] "copy_count_from_input" c))) = _ at ho1
      simp only [bind_eq_ok, pure_eq_ok, Except.ok.injEq] at ho1
      obtain ⟨c, -, rfl⟩ := ho1
      exact ⟨c, rfl⟩
    obtain ⟨c, rfl⟩ := ho1'
    split at hm
    · cases hm
    rename_i o2 ho2
    cases hm
    obtain ⟨d1, d2, d3, old, h1, h2, h3, h4, rfl⟩ := combinatorEmit_ok hos ho2
    have e1 : Dict.getD [(ctx.field, .dict [("copy_count_from_input", c)])] ctx.field (.dict []) =
        .dict [("copy_count_from_input", c)] := by
      unfold Dict.getD
      rw [get_single, if_pos rfl]
      rfl
    rw [e1] at h4
    cases h4
    refine ⟨d3, c, by simp [Dict.set]; rfl, ?_, ?_⟩
    · rw [setTo_other h3 (by rw [hwr]; rcases hk with rfl | rfl <;> decide) (.inr (by rcases hk with rfl | rfl <;> decide)),
        setTo_other h2 (by rw [hwr]; rcases hk with rfl | rfl <;> decide) (.inr (by rcases hk with rfl | rfl <;> decide)),
        setTo_other h1 (by rw [hwr]; rcases hk with rfl | rfl <;> decide) (.inr (by rcases hk with rfl | rfl <;> decide)),
        get_single, if_neg]
      rw [hop]
      rcases hk with rfl | rfl <;> decide
    · have hs : ∀ x, k ++ "_signal" ≠ writeKey ctx x := by
        intro x
        rw [hwr]
        rcases hk with rfl | rfl <;> decide
      rw [setTo_other h3 (hs _) (by rcases hk with rfl | rfl <;> first | exact .inl hc | exact .inr (by decide)),
        setTo_other h2 (hs _) (by rcases hk with rfl | rfl <;> first | exact .inl hc | exact .inr (by decide)),
        setTo_other h1 (hs _) (.inr (by rcases hk with rfl | rfl <;> decide)), get_single, if_neg]
      rw [hop]
      rcases hk with rfl | rfl <;> decide
  obtain ⟨d3, c, rfl, g1, g2⟩ := hx
  -- what is read
  have hr : (match deciderInit ctx [(ctx.field, .dict (Dict.set d3 "copy_count_from_input" c))] with
      | .error e => .error e
      | .ok (w, kw) => match combinatorInit env ctx kw with
        | .error e => .error e
        | .ok (w', kw) => if kw.isEmpty then .ok (setAll (setAll [] w) w') else .error lo' : Except Exc Attrs) = .ok a' := h'
  split at hr
  · cases hr
  rename_i w kw' hd
  split at hr
  · cases hr
  rename_i w' kw'' hi
  split at hr
  case isFalse => cases hr
  cases hr
  have hd' : ∃ v, w = [("copy_count_from_input", v)] ∧ ∀ k x, Dict.getD kw' ctx.field (.dict []) = .dict x →
      Dict.get? (Dict.set d3 "copy_count_from_input" c) k = none → Dict.get? x k = none := by
    unfold deciderInit at hd
    simp only [bind_eq_ok, pure_eq_ok, Except.ok.injEq, Prod.mk.injEq] at hd
    obtain ⟨y, hy, cond, hc', rfl, rfl⟩ := hd
    rw [lookup_getItem] at hy
    have : y = .dict (Dict.set d3 "copy_count_from_input" c) := by
      have := hy.symm.trans ((get_single ..).trans (if_pos rfl))
      injection this
    subst this
    cases hc'
    refine ⟨_, rfl, ?_⟩
    intro k x hx hn
    have e2 : ∀ v, Dict.erase [(ctx.field, v)] ctx.field = [] := by
      intro v
      unfold Dict.erase
      simp
    rw [e2] at hx
    split at hx
    · cases hx; rfl
    · unfold Dict.getD at hx
      rw [get_set_self] at hx
      cases hx
      exact get_erase_none hn
  obtain ⟨v, rfl, hd'⟩ := hd'
  unfold combinatorInit at hi
  simp only [bind_eq_ok] at hi
  obtain ⟨cond, hcond, hi⟩ := hi
  have hcond' : Dict.getD kw' ctx.field (.dict []) = .dict cond := by
    revert hcond
    cases Dict.getD kw' ctx.field (.dict []) <;> intro hcond <;> cases hcond
    rfl
  have hne : ∀ t, t = "_constant" ∨ t = "_signal" → k ++ t ≠ "copy_count_from_input" := by
    rintro t (rfl | rfl) <;> rcases hk with rfl | rfl <;> decide
  have c1 := hd' (k ++ "_constant") cond hcond' (by rw [get_set_ne (hne _ (.inl rfl)), g1])
  have c2 := hd' (k ++ "_signal") cond hcond' (by rw [get_set_ne (hne _ (.inr rfl)), g2])
  split at hi
  · cases hi
  rename_i a1 rest hb
  cases hi
  unfold combinatorBody at hb
  rw [hos] at hb
  dsimp only at hb
  split at hb
  · cases hb
  split at hb
  · cases hb
  have none_of : ∀ {x v : Val}, x = .none → signalSet env x = .ok v → signalGet v = .none := by
    rintro _ v rfl hv
    cases hv
    rfl
  split at hb
  · cases hb
  rename_i f cf hf
  split at hb
  · cases hb
  rename_i f' hf'
  split at hb
  · cases hb
  rename_i s cs hs
  split at hb
  · cases hb
  rename_i s' hs'
  split at hb
  · cases hb
  rename_i o co ho
  split at hb
  · cases hb
  rename_i o' ho'
  cases hb
  have cf1 := congrArg Prod.snd hf
  have cs1 := congrArg Prod.snd hs
  dsimp only at cf1 cs1
  have one : ∀ t, Dict.get? cond t = none → Dict.get? cf t = none := fun t ht => by
    rw [← cf1]; exact getFrom_gone (get_erase_none ht)
  have two : ∀ t, Dict.get? cond t = none → Dict.get? cs t = none := fun t ht => by
    rw [← cs1]; exact getFrom_gone (one t ht)
  rcases hk with rfl | rfl
  · have : (getFrom ctx cf "second").1 = .ok .none := getFrom_none (by rw [hrd]; exact one _ c1) (one _ c2)
    rw [hs] at this
    exact none_of (by cases this; rfl) hs'
  · have : (getFrom ctx cs "output").1 = .ok .none := getFrom_none (by rw [hrd]; exact two _ c1) (two _ c2)
    rw [ho] at this
    exact none_of (by cases this; rfl) ho'

theorem getFrom_kept {ctx : CbCtx} {d : Dict} {key k : String} (h1 : k ≠ readKey ctx key) (h2 : k ≠ key ++ "_signal") :
    Dict.get? (getFrom ctx d key).2 k = Dict.get? d k := by
  have eq : getFrom ctx d key = (match Dict.getD d (readKey ctx key) .none with
    | .none => match Dict.getD (Dict.erase d (readKey ctx key)) (key ++ "_signal") .none with
      | .none => (.ok .none, Dict.erase (Dict.erase d (readKey ctx key)) (key ++ "_signal"))
      | v => (v.subscript "name", Dict.erase (Dict.erase d (readKey ctx key)) (key ++ "_signal"))
    | v => (.ok v, Dict.erase d (readKey ctx key))) := rfl
  rw [eq]
  repeat' split
  all_goals first | (show Dict.get? (Dict.erase (Dict.erase _ _) _) k = _; rw [get_erase_ne h2, get_erase_ne h1]) | exact get_erase_ne h1

theorem getFrom_const {ctx : CbCtx} {d : Dict} {key : String} {v : Val} (h : Dict.get? d (readKey ctx key) = some v)
    (hv : v ≠ .none) : (getFrom ctx d key).2 = Dict.erase d (readKey ctx key) := by
  have eq : getFrom ctx d key = (match Dict.getD d (readKey ctx key) .none with
    | .none => match Dict.getD (Dict.erase d (readKey ctx key)) (key ++ "_signal") .none with
      | .none => (.ok .none, Dict.erase (Dict.erase d (readKey ctx key)) (key ++ "_signal"))
      | v => (v.subscript "name", Dict.erase (Dict.erase d (readKey ctx key)) (key ++ "_signal"))
    | v => (.ok v, Dict.erase d (readKey ctx key))) := rfl
  rw [eq]
  have : Dict.getD d (readKey ctx key) .none = v := by unfold Dict.getD; rw [h]; rfl
  rw [this]
  split
  · exact absurd rfl hv
  · rfl

/-- A decider condition with a first signal and a `constant` is refused. -/
theorem decider_refused {env : Env} {ctx : CbCtx} {os : List String} {lo : Exc} {kw cond : Dict} {a : Attrs} {v : Val}
    (ht : ctx.type = "decider") (hop : ctx.operator = "comparator") (hos : ctx.options = some os)
    (hc : Dict.get? kw "decider_conditions" = some (.dict cond)) (h1 : Dict.get? cond "first_signal" ≠ none)
    (h2 : Dict.get? cond "constant" = some v) (hv : v ≠ .none) :
    cbInitChain env ctx lo [.Decider, .Combinator] kw [] ≠ .ok a := by
  intro h
  have hfield : ctx.field = "decider_conditions" := by unfold CbCtx.field; rw [ht]; decide
  have hrd1 : readKey ctx "first" = "constant" := by unfold readKey; rw [ht]; rfl
  have hrd2 : readKey ctx "second" = "second_constant" := by unfold readKey; rw [ht]; rfl
  have hrd3 : readKey ctx "output" = "output_constant" := by unfold readKey; rw [ht]; rfl
  have hr : (match deciderInit ctx kw with
      | .error e => .error e
      | .ok (w, kw) => match combinatorInit env ctx kw with
        | .error e => .error e
        | .ok (w', kw) => if kw.isEmpty then .ok (setAll (setAll [] w) w') else .error lo : Except Exc Attrs) = .ok a := h
  split at hr
  · cases hr
  rename_i w kw' hd
  split at hr
  · cases hr
  rename_i w' kw'' hi
  split at hr
  case isFalse => cases hr
  rename_i hemp
  have hd' : ∃ x, Dict.getD kw' ctx.field (.dict []) = .dict x ∧
      ∀ k, k ≠ "copy_count_from_input" → Dict.get? x k = Dict.get? cond k := by
    unfold deciderInit at hd
    simp only [bind_eq_ok, pure_eq_ok, Except.ok.injEq, Prod.mk.injEq] at hd
    obtain ⟨y, hy, cond', hc', rfl, rfl⟩ := hd
    rw [lookup_getItem, hfield] at hy
    have : y = .dict cond := by
      have := hy.symm.trans hc
      injection this
    subst this
    cases hc'
    have hne : (Dict.erase cond "copy_count_from_input").isEmpty = false := by
      cases hx : Dict.erase cond "copy_count_from_input" with
      | nil =>
        have := get_erase_ne (d := cond) (k' := "first_signal") (k := "copy_count_from_input") (by decide)
        rw [hx] at this
        exact absurd this.symm h1
      | cons _ _ => rfl
    refine ⟨Dict.erase cond "copy_count_from_input", ?_, fun k hk => get_erase_ne hk⟩
    rw [hne]
    unfold Dict.getD
    simp only [Bool.false_eq_true, if_false]
    rw [get_set_self]
    rfl
  obtain ⟨x, hx, hcond⟩ := hd'
  unfold combinatorInit at hi
  simp only [bind_eq_ok] at hi
  obtain ⟨cond', hcond', hi⟩ := hi
  rw [hx] at hcond'
  cases hcond'
  split at hi
  · cases hi
  rename_i a1 rest hb
  have hrest : Dict.get? rest "first_signal" ≠ none := by
    unfold combinatorBody at hb
    rw [hos] at hb
    dsimp only at hb
    split at hb
    · cases hb
    split at hb
    · cases hb
    split at hb
    · cases hb
    rename_i f cf hf
    split at hb
    · cases hb
    split at hb
    · cases hb
    rename_i s cs hs
    split at hb
    · cases hb
    split at hb
    · cases hb
    rename_i o co ho
    split at hb
    · cases hb
    cases hb
    have ef := congrArg Prod.snd hf
    have es := congrArg Prod.snd hs
    have eo := congrArg Prod.snd ho
    dsimp only at ef es eo
    rw [← eo, getFrom_kept (by rw [hrd3]; decide) (by decide), ← es, getFrom_kept (by rw [hrd2]; decide) (by decide),
      ← ef, getFrom_const (v := v) (by rw [hrd1, hop, get_erase_ne (by decide), hcond _ (by decide)]; exact h2) hv,
      hrd1, hop, get_erase_ne (by decide), get_erase_ne (by decide), hcond _ (by decide)]
    exact h1
  have hne : rest.isEmpty = false := by
    cases rest with
    | nil => exact absurd rfl hrest
    | cons _ _ => rfl
  rw [hne] at hi
  cases hi
  have := get_set_self (Dict.erase kw' ctx.field) ctx.field (.dict rest)
  simp only [Bool.false_eq_true, if_false] at hemp
  cases hy : Dict.set (Dict.erase kw' ctx.field) ctx.field (.dict rest) with
  | nil => rw [hy] at this; cases this
  | cons _ _ => rw [hy] at hemp; cases hemp

end Verif
