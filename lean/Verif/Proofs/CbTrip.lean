import Verif.Proofs.MxTrip
import Verif.Proofs.WireExport
/-!
# Helper lemmas: what a control behaviour writes, it reads again
-/
set_option autoImplicit false

namespace Verif

/-! ## Signals -/

theorem signalGet_cases (v : Val) :
    signalGet v = .none ∨ (∃ z, signalGet v = .int z) ∨ ∃ s, signalGet v = .str s := by
  cases v with
  | num n => cases n with
    | int z => exact .inr (.inl ⟨z, rfl⟩)
    | flt q => exact .inr (.inr ⟨_, rfl⟩)
  | none => exact .inl rfl
  | _ => exact .inr (.inr ⟨_, rfl⟩)

theorem signalSet_str {env : Env} {s : String} (h : s = "" ∨ Dict.mem env.signals s = true) :
    signalSet env (.str s) = .ok (.str s) := by
  unfold signalSet
  by_cases hs : s = ""
  · subst hs; rfl
  · simp [Val.truthy, hs, inTable, h.resolve_left hs]

theorem signalJson_ok {env : Env} {s : String} {j : Val} (h : signalJson env s = .ok j) :
    Dict.mem env.signals s = true ∧ ∃ t, j = .dict [("name", .str s), ("type", t)] := by
  unfold signalJson at h
  simp only [bind_eq_ok, pure_eq_ok, Except.ok.injEq] at h
  obtain ⟨data, hd, t, -, rfl⟩ := h
  rw [lookup_getItem] at hd
  exact ⟨by simp [Dict.mem, Dict.get?, hd], t, rfl⟩

theorem signalJson_again {env : Env} {s : String} {j : Val} (h : signalJson env s = .ok j) :
    signalSet env j = .ok (.str s) := by
  obtain ⟨hm, t, rfl⟩ := signalJson_ok h
  exact signalSet_str (.inr hm)

theorem get_append (A B : Dict) (k : String) : Dict.get? (A ++ B) k = (Dict.get? A k).or (Dict.get? B k) := by
  unfold Dict.get?
  rw [lookup_append]

theorem get_objSet (k k' : String) (v : Val) :
    Dict.get? (objSet k v) k' = if k' = k then (if v = .none then none else some v) else none :=
  lookup_objSet ..

theorem get_single (k k' : String) (v : Val) : Dict.get? [(k, v)] k' = if k' = k then some v else none := by
  unfold Dict.get?
  rw [lookup_cons_if]
  rfl

theorem get_nil (k : String) : Dict.get? [] k = none := rfl

theorem sig_trip {env : Env} {k : String} {s : Val} {out : Dict} (h : objSetSignal env k s = .ok out) :
    ∃ o, (∀ k', Dict.get? out k' = if k' = k then o else none) ∧
      ∃ s', signalSet env (o.getD .none) = .ok s' ∧ signalGet s' = signalGet s := by
  unfold objSetSignal at h
  rcases signalGet_cases s with hs | ⟨z, hs⟩ | ⟨t, hs⟩ <;> rw [hs] at h ⊢
  · cases h
    exact ⟨none, fun k' => by rw [get_nil]; split <;> rfl, .none, rfl, rfl⟩
  · cases h
    exact ⟨some (.int z), fun k' => get_single .., .int z, rfl, rfl⟩
  · simp only [bind_eq_ok, pure_eq_ok, Except.ok.injEq] at h
    obtain ⟨j, hj, rfl⟩ := h
    exact ⟨some j, fun k' => get_single .., .str t, signalJson_again hj, rfl⟩

theorem objSetSignal_congr {env : Env} {k : String} {s s' : Val} (h : signalGet s' = signalGet s) :
    objSetSignal env k s' = objSetSignal env k s := by
  unfold objSetSignal
  rw [h]

theorem ifSig_trip {env : Env} {k : String} {s : Val} {out : Dict} (h : objSetIfSignal env k s = .ok out) :
    ∃ o, (∀ k', Dict.get? out k' = if k' = k then o else none) ∧
      ∃ s', signalSet env (o.getD .none) = .ok s' ∧ objSetIfSignal env k s' = .ok out := by
  have h' := h
  unfold objSetIfSignal at h
  dsimp only at h
  split at h
  · rename_i ht
    rcases signalGet_cases s with hs | ⟨z, hs⟩ | ⟨t, hs⟩ <;> rw [hs] at h
    · cases h
    · cases h
    · simp only [bind_eq_ok, pure_eq_ok, Except.ok.injEq] at h
      obtain ⟨j, hj, rfl⟩ := h
      refine ⟨some j, fun k' => get_single .., .str t, signalJson_again hj, ?_⟩
      rw [← h']
      unfold objSetIfSignal
      rw [hs]
      rfl
  · cases h
    exact ⟨none, fun k' => by rw [get_nil]; split <;> rfl, .none, rfl, rfl⟩

/-! ## One control behaviour -/

/-- The attributes `a` of behaviour `m` are as the constructor and assignment leave them: the comparator of a
circuit condition is one of the list, and what cannot be assigned is what some constructor call sets. -/
def CbMade (env : Env) (ctx : CbCtx) (m : Mx) (a : Kw) : Prop :=
  if m = .CircuitCondition then operatorSet deciderOps (a.orNone "comparator") = .ok (a.orNone "comparator")
  else m = .Filters ∨ m = .Speaker → ∃ g w, cbRead env ctx m g = .ok w ∧ ∀ k ∈ cbAttrs m, a k = Dict.get? w k

theorem CbMade.of_read {env : Env} {ctx : CbCtx} {m : Mx} {a : Kw} {g : Kw} {w : Attrs} (hr : cbRead env ctx m g = .ok w)
    (ha : ∀ k ∈ cbAttrs m, a k = Dict.get? w k) : CbMade env ctx m a := by
  unfold CbMade
  split
  · rename_i hm
    subst hm
    have h0 := ha "comparator" (by decide)
    unfold Kw.orNone
    rw [h0]
    unfold cbRead at hr
    dsimp only at hr
    split at hr
    · cases hr; rfl
    · simp only [bind_eq_ok, pure_eq_ok, Except.ok.injEq] at hr
      obtain ⟨_, -, _, -, _, -, c, hcc, rfl⟩ := hr
      show operatorSet deciderOps c = .ok c
      have hcc' := hcc
      unfold operatorSet at hcc
      split at hcc
      · cases hcc; exact hcc'
      · split at hcc
        · cases hcc; exact hcc'
        · cases hcc
      · cases hcc
  · exact fun _ => ⟨g, w, hr, ha⟩

theorem CbMade.read {env : Env} {ctx : CbCtx} {m : Mx} {a : Kw} (h : CbMade env ctx m a) (hm : m = .Filters ∨ m = .Speaker) :
    ∃ g w, cbRead env ctx m g = .ok w ∧ ∀ k ∈ cbAttrs m, a k = Dict.get? w k := by
  unfold CbMade at h
  rw [if_neg (by rintro rfl; simp at hm)] at h
  exact h hm

/-- What the behaviour wrote is accepted, and exported identically. -/
def CbTrips (env : Env) (ctx : CbCtx) (m : Mx) (out : Dict) : Prop :=
  ∃ w, cbRead env ctx m (Dict.get? out) = .ok w ∧
    ∀ a, (∀ k ∈ cbAttrs m, a k = Dict.get? w k) → cbEmit env m a = .ok out

/-- The exported circuit condition has no constant as first operand. -/
def NoFirstConstant (out : Dict) : Prop :=
  ∀ c, Dict.get? out "circuit_condition" = some (.dict c) → Dict.get? c "first_constant" = none

theorem cbEmit_congr {env : Env} {m : Mx} {a a' : Kw} (h : ∀ k ∈ cbAttrs m, a k = a' k) :
    cbEmit env m a = cbEmit env m a' := by
  cases m <;> simp only [cbAttrs, cbKeys, List.mem_cons, List.not_mem_nil, or_false, forall_eq_or_imp,
    forall_eq] at h <;> first | (simp only [cbEmit, attr, Kw.orNone, h]; done) | (simp only [cbEmit, attr, Kw.orNone, h]; rfl)

theorem cbTrips_same {env : Env} {ctx : CbCtx} {m : Mx} {a : Kw} {w out : Dict}
    (ha : ∀ k ∈ cbAttrs m, a k = Dict.get? w k) (he : cbEmit env m a = .ok out)
    (hr : cbRead env ctx m (Dict.get? out) = .ok w) : CbTrips env ctx m out :=
  ⟨w, hr, fun a' h' => by
    rw [cbEmit_congr (a' := a) (fun k hk => (h' k hk).trans (ha k hk).symm)]; exact he⟩

theorem cbTrips_condition {env : Env} {ctx : CbCtx} {a : Kw} {out : Dict}
    (he : cbEmit env .CircuitCondition a = .ok out) (hm : CbMade env ctx .CircuitCondition a)
    (hc : NoFirstConstant out) : CbTrips env ctx .CircuitCondition out := by
  have hop : operatorSet deciderOps (a.orNone "comparator") = .ok (a.orNone "comparator") := by
    unfold CbMade at hm
    rw [if_pos rfl] at hm
    exact hm
  simp only [cbEmit, bind_eq_ok, pure_eq_ok, Except.ok.injEq] at he
  obtain ⟨f, hf, s, hs, rfl⟩ := he
  generalize hcmp : a.orNone "comparator" = cmp at *
  generalize a.orNone "first" = x at *
  generalize a.orNone "second" = y at *
  -- the first operand
  have h1 : ∃ o, (∀ k', Dict.get? f k' = if k' = "first_signal" then o else none) ∧
      ∃ x', signalSet env (o.getD .none) = .ok x' ∧ signalGet x' = signalGet x := by
    unfold operandJson at hf
    rcases signalGet_cases x with hx | ⟨z, hx⟩ | ⟨t, hx⟩ <;> rw [hx] at hf ⊢
    · cases hf
      exact ⟨none, fun k' => by rw [get_nil]; split <;> rfl, .none, rfl, rfl⟩
    · cases hf
      exfalso
      have := hc (objSet "comparator" cmp ++ [("first_constant", .int z)] ++ s) (by
        rw [if_neg (by simp)]; rfl)
      rw [get_append, get_append, get_objSet, get_single] at this
      simp at this
    · simp only [bind_eq_ok, pure_eq_ok, Except.ok.injEq] at hf
      obtain ⟨j, hj, rfl⟩ := hf
      exact ⟨some j, fun k' => get_single .., .str t, signalJson_again hj, rfl⟩
  have h2 : ∃ o p, (∀ k', Dict.get? s k' = if k' = "second_signal" then o else if k' = "constant" then p else none) ∧
      ∃ y', signalSet env (o.getD (p.getD .none)) = .ok y' ∧ signalGet y' = signalGet y := by
    unfold operandJson at hs
    rcases signalGet_cases y with hx | ⟨z, hx⟩ | ⟨t, hx⟩ <;> rw [hx] at hs ⊢
    · cases hs
      exact ⟨none, none, fun k' => by rw [get_nil]; split <;> (try split) <;> rfl, .none, rfl, rfl⟩
    · cases hs
      refine ⟨none, some (.int z), fun k' => ?_, .int z, rfl, rfl⟩
      rw [get_single]
      by_cases h : k' = "constant"
      · subst h; rfl
      · rw [if_neg h]; split <;> simp [h]
    · simp only [bind_eq_ok, pure_eq_ok, Except.ok.injEq] at hs
      obtain ⟨j, hj, rfl⟩ := hs
      refine ⟨some j, none, fun k' => ?_, .str t, signalJson_again hj, rfl⟩
      rw [get_single]
      split
      · rfl
      · split <;> rfl
  obtain ⟨o1, hg1, x', hx', hxx⟩ := h1
  obtain ⟨o2, p2, hg2, y', hy', hyy⟩ := h2
  have key : ∀ b : Kw, signalGet (b.orNone "first") = signalGet x → signalGet (b.orNone "second") = signalGet y →
      b.orNone "comparator" = cmp → cbEmit env .CircuitCondition b =
        .ok (if (objSet "comparator" cmp ++ f ++ s).isEmpty then [] else
          [("circuit_condition", .dict (objSet "comparator" cmp ++ f ++ s))]) := by
    intro b hb1 hb2 hb3
    have e1 : operandJson env "first_constant" "first_signal" (b.orNone "first") = .ok f := by
      rw [← hf]; unfold operandJson; rw [hb1]
    have e2 : operandJson env "constant" "second_signal" (b.orNone "second") = .ok s := by
      rw [← hs]; unfold operandJson; rw [hb2]
    simp only [cbEmit, e1, e2, hb3, ok_bind, pure_eq_ok]
  by_cases hemp : (objSet "comparator" cmp ++ f ++ s).isEmpty = true
  · simp only [hemp, if_true]
    simp only [hemp, if_true] at key
    refine ⟨[], rfl, fun b hb => key b ?_ ?_ ?_⟩
    · have : o1 = none := by
        have := hg1 "first_signal"
        rw [if_pos rfl] at this
        rw [← this]
        simp only [List.isEmpty_iff, List.append_eq_nil_iff] at hemp
        rw [hemp.1.2]; rfl
      subst this
      cases hx'
      unfold Kw.orNone
      rw [hb _ (by decide)]
      exact hxx
    · have hs0 : s = [] := by
        simp only [List.isEmpty_iff, List.append_eq_nil_iff] at hemp
        exact hemp.2
      have ho : o2 = none := by
        have := hg2 "second_signal"
        rw [if_pos rfl] at this
        rw [← this, hs0]; rfl
      have hp : p2 = none := by
        have := hg2 "constant"
        rw [if_neg (by decide), if_pos rfl] at this
        rw [← this, hs0]; rfl
      subst ho hp
      cases hy'
      unfold Kw.orNone
      rw [hb _ (by decide)]
      exact hyy
    · simp only [List.isEmpty_iff, List.append_eq_nil_iff] at hemp
      have : cmp = .none := by
        have h := hemp.1.1
        unfold objSet at h
        split at h
        · rfl
        · cases h
      rw [this]
      unfold Kw.orNone
      rw [hb _ (by decide)]
      rfl
  · rw [if_neg hemp] at key ⊢
    generalize hC : objSet "comparator" cmp ++ f ++ s = C at *
    have g1 : Dict.getD C "first_signal" .none = o1.getD .none := by
      unfold Dict.getD
      rw [← hC]
      simp [get_append, get_objSet, hg1, hg2]
    have g2 : Dict.getD C "second_signal" (Dict.getD C "constant" .none) = o2.getD (p2.getD .none) := by
      unfold Dict.getD
      rw [← hC]
      simp [get_append, get_objSet, hg1, hg2]
    have g3 : Dict.getD C "comparator" .none = cmp := by
      unfold Dict.getD
      rw [← hC]
      simp [get_append, get_objSet, hg1, hg2]
    refine ⟨[("first", x'), ("second", y'), ("comparator", cmp)], ?_, fun b hb => key b ?_ ?_ ?_⟩
    · show (do
        let d ← (Val.dict C).asDict
        let f ← signalSet env (Dict.getD d "first_signal" .none)
        let s ← signalSet env (Dict.getD d "second_signal" (Dict.getD d "constant" .none))
        let c ← operatorSet deciderOps (Dict.getD d "comparator" .none)
        return [("first", f), ("second", s), ("comparator", c)]) = _
      simp only [Val.asDict, ok_bind, g1, g2, g3, hx', hy', hop, pure_eq_ok]
    · unfold Kw.orNone
      rw [hb _ (by decide)]
      exact hxx
    · unfold Kw.orNone
      rw [hb _ (by decide)]
      exact hyy
    · unfold Kw.orNone
      rw [hb _ (by decide)]
      rfl

theorem cbTrips_filters {env : Env} {ctx : CbCtx} {a : Kw} {out : Dict}
    (he : cbEmit env .Filters a = .ok out) (hm : CbMade env ctx .Filters a) : CbTrips env ctx .Filters out := by
  obtain ⟨g, w, hr, ha⟩ := hm.read (.inl rfl)
  simp only [cbRead, bind_eq_ok] at hr
  obtain ⟨fs, -, hr⟩ := hr
  split at hr
  · cases hr
  next hsh =>
  simp only [bind_eq_ok, pure_eq_ok, Except.ok.injEq] at hr
  obtain ⟨l, hl, rfl⟩ := hr
  have hlen := mapM_length hl
  have h0 := (ha "filters" (by decide)).trans (show _ = some (.list l) from rfl)
  simp only [cbEmit, bind_eq_ok, attr_ok, h0, Option.some.injEq, exists_eq_left', iter_list, Except.ok.injEq] at he
  have hsh' : (ctx.filtersShadowed && !l.isEmpty) = false := by
    cases hs : ctx.filtersShadowed with
    | false => rfl
    | true =>
      rw [hs] at hsh
      cases fs with
      | nil => cases l with
        | nil => rfl
        | cons => simp at hlen
      | cons => exact absurd rfl hsh
  split at he
  · next hle =>
    cases he
    refine ⟨[("filters", .list [])], ?_, ?_⟩
    · show (do
        if ctx.filtersShadowed && !(([] : List Val).isEmpty) then throw .unmodelled
        return [("filters", .list [])] : Except Exc Dict) = _
      simp
    · intro a' h'
      have h0' := (h' "filters" (by decide)).trans (show _ = some (.list []) from rfl)
      simp only [cbEmit, attr, h0', ok_bind, iter_list]
      rfl
  · next hle =>
    simp only [bind_eq_ok, pure_eq_ok, Except.ok.injEq] at he
    obtain ⟨js, hjs, rfl⟩ := he
    have key : ∃ l', js.mapM (readFilter env) = .ok l' ∧ l'.mapM (filterJson env) = .ok js := by
      clear h0 ha hlen hsh' hsh hle
      induction fs generalizing l js with
      | nil => cases hl; cases hjs; exact ⟨[], rfl, rfl⟩
      | cons f fs ih =>
        rw [List.mapM_cons] at hl
        simp only [bind_eq_ok, pure_eq_ok, Except.ok.injEq] at hl
        obtain ⟨x, hx, l1, hl1, rfl⟩ := hl
        rw [List.mapM_cons] at hjs
        simp only [bind_eq_ok, pure_eq_ok, Except.ok.injEq] at hjs
        obtain ⟨y, hy, js1, hjs1, rfl⟩ := hjs
        obtain ⟨l', e1, e2⟩ := ih l1 hl1 js1 hjs1
        unfold readFilter at hx
        simp only [bind_eq_ok] at hx
        obtain ⟨d, -, hx⟩ := hx
        split at hx
        · cases hx
        simp only [bind_eq_ok] at hx
        obtain ⟨s, -, hx⟩ := hx
        split at hx
        · cases hx
        cases hx
        unfold filterJson at hy
        simp only [bind_eq_ok, pure_eq_ok, Except.ok.injEq] at hy
        obtain ⟨s', hs', c, hc, i, hi, j, hj, rfl⟩ := hy
        cases hs'; cases hc; cases hi
        unfold signalToJson at hj
        split at hj
        · next t ht =>
          refine ⟨.dict [("signal", .str t), ("count", Dict.getD d "count" .none), ("index", Dict.getD d "index" .none)] :: l', ?_, ?_⟩
          · rw [List.mapM_cons, e1]
            have : readFilter env (.dict [("signal", j), ("count", Dict.getD d "count" .none), ("index", Dict.getD d "index" .none)]) =
                .ok (.dict [("signal", .str t), ("count", Dict.getD d "count" .none), ("index", Dict.getD d "index" .none)]) := by
              show (do
                let s ← signalSet env j
                return Val.dict [("signal", s), ("count", Dict.getD d "count" .none),
                  ("index", Dict.getD d "index" .none)]) = _
              rw [signalJson_again hj]
              rfl
            rw [this]
            rfl
          · rw [List.mapM_cons, e2]
            have : filterJson env (.dict [("signal", .str t), ("count", Dict.getD d "count" .none), ("index", Dict.getD d "index" .none)]) =
                .ok (.dict [("signal", j), ("count", Dict.getD d "count" .none), ("index", Dict.getD d "index" .none)]) := by
              show (do
                let s ← signalJson env t
                return Val.dict [("signal", s), ("count", Dict.getD d "count" .none),
                  ("index", Dict.getD d "index" .none)]) = _
              rw [hj]
              rfl
            rw [this]
            rfl
        · cases hj
    obtain ⟨l', e1, e2⟩ := key
    have hlen' := mapM_length e1
    have hlen2 := mapM_length hjs
    have he : ∀ x y : List Val, x.length = y.length → x.isEmpty = y.isEmpty := by
      intro x y h
      cases x <;> cases y <;> first | rfl | simp at h
    have hjs' : js.isEmpty = l.isEmpty := he _ _ hlen2
    have hl'e : l'.isEmpty = l.isEmpty := (he _ _ hlen').trans hjs'
    refine ⟨[("filters", .list l')], ?_, ?_⟩
    · have : Dict.get? [("filters", Val.list js)] "filters" = some (.list js) := rfl
      simp only [cbRead, this, Option.getD_some, iter_list, ok_bind, hjs', hsh', e1, pure_eq_ok]
      rfl
    · intro a' h'
      have h0' := (h' "filters" (by decide)).trans (show _ = some (.list l') from rfl)
      simp only [cbEmit, attr, h0', ok_bind, iter_list, hl'e, e2, pure_eq_ok]
      rw [if_neg hle]

theorem cbTrips {env : Env} {ctx : CbCtx} {m : Mx} {a : Kw} {out : Dict}
    (h : CbMade env ctx m a) (he : cbEmit env m a = .ok out)
    (hk : m = .CircuitCondition → NoFirstConstant out) : CbTrips env ctx m out := by
  cases m
  case CircuitCondition => exact cbTrips_condition he h (hk rfl)
  case Filters => exact cbTrips_filters he h
  case Accumulator =>
    change objSetSignal env _ _ = _ at he
    obtain ⟨o, ho, s', hs, hg⟩ := sig_trip he
    refine ⟨[("output_signal", s')], ?_, fun b hb => ?_⟩
    · simp [cbRead, Kw.orNone, ho, hs]
    · have hb0 := hb _ (List.mem_cons_self ..)
      rw [← he]
      refine objSetSignal_congr ?_
      rw [← hg]
      unfold Kw.orNone
      rw [hb0]
      rfl
  case ChainSignal =>
    change objSetSignal env _ _ = _ at he
    obtain ⟨o, ho, s', hs, hg⟩ := sig_trip he
    refine ⟨[("blue_output_signal", s')], ?_, fun b hb => ?_⟩
    · simp [cbRead, Kw.orNone, ho, hs]
    · have hb0 := hb _ (List.mem_cons_self ..)
      rw [← he]
      refine objSetSignal_congr ?_
      rw [← hg]
      unfold Kw.orNone
      rw [hb0]
      rfl
  case ConstantCombinator =>
    simp only [cbEmit, bind_eq_ok, pure_eq_ok, Except.ok.injEq, attr_ok] at he
    obtain ⟨v, -, he⟩ := he
    split at he
    · cases he
      exact ⟨[("is_on", .bool true)], rfl, fun b hb => by
        have := (hb "is_on" (by decide)).trans (show _ = some (.bool true) from rfl)
        simp [cbEmit, attr, this, Val.truthy]⟩
    · cases he
      exact ⟨[("is_on", .bool false)], rfl, fun b hb => by
        have := (hb "is_on" (by decide)).trans (show _ = some (.bool false) from rfl)
        simp [cbEmit, attr, this, Val.truthy]⟩
  case TransportBelt =>
    simp only [cbEmit, bind_eq_ok, pure_eq_ok, Except.ok.injEq, attr_ok] at he
    obtain ⟨v0, -, v1, -, v2, -, rfl⟩ := he
    refine ⟨[("circuit_enable_disable", v1), ("circuit_read_hand_contents", v0), ("circuit_contents_read_mode", v2)],
      rfl, fun b hb => ?_⟩
    have h0 := (hb "circuit_read_hand_contents" (by decide)).trans (show _ = some v0 from rfl)
    have h1 := (hb "circuit_enable_disable" (by decide)).trans (show _ = some v1 from rfl)
    have h2 := (hb "circuit_contents_read_mode" (by decide)).trans (show _ = some v2 from rfl)
    simp only [cbEmit, attr, h0, h1, h2, ok_bind, pure_eq_ok]
  case MiningDrill =>
    simp only [cbEmit, bind_eq_ok, pure_eq_ok, Except.ok.injEq, attr_ok] at he
    obtain ⟨v0, -, v1, -, v2, -, rfl⟩ := he
    refine ⟨[("circuit_enable_disable", v0), ("circuit_read_resources", v1), ("circuit_resource_read_mode", v2)],
      rfl, fun b hb => ?_⟩
    have h0 := (hb "circuit_enable_disable" (by decide)).trans (show _ = some v0 from rfl)
    have h1 := (hb "circuit_read_resources" (by decide)).trans (show _ = some v1 from rfl)
    have h2 := (hb "circuit_resource_read_mode" (by decide)).trans (show _ = some v2 from rfl)
    simp only [cbEmit, attr, h0, h1, h2, ok_bind, pure_eq_ok]
  case RailSignal =>
    simp only [cbEmit, bind_eq_ok, pure_eq_ok, Except.ok.injEq, attr_ok] at he
    obtain ⟨v, -, rfl⟩ := he
    refine ⟨[("circuit_close_signal", v)], by simp only [cbRead, orNone_objSet], fun b hb => ?_⟩
    have h0 := (hb "circuit_close_signal" (by decide)).trans (show _ = some v from rfl)
    simp only [cbEmit, attr, h0, ok_bind, pure_eq_ok]
  case Lamp =>
    simp only [cbEmit, bind_eq_ok, pure_eq_ok, Except.ok.injEq, attr_ok] at he
    obtain ⟨v, -, rfl⟩ := he
    refine ⟨[("use_colors", v)], by simp only [cbRead, orNone_objSet], fun b hb => ?_⟩
    have h0 := (hb "use_colors" (by decide)).trans (show _ = some v from rfl)
    simp only [cbEmit, attr, h0, ok_bind, pure_eq_ok]
  case Requester =>
    simp only [cbEmit, bind_eq_ok, pure_eq_ok, Except.ok.injEq, attr_ok] at he
    obtain ⟨v, -, rfl⟩ := he
    refine ⟨[("circuit_mode_of_operation", v)], by simp only [cbRead, orNone_objSet], fun b hb => ?_⟩
    have h0 := (hb "circuit_mode_of_operation" (by decide)).trans (show _ = some v from rfl)
    simp only [cbEmit, attr, h0, ok_bind, pure_eq_ok]
  case Speaker =>
    obtain ⟨g, w, hr, ha⟩ := h.read (.inr rfl)
    simp only [cbRead, bind_eq_ok, pure_eq_ok, Except.ok.injEq] at hr
    obtain ⟨v, hv, rfl⟩ := hr
    have h0 := (ha "circuit_parameters" (by decide)).trans (show _ = some v from rfl)
    refine cbTrips_same ha he ?_
    simp only [cbEmit, bind_eq_ok, pure_eq_ok, Except.ok.injEq, attr_ok, h0, Option.some.injEq,
      exists_eq_left'] at he
    subst he
    have hv' : readCircuitParameters v = .ok v := by
      unfold readCircuitParameters at hv
      simp only [bind_eq_ok] at hv
      obtain ⟨d, -, hv⟩ := hv
      split at hv
      · cases hv
      · cases hv; rfl
    show (do return [("circuit_parameters", ← readCircuitParameters v)]) = _
    rw [hv']
    rfl
  case TrainSignal =>
    simp only [cbEmit, bind_eq_ok, pure_eq_ok, Except.ok.injEq, attr_ok] at he
    obtain ⟨c, hc, r, hr, o, ho, gr, hgr, rfl⟩ := he
    obtain ⟨or, hor, sr, hsr, hgr1⟩ := sig_trip hr
    obtain ⟨oo, hoo, so, hso, hgo1⟩ := sig_trip ho
    obtain ⟨og, hog, sg, hsg, hgg1⟩ := sig_trip hgr
    refine ⟨[("circuit_read_signal", c), ("red_output_signal", sr), ("orange_output_signal", so),
      ("green_output_signal", sg)], ?_, fun b hb => ?_⟩
    · simp [cbRead, Kw.orNone, get_append, get_objSet, hor, hoo, hog, hsr, hso, hsg]
    · have h0 := (hb "circuit_read_signal" (by decide)).trans (show _ = some c from rfl)
      have h1 := (hb "red_output_signal" (by decide)).trans (show _ = some sr from rfl)
      have h2 := (hb "orange_output_signal" (by decide)).trans (show _ = some so from rfl)
      have h3 := (hb "green_output_signal" (by decide)).trans (show _ = some sg from rfl)
      simp only [Kw.orNone] at hr ho hgr hgr1 hgo1 hgg1
      simp only [cbEmit, attr, Kw.orNone, h0, h1, h2, h3, Option.getD_some, objSetSignal_congr hgr1,
        objSetSignal_congr hgo1, objSetSignal_congr hgg1, hr, ho, hgr, ok_bind, pure_eq_ok]
  case Inserter =>
    simp only [cbEmit, bind_eq_ok, pure_eq_ok, Except.ok.injEq, attr_ok] at he
    obtain ⟨m, hm, st, hst, s, hs, hd, hhd, c, hc, rfl⟩ := he
    obtain ⟨o, ho, s', hs', hg⟩ := sig_trip hs
    refine ⟨[("circuit_mode_of_operation", m), ("circuit_set_stack_size", st), ("stack_control_input_signal", s'),
      ("circuit_hand_read_mode", hd), ("circuit_read_hand_contents", c)], ?_, fun b hb => ?_⟩
    · simp [cbRead, Kw.orNone, get_append, get_objSet, ho, hs']
    · have h0 := (hb "circuit_mode_of_operation" (by decide)).trans (show _ = some m from rfl)
      have h1 := (hb "circuit_set_stack_size" (by decide)).trans (show _ = some st from rfl)
      have h2 := (hb "stack_control_input_signal" (by decide)).trans (show _ = some s' from rfl)
      have h3 := (hb "circuit_hand_read_mode" (by decide)).trans (show _ = some hd from rfl)
      have h4 := (hb "circuit_read_hand_contents" (by decide)).trans (show _ = some c from rfl)
      simp only [cbEmit, attr, Kw.orNone, h0, h1, h2, h3, h4, Option.getD_some, objSetSignal_congr hg, hs,
        ok_bind, pure_eq_ok]
      rw [show (a "stack_control_input_signal").getD .none = Kw.orNone a "stack_control_input_signal" from rfl, hs]
      rfl
  case Roboport =>
    simp only [cbEmit, bind_eq_ok, pure_eq_ok, Except.ok.injEq, attr_ok] at he
    obtain ⟨l, hl, r, hr, ac, hac, tc, htc, al, hal, tl, htl, rfl⟩ := he
    obtain ⟨o1, ho1, s1, hs1, hg1⟩ := ifSig_trip hac
    obtain ⟨o2, ho2, s2, hs2, hg2⟩ := ifSig_trip htc
    obtain ⟨o3, ho3, s3, hs3, hg3⟩ := ifSig_trip hal
    obtain ⟨o4, ho4, s4, hs4, hg4⟩ := ifSig_trip htl
    refine ⟨[("read_logistics", l), ("read_robot_stats", r), ("available_construction_output_signal", s1),
      ("total_construction_output_signal", s2), ("available_logistic_output_signal", s3),
      ("total_logistic_output_signal", s4)], ?_, fun b hb => ?_⟩
    · simp [cbRead, Kw.orNone, get_append, get_objSet, ho1, hs1, ho2, hs2, ho3, hs3, ho4, hs4]
    · have h0 := (hb "read_logistics" (by decide)).trans (show _ = some l from rfl)
      have h1 := (hb "read_robot_stats" (by decide)).trans (show _ = some r from rfl)
      have h2 := (hb "available_construction_output_signal" (by decide)).trans (show _ = some s1 from rfl)
      have h3 := (hb "total_construction_output_signal" (by decide)).trans (show _ = some s2 from rfl)
      have h4 := (hb "available_logistic_output_signal" (by decide)).trans (show _ = some s3 from rfl)
      have h5 := (hb "total_logistic_output_signal" (by decide)).trans (show _ = some s4 from rfl)
      simp only [cbEmit, attr, Kw.orNone, h0, h1, h2, h3, h4, h5, Option.getD_some, hg1, hg2, hg3, hg4,
        ok_bind, pure_eq_ok]
  case Station =>
    simp only [cbEmit, bind_eq_ok, pure_eq_ok, Except.ok.injEq, attr_ok] at he
    obtain ⟨e, hee, f, hf, r, hr, s, hs, rfl⟩ := he
    obtain ⟨o, ho, s', hs', hg⟩ := ifSig_trip hs
    refine ⟨[("circuit_enable_disable", e), ("read_from_train", f), ("read_stopped_train", r),
      ("train_stopped_signal", s')], ?_, fun b hb => ?_⟩
    · simp [cbRead, Kw.orNone, get_append, get_objSet, ho, hs']
    · have h0 := (hb "circuit_enable_disable" (by decide)).trans (show _ = some e from rfl)
      have h1 := (hb "read_from_train" (by decide)).trans (show _ = some f from rfl)
      have h2 := (hb "read_stopped_train" (by decide)).trans (show _ = some r from rfl)
      have h3 := (hb "train_stopped_signal" (by decide)).trans (show _ = some s' from rfl)
      simp only [cbEmit, attr, Kw.orNone, h0, h1, h2, h3, Option.getD_some, hg, ok_bind, pure_eq_ok]
  all_goals
    cases he
    exact ⟨[], rfl, fun _ _ => rfl⟩

end Verif
