import Verif.Proofs.Custom
import Verif.Proofs.Settable
/-!
# Helper lemmas: the data from which an entity can be made, control behaviours and whole entities
-/
set_option autoImplicit false

namespace Verif
open Spec

/-! ## The chain of behaviours -/

theorem initChain_iff {env : Env} {strict : Bool} {lo : Exc} {ms : List Mx} {kw : Dict} {a : Attrs} (hn : ms.Nodup)
    (hi : ItemsLast ms) : (∃ a', initChain env strict false lo ms false kw a = .ok a') ↔
      (∀ k, List.lookup k kw ≠ none → ∃ m ∈ ms, k ∈ mxKeys m) ∧
      ∀ m ∈ ms, ∃ w, mxRead env strict false m (Dict.get? kw) = .ok w := by
  induction ms generalizing kw a with
  | nil =>
    rw [initChain, Bool.false_or]
    constructor
    · rintro ⟨a', h⟩
      split at h
      · cases h
      · rename_i he
        rw [Bool.not_eq_true, Bool.not_eq_false', isEmpty_iff] at he
        exact ⟨fun k hk => absurd (he k) hk, fun m hm => by (cases hm)⟩
    · rintro ⟨h, -⟩
      refine ⟨a, if_neg ?_⟩
      rw [Bool.not_eq_true, Bool.not_eq_false', isEmpty_iff]
      intro k
      by_contra hk
      obtain ⟨m, hm, -⟩ := h k hk
      cases hm
  | cons m ms ih =>
    rw [List.nodup_cons] at hn
    have hsame : ∀ m' ∈ ms, mxRead env strict false m' (Dict.get? (eraseKeys kw (mxKeys m))) =
        mxRead env strict false m' (Dict.get? kw) := by
      intro m' hm'
      refine mxRead_congr (fun k hk => ?_)
      show List.lookup k _ = List.lookup k _
      rw [lookup_eraseKeys, if_neg]
      intro hk'
      exact hn.1 (mxKeys_disjoint hk' hk ▸ hm')
    have hrest : (∀ k, List.lookup k (eraseKeys kw (mxKeys m)) ≠ none → ∃ m ∈ ms, k ∈ mxKeys m) ↔
        ∀ k, List.lookup k kw ≠ none → ∃ m' ∈ m :: ms, k ∈ mxKeys m' := by
      constructor
      · intro h k hk
        by_cases hm : k ∈ mxKeys m
        · exact ⟨m, List.mem_cons_self .., hm⟩
        · obtain ⟨m', h1, h2⟩ := h k (by rw [lookup_eraseKeys, if_neg hm]; exact hk)
          exact ⟨m', List.mem_cons_of_mem _ h1, h2⟩
      · intro h k hk
        rw [lookup_eraseKeys] at hk
        split at hk
        · exact absurd rfl hk
        · rename_i hm
          obtain ⟨m', h1, h2⟩ := h k hk
          rcases List.mem_cons.1 h1 with rfl | h1
          · exact absurd h2 hm
          · exact ⟨m', h1, h2⟩
    rw [initChain]
    cases hr : mxRead env strict false m (Dict.get? kw) with
    | error e =>
      constructor
      · rintro ⟨a', h⟩; cases h
      · rintro ⟨-, h⟩
        obtain ⟨w, hw⟩ := h m (List.mem_cons_self ..)
        rw [hr] at hw
        cases hw
    | ok w =>
      have step : (∃ a', initChain env strict false lo ms false (eraseKeys kw (mxKeys m)) (setAll a w) = .ok a') ↔
          (∀ k, List.lookup k kw ≠ none → ∃ m' ∈ m :: ms, k ∈ mxKeys m') ∧
          ∀ m' ∈ m :: ms, ∃ w, mxRead env strict false m' (Dict.get? kw) = .ok w := by
        rw [ih hn.2 hi.2, hrest]
        refine and_congr_right fun _ => ?_
        constructor
        · intro h m' hm'
          rcases List.mem_cons.1 hm' with rfl | hm'
          · exact ⟨w, hr⟩
          · rw [← hsame m' hm']; exact h m' hm'
        · intro h m' hm'
          rw [hsame m' hm']; exact h m' (List.mem_cons_of_mem _ hm')
      dsimp only
      split
      · rename_i hm
        have := hi.1 hm
        subst this
        rw [← step]
        simp only [initChain, Bool.false_or, Bool.or_false, List.isEmpty_nil, Bool.not_true]
      · exact step

/-! ## Control behaviours -/

theorem condition_ok {env : Env} {d : Dict} : (∃ r, (do
      let f ← signalSet env (Dict.getD d "first_signal" .none)
      let s ← signalSet env (Dict.getD d "second_signal" (Dict.getD d "constant" .none))
      let c ← operatorSet deciderOps (Dict.getD d "comparator" .none)
      return [("first", f), ("second", s), ("comparator", c)] : Except Exc Attrs) = .ok r) ↔
    Given d "first_signal" (SignalOk env) ∧ Given d "second_signal" (SignalOk env) ∧
      (List.lookup "second_signal" d = none → Given d "constant" (SignalOk env)) ∧
      Given d "comparator" (OrNull (WordOf [">", "<", "=", "≥", "≤", "!="])) := by
  have h2 : SignalOk env (Dict.getD d "second_signal" (Dict.getD d "constant" .none)) ↔
      Given d "second_signal" (SignalOk env) ∧ (List.lookup "second_signal" d = none → Given d "constant" (SignalOk env)) := by
    rw [← given_default (d := d) (k := "constant") (signalOk_none env)]
    unfold Given Dict.getD Dict.get?
    cases List.lookup "second_signal" d with
    | none => simp
    | some v => simp
  have h1 : SignalOk env (Dict.getD d "first_signal" .none) ↔ Given d "first_signal" (SignalOk env) :=
    given_default (signalOk_none env)
  have h3 : (∃ o, operatorSet deciderOps (Dict.getD d "comparator" .none) = .ok o) ↔
      Given d "comparator" (OrNull (WordOf [">", "<", "=", "≥", "≤", "!="])) := operator_ok.trans given_null
  rw [← h1, ← h3, ← and_assoc (b := _ → _), ← h2, ← signalOk_iff, ← signalOk_iff]
  simp only [bind_eq_ok, pure_eq_ok, Except.ok.injEq]
  exact ⟨fun ⟨_, f, a1, s, a2, c, a3, _⟩ => ⟨⟨f, a1⟩, ⟨s, a2⟩, c, a3⟩,
    fun ⟨⟨f, a1⟩, ⟨s, a2⟩, c, a3⟩ => ⟨_, f, a1, s, a2, c, a3, rfl⟩⟩

theorem cbRead_ok {env : Env} {ctx : CbCtx} {m : Mx} {d : Dict} (hf : m = .Filters → ctx.filtersShadowed = false) :
    (∃ a, cbRead env ctx m (Dict.get? d) = .ok a) ↔ ControlsOk env d m := by
  have sig : ∀ k, (∃ s, signalSet env (Kw.orNone (Dict.get? d) k) = .ok s) ↔ Given d k (SignalOk env) := fun k =>
    signalOk_iff.trans (given_default (signalOk_none env))
  have free : ∀ m, (∀ k, (m, k) ∉ signalSettings) → ∀ k, (m, k) ∈ signalSettings → Given d k (SignalOk env) :=
    fun m h k hk => absurd hk (h k)
  cases m
  case Filters =>
    have he : Each (fun f => Only ["signal", "count", "index"] f ∧ Given f "signal" (SignalOk env)) (.list []) :=
      each_iter.2 ⟨[], rfl, fun u hu => by (cases hu)⟩
    refine Iff.trans ?_ (given_default he)
    rw [each_iter]
    simp only [cbRead, hf rfl, bind_eq_ok, Bool.false_and, Bool.false_eq_true, if_false, pure_eq_ok, Except.ok.injEq,
      ← cbFilter_ok, ← mapM_iff]
    exact ⟨fun ⟨_, fs, h1, l, h2, _⟩ => ⟨fs, h1, l, h2⟩, fun ⟨fs, h1, l, h2⟩ => ⟨_, fs, h1, l, h2, rfl⟩⟩
  case CircuitCondition =>
    refine Iff.trans ?_ given_null
    simp only [cbRead, show Kw.orNone (Dict.get? d) "circuit_condition" = valueAt d "circuit_condition" from rfl]
    generalize valueAt d "circuit_condition" = v
    split
    · exact ⟨fun _ => .inl rfl, fun _ => ⟨_, rfl⟩⟩
    · rename_i h
      simp only [bind_eq_ok (x := Val.asDict _), asDict_ok]
      constructor
      · rintro ⟨a, e, he, h2⟩
        exact .inr ⟨e, he, condition_ok.1 ⟨a, h2⟩⟩
      · rintro (h' | ⟨e, he, h2⟩)
        · exact absurd h' h
        · obtain ⟨a, h2⟩ := condition_ok.2 h2
          exact ⟨a, e, he, h2⟩
  case Speaker =>
    have he : Having (fun e => Only ["signal_value_is_pitch", "instrument_id", "note_id"] e) (.dict []) :=
      ⟨[], rfl, fun k hk => absurd rfl hk⟩
    refine Iff.trans ?_ (given_default he)
    rw [← circuitParameters_ok]
    simp only [cbRead, bind_eq_ok, pure_eq_ok, Except.ok.injEq]
    exact ⟨fun ⟨_, o, h, _⟩ => ⟨o, h⟩, fun ⟨o, h⟩ => ⟨_, o, h, rfl⟩⟩
  case Accumulator =>
    simp only [cbRead, ControlsOk, signalSettings, List.mem_cons, Prod.mk.injEq, List.not_mem_nil, reduceCtorEq, false_and,
      or_false, false_or, true_and, forall_eq, ← sig, bind_eq_ok, pure_eq_ok, Except.ok.injEq]
    exact ⟨fun ⟨_, o, h, _⟩ => ⟨o, h⟩, fun ⟨o, h⟩ => ⟨_, o, h, rfl⟩⟩
  case ChainSignal =>
    simp only [cbRead, ControlsOk, signalSettings, List.mem_cons, Prod.mk.injEq, List.not_mem_nil, reduceCtorEq, false_and,
      or_false, false_or, true_and, forall_eq, ← sig, bind_eq_ok, pure_eq_ok, Except.ok.injEq]
    exact ⟨fun ⟨_, o, h, _⟩ => ⟨o, h⟩, fun ⟨o, h⟩ => ⟨_, o, h, rfl⟩⟩
  case Inserter =>
    simp only [cbRead, ControlsOk, signalSettings, List.mem_cons, Prod.mk.injEq, List.not_mem_nil, reduceCtorEq, false_and,
      or_false, false_or, true_and, forall_eq, ← sig, bind_eq_ok, pure_eq_ok, Except.ok.injEq]
    exact ⟨fun ⟨_, o, h, _⟩ => ⟨o, h⟩, fun ⟨o, h⟩ => ⟨_, o, h, rfl⟩⟩
  case Station =>
    simp only [cbRead, ControlsOk, signalSettings, List.mem_cons, Prod.mk.injEq, List.not_mem_nil, reduceCtorEq, false_and,
      or_false, false_or, true_and, forall_eq, ← sig, bind_eq_ok, pure_eq_ok, Except.ok.injEq]
    exact ⟨fun ⟨_, o, h, _⟩ => ⟨o, h⟩, fun ⟨o, h⟩ => ⟨_, o, h, rfl⟩⟩
  case TrainSignal =>
    simp only [cbRead, ControlsOk, signalSettings, List.mem_cons, Prod.mk.injEq, List.not_mem_nil, reduceCtorEq, false_and,
      or_false, false_or, true_and, forall_eq_or_imp, forall_eq, ← sig, bind_eq_ok, pure_eq_ok, Except.ok.injEq]
    exact ⟨fun ⟨_, o, h, p, h2, q, h3, _⟩ => ⟨⟨o, h⟩, ⟨p, h2⟩, q, h3⟩,
      fun ⟨⟨o, h⟩, ⟨p, h2⟩, q, h3⟩ => ⟨_, o, h, p, h2, q, h3, rfl⟩⟩
  case Roboport =>
    simp only [cbRead, ControlsOk, signalSettings, List.mem_cons, Prod.mk.injEq, List.not_mem_nil, reduceCtorEq, false_and,
      or_false, false_or, true_and, forall_eq_or_imp, forall_eq, ← sig, bind_eq_ok, pure_eq_ok, Except.ok.injEq]
    exact ⟨fun ⟨_, o, h, p, h2, q, h3, r, h4, _⟩ => ⟨⟨o, h⟩, ⟨p, h2⟩, ⟨q, h3⟩, r, h4⟩,
      fun ⟨⟨o, h⟩, ⟨p, h2⟩, ⟨q, h3⟩, r, h4⟩ => ⟨_, o, h, p, h2, q, h3, r, h4, rfl⟩⟩
  all_goals exact ⟨fun _ => free _ (fun k hk => by simp [signalSettings] at hk), fun _ => ⟨_, rfl⟩⟩

theorem cbInitChain_iff {env : Env} {ctx : CbCtx} {lo : Exc} {ms : List Mx} {kw : Dict} {a : Attrs} (hp : CbPlain ms) :
    (∃ a', cbInitChain env ctx lo ms kw a = .ok a') ↔
      (.Inserter ∈ ms ∨ ∀ k, List.lookup k kw ≠ none → ∃ m ∈ ms, k ∈ cbKeys m) ∧
      ∀ m ∈ ms, ∃ w, cbRead env ctx m (Dict.get? kw) = .ok w := by
  induction ms generalizing kw a with
  | nil =>
    rw [cbInitChain]
    constructor
    · rintro ⟨a', h⟩
      split at h
      · rename_i he
        rw [isEmpty_iff] at he
        exact ⟨.inr fun k hk => absurd (he k) hk, fun m hm => by (cases hm)⟩
      · cases h
    · rintro ⟨h, -⟩
      refine ⟨a, if_pos ?_⟩
      rw [isEmpty_iff]
      intro k
      by_contra hk
      rcases h with h | h
      · cases h
      · obtain ⟨m, hm, -⟩ := h k hk
        cases hm
  | cons m ms ih =>
    obtain ⟨p1, p2, p3, p4, p5⟩ := hp
    have key : cbInit env ctx m kw = (do
        let a ← cbRead env ctx m (Dict.get? kw)
        return (a, eraseKeys kw (cbKeys m))) := by
      cases m <;> first | rfl | exact absurd rfl p1 | exact absurd rfl p2
    have hsame : ∀ m' ∈ ms, cbRead env ctx m' (Dict.get? (eraseKeys kw (cbKeys m))) = cbRead env ctx m' (Dict.get? kw) := by
      intro m' hm'
      refine cbRead_congr (fun k hk => ?_)
      show List.lookup k _ = List.lookup k _
      rw [lookup_eraseKeys, if_neg]
      intro hk'
      exact (p4 m' hm').1 k hk' hk
    have hrest : (∀ k, List.lookup k (eraseKeys kw (cbKeys m)) ≠ none → ∃ m ∈ ms, k ∈ cbKeys m) ↔
        ∀ k, List.lookup k kw ≠ none → ∃ m' ∈ m :: ms, k ∈ cbKeys m' := by
      constructor
      · intro h k hk
        by_cases hm : k ∈ cbKeys m
        · exact ⟨m, List.mem_cons_self .., hm⟩
        · obtain ⟨m', h1, h2⟩ := h k (by rw [lookup_eraseKeys, if_neg hm]; exact hk)
          exact ⟨m', List.mem_cons_of_mem _ h1, h2⟩
      · intro h k hk
        rw [lookup_eraseKeys] at hk
        split at hk
        · exact absurd rfl hk
        · rename_i hm
          obtain ⟨m', h1, h2⟩ := h k hk
          rcases List.mem_cons.1 h1 with rfl | h1
          · exact absurd h2 hm
          · exact ⟨m', h1, h2⟩
    rw [cbInitChain, key]
    cases hr : cbRead env ctx m (Dict.get? kw) with
    | error e =>
      constructor
      · rintro ⟨a', h⟩; cases h
      · rintro ⟨-, h⟩
        obtain ⟨w, hw⟩ := h m (List.mem_cons_self ..)
        rw [hr] at hw
        cases hw
    | ok w =>
      show (∃ a', (if cbStops m then _ else _) = _) ↔ _
      by_cases hm : m = .Inserter
      · have := p3 hm
        subst this
        rw [if_pos (by simp [cbStops, hm])]
        refine ⟨fun _ => ⟨.inl (by simp [hm]), fun m' hm' => ?_⟩, fun _ => ⟨_, rfl⟩⟩
        rw [List.mem_singleton.1 hm']
        exact ⟨w, hr⟩
      · rw [if_neg (by simp [cbStops, hm]), ih p5, hrest]
        refine and_congr (or_congr ?_ Iff.rfl) ?_
        · rw [List.mem_cons]
          exact ⟨.inr, fun h => h.resolve_left (Ne.symm hm)⟩
        · constructor
          · intro h m' hm'
            rcases List.mem_cons.1 hm' with rfl | hm'
            · exact ⟨w, hr⟩
            · rw [← hsame m' hm']; exact h m' hm'
          · intro h m' hm'
            rw [hsame m' hm']; exact h m' (List.mem_cons_of_mem _ hm')

/-! ## Combinators -/

/-- An operand that can be read. -/
def Reads (env : Env) (ctx : CbCtx) (d : Dict) (key : String) : Prop :=
  ∃ u x, (getFrom ctx d key).1 = .ok u ∧ signalSet env u = .ok x

theorem getFrom_eq {ctx : CbCtx} {d : Dict} {key : String} (hne : readKey ctx key ≠ key ++ "_signal") :
    getFrom ctx d key = (match valueAt d (readKey ctx key) with
      | .none => match valueAt d (key ++ "_signal") with
        | .none => (.ok .none, Dict.erase (Dict.erase d (readKey ctx key)) (key ++ "_signal"))
        | v => (v.subscript "name", Dict.erase (Dict.erase d (readKey ctx key)) (key ++ "_signal"))
      | v => (.ok v, Dict.erase d (readKey ctx key))) := by
  have eq : getFrom ctx d key = (match Dict.getD d (readKey ctx key) .none with
    | .none => match Dict.getD (Dict.erase d (readKey ctx key)) (key ++ "_signal") .none with
      | .none => (.ok .none, Dict.erase (Dict.erase d (readKey ctx key)) (key ++ "_signal"))
      | v => (v.subscript "name", Dict.erase (Dict.erase d (readKey ctx key)) (key ++ "_signal"))
    | v => (.ok v, Dict.erase d (readKey ctx key))) := rfl
  have e2 : Dict.getD (Dict.erase d (readKey ctx key)) (key ++ "_signal") .none = valueAt d (key ++ "_signal") := by
    unfold Dict.getD
    rw [get_erase_ne hne.symm]
    rfl
  rw [eq, e2]
  rfl

theorem reads_iff {env : Env} {ctx : CbCtx} {d : Dict} {key : String} (hne : readKey ctx key ≠ key ++ "_signal") :
    Reads env ctx d key ↔ (valueAt d (readKey ctx key) ≠ .none ∧ SignalOk env (valueAt d (readKey ctx key))) ∨
      (valueAt d (readKey ctx key) = .none ∧
        Given d (key ++ "_signal") (OrNull (Having (fun s => Needed s "name" (SignalOk env))))) := by
  unfold Reads
  rw [getFrom_eq hne, ← given_null]
  generalize valueAt d (readKey ctx key) = c
  generalize valueAt d (key ++ "_signal") = v
  split
  · simp only [ne_eq, not_true_eq_false, false_and, true_and, false_or]
    split
    · exact ⟨fun _ => .inl rfl, fun _ => ⟨.none, .none, rfl, rfl⟩⟩
    · rename_i h
      constructor
      · rintro ⟨u, x, h1, h2⟩
        exact .inr (needed_subscript.1 ⟨u, h1, signalOk_iff.1 ⟨x, h2⟩⟩)
      · rintro (h' | h')
        · exact absurd h' h
        · obtain ⟨u, h1, h2⟩ := needed_subscript.2 h'
          obtain ⟨x, h2⟩ := signalOk_iff.2 h2
          exact ⟨u, x, h1, h2⟩
  · rename_i h
    constructor
    · rintro ⟨u, x, h1, h2⟩
      cases h1
      exact .inl ⟨h, signalOk_iff.1 ⟨x, h2⟩⟩
    · rintro (⟨-, h'⟩ | ⟨h', -⟩)
      · obtain ⟨x, h2⟩ := signalOk_iff.2 h'
        exact ⟨_, x, rfl, h2⟩
      · exact absurd h' h

theorem getFrom_left {ctx : CbCtx} {d : Dict} {key : String} (hne : readKey ctx key ≠ key ++ "_signal") (k : String) :
    List.lookup k (getFrom ctx d key).2 = if k = readKey ctx key ∨ (k = key ++ "_signal" ∧ valueAt d (readKey ctx key) = .none)
      then none else List.lookup k d := by
  rw [getFrom_eq hne]
  generalize hc : valueAt d (readKey ctx key) = c
  split
  · have : ∀ v : Val, List.lookup k (match v with
        | .none => ((.ok .none : Except Exc Val), Dict.erase (Dict.erase d (readKey ctx key)) (key ++ "_signal"))
        | v => (v.subscript "name", Dict.erase (Dict.erase d (readKey ctx key)) (key ++ "_signal"))).2 =
        List.lookup k (Dict.erase (Dict.erase d (readKey ctx key)) (key ++ "_signal")) := by
      intro v; cases v <;> rfl
    rw [this, lookup_erase, lookup_erase]
    by_cases h1 : k = key ++ "_signal" <;> by_cases h2 : k = readKey ctx key <;> simp [h1, h2]
  · rename_i h
    show List.lookup k (Dict.erase d (readKey ctx key)) = _
    rw [lookup_erase]
    have : ¬ c = .none := h
    by_cases h2 : k = readKey ctx key <;> simp [h2, this]

theorem body_iff {env : Env} {ctx : CbCtx} {os : List String} {cond : Dict} (hos : ctx.options = some os) :
    (∃ a rest, combinatorBody env ctx cond = (.ok a, rest) ∧ rest.isEmpty = true) ↔
      Needed cond ctx.operator (OrNull (WordOf os)) ∧ Reads env ctx (Dict.erase cond ctx.operator) "first" ∧
      Reads env ctx (getFrom ctx (Dict.erase cond ctx.operator) "first").2 "second" ∧
      Reads env ctx (getFrom ctx (getFrom ctx (Dict.erase cond ctx.operator) "first").2 "second").2 "output" ∧
      (getFrom ctx (getFrom ctx (getFrom ctx (Dict.erase cond ctx.operator) "first").2 "second").2 "output").2.isEmpty = true := by
  unfold combinatorBody Reads Needed Dict.get?
  rw [hos]
  constructor
  · rintro ⟨a, rest, h, he⟩
    cases hop : List.lookup ctx.operator cond with
    | none => rw [hop] at h; cases h
    | some op =>
    rw [hop] at h
    dsimp only at h
    split at h
    · cases h
    rename_i op' hop'
    cases h1 : getFrom ctx (Dict.erase cond ctx.operator) "first" with
    | mk x1 k1 =>
    rw [h1] at h
    cases x1 with
    | error e => cases h
    | ok uf =>
    dsimp only at h
    split at h
    · cases h
    rename_i f hf
    cases h2 : getFrom ctx k1 "second" with
    | mk x2 k2 =>
    rw [h2] at h
    cases x2 with
    | error e => cases h
    | ok us =>
    dsimp only at h
    split at h
    · cases h
    rename_i s hs
    cases h3 : getFrom ctx k2 "output" with
    | mk x3 k3 =>
    rw [h3] at h
    cases x3 with
    | error e => cases h
    | ok uo =>
    dsimp only at h
    split at h
    · cases h
    rename_i o ho
    cases h
    exact ⟨⟨op, rfl, operator_ok.1 ⟨_, hop'⟩⟩, ⟨uf, f, rfl, hf⟩, ⟨us, s, rfl, hs⟩, ⟨uo, o, rfl, ho⟩, he⟩
  · rintro ⟨⟨op, hop, hw⟩, ⟨uf, f, h1, hf⟩, ⟨us, s, h2, hs⟩, ⟨uo, o, h3, ho⟩, he⟩
    obtain ⟨op', hop'⟩ := operator_ok.2 hw
    cases g1 : getFrom ctx (Dict.erase cond ctx.operator) "first" with
    | mk x1 k1 =>
    rw [g1] at h1 h2 h3 he
    dsimp only at h1 h2 h3 he
    subst h1
    cases g2 : getFrom ctx k1 "second" with
    | mk x2 k2 =>
    rw [g2] at h2 h3 he
    dsimp only at h2 h3 he
    subst h2
    cases g3 : getFrom ctx k2 "output" with
    | mk x3 k3 =>
    rw [g3] at h3 he
    dsimp only at h3 he
    subst h3
    refine ⟨[("operator", op'), ("first", f), ("second", s), ("output", o)], k3, ?_, he⟩
    rw [hop]
    dsimp only
    rw [hop']
    dsimp only
    rw [g1]
    dsimp only
    rw [hf]
    dsimp only
    rw [g2]
    dsimp only
    rw [hs]
    dsimp only
    rw [g3]
    dsimp only
    rw [ho]

theorem valueAt_congr {d d' : Dict} {k : String} (h : List.lookup k d' = List.lookup k d) : valueAt d' k = valueAt d k := by
  unfold valueAt
  rw [h]

theorem reads_congr {env : Env} {ctx : CbCtx} {d d' : Dict} {key : String} (hne : readKey ctx key ≠ key ++ "_signal")
    (h1 : List.lookup (readKey ctx key) d' = List.lookup (readKey ctx key) d)
    (h2 : List.lookup (key ++ "_signal") d' = List.lookup (key ++ "_signal") d) :
    Reads env ctx d' key ↔ Reads env ctx d key := by
  rw [reads_iff hne, reads_iff hne, valueAt_congr h1]
  unfold Given
  rw [h2]

/-- An operand that can be read, and nothing of which is left. -/
theorem operandOk_iff {env : Env} {ctx : CbCtx} {d : Dict} {key : String} (hne : readKey ctx key ≠ key ++ "_signal") :
    OperandOk env d (readKey ctx key) (key ++ "_signal") ↔ Reads env ctx d key ∧
      (valueAt d (readKey ctx key) = .none ∨ List.lookup (key ++ "_signal") d = none) := by
  rw [reads_iff hne]
  unfold OperandOk
  constructor
  · rintro (⟨h1, h2, h3⟩ | ⟨h1, h2⟩)
    · exact ⟨.inl ⟨h1, h2⟩, .inr h3⟩
    · exact ⟨.inr ⟨h1, h2⟩, .inl h1⟩
  · rintro ⟨⟨h1, h2⟩ | ⟨h1, h2⟩, h3⟩
    · exact .inl ⟨h1, h2, h3.resolve_left h1⟩
    · exact .inr ⟨h1, h2⟩

theorem conditions_iff {env : Env} {ctx : CbCtx} {os : List String} {cond : Dict} (hos : ctx.options = some os)
    (hn : (tripKeys ctx).Nodup) :
    (∃ a rest, combinatorBody env ctx cond = (.ok a, rest) ∧ rest.isEmpty = true) ↔
      Only (tripKeys ctx) cond ∧ Needed cond ctx.operator (OrNull (WordOf os)) ∧
      OperandOk env cond (readKey ctx "first") ("first" ++ "_signal") ∧
      OperandOk env cond (readKey ctx "second") ("second" ++ "_signal") ∧
      OperandOk env cond (readKey ctx "output") ("output" ++ "_signal") := by
  rw [body_iff hos]
  unfold tripKeys at hn ⊢
  simp only [List.nodup_cons, List.mem_cons, List.not_mem_nil, or_false, not_or, -String.reduceAppend, not_false_eq_true,
    List.nodup_nil, and_true] at hn
  obtain ⟨⟨a1, a2, a3, a4, a5, a6⟩, ⟨b1, b2, b3, b4, b5⟩, ⟨c1, c2, c3, c4⟩, ⟨d1, d2, d3⟩, ⟨e1, e2⟩, f1⟩ := hn
  rw [operandOk_iff b1, operandOk_iff d1, operandOk_iff f1]
  have g0 : ∀ k, k ≠ ctx.operator → List.lookup k (Dict.erase cond ctx.operator) = List.lookup k cond := fun k hk => by
    rw [lookup_erase, if_neg hk]
  have g1 : ∀ k, k ≠ ctx.operator → k ≠ readKey ctx "first" → k ≠ "first" ++ "_signal" →
      List.lookup k (getFrom ctx (Dict.erase cond ctx.operator) "first").2 = List.lookup k cond := fun k h0 h1 h2 => by
    rw [getFrom_left b1, if_neg (by rintro (h | h) <;> [exact h1 h; exact h2 h.1]), g0 k h0]
  have g2 : ∀ k, k ≠ ctx.operator → k ≠ readKey ctx "first" → k ≠ "first" ++ "_signal" → k ≠ readKey ctx "second" →
      k ≠ "second" ++ "_signal" →
      List.lookup k (getFrom ctx (getFrom ctx (Dict.erase cond ctx.operator) "first").2 "second").2 = List.lookup k cond :=
    fun k h0 h1 h2 h3 h4 => by
      rw [getFrom_left d1, if_neg (by rintro (h | h) <;> [exact h3 h; exact h4 h.1]), g1 k h0 h1 h2]
  have v1 : valueAt (Dict.erase cond ctx.operator) (readKey ctx "first") = valueAt cond (readKey ctx "first") :=
    valueAt_congr (g0 _ (Ne.symm a1))
  have v2 : valueAt (getFrom ctx (Dict.erase cond ctx.operator) "first").2 (readKey ctx "second") =
      valueAt cond (readKey ctx "second") := valueAt_congr (g1 _ (Ne.symm a3) (Ne.symm b2) (Ne.symm c1))
  have v3 : valueAt (getFrom ctx (getFrom ctx (Dict.erase cond ctx.operator) "first").2 "second").2 (readKey ctx "output") =
      valueAt cond (readKey ctx "output") :=
    valueAt_congr (g2 _ (Ne.symm a5) (Ne.symm b4) (Ne.symm c3) (Ne.symm d2) (Ne.symm e1))
  have r1 : Reads env ctx (Dict.erase cond ctx.operator) "first" ↔ Reads env ctx cond "first" :=
    reads_congr b1 (g0 _ (Ne.symm a1)) (g0 _ (Ne.symm a2))
  have r2 : Reads env ctx (getFrom ctx (Dict.erase cond ctx.operator) "first").2 "second" ↔ Reads env ctx cond "second" :=
    reads_congr d1 (g1 _ (Ne.symm a3) (Ne.symm b2) (Ne.symm c1)) (g1 _ (Ne.symm a4) (Ne.symm b3) (Ne.symm c2))
  have r3 : Reads env ctx (getFrom ctx (getFrom ctx (Dict.erase cond ctx.operator) "first").2 "second").2 "output" ↔
      Reads env ctx cond "output" :=
    reads_congr f1 (g2 _ (Ne.symm a5) (Ne.symm b4) (Ne.symm c3) (Ne.symm d2) (Ne.symm e1))
      (g2 _ (Ne.symm a6) (Ne.symm b5) (Ne.symm c4) (Ne.symm d3) (Ne.symm e2))
  have left : ∀ k, List.lookup k
      (getFrom ctx (getFrom ctx (getFrom ctx (Dict.erase cond ctx.operator) "first").2 "second").2 "output").2 =
      if k = readKey ctx "output" ∨ (k = "output" ++ "_signal" ∧ valueAt cond (readKey ctx "output") = .none) then none else
      if k = readKey ctx "second" ∨ (k = "second" ++ "_signal" ∧ valueAt cond (readKey ctx "second") = .none) then none else
      if k = readKey ctx "first" ∨ (k = "first" ++ "_signal" ∧ valueAt cond (readKey ctx "first") = .none) then none else
      if k = ctx.operator then none else List.lookup k cond := by
    intro k
    rw [getFrom_left f1, v3, getFrom_left d1, v2, getFrom_left b1, v1, lookup_erase]
  rw [r1, r2, r3, isEmpty_iff]
  simp only [left]
  constructor
  · rintro ⟨hop, h1, h2, h3, he⟩
    refine ⟨fun k hk => ?_, hop, ⟨h1, ?_⟩, ⟨h2, ?_⟩, ⟨h3, ?_⟩⟩
    · by_contra hn
      simp only [List.mem_cons, List.not_mem_nil, or_false, not_or, -String.reduceAppend] at hn
      obtain ⟨n1, n2, n3, n4, n5, n6, n7⟩ := hn
      have := he k
      rw [if_neg (by rintro (h | h) <;> [exact n6 h; exact n7 h.1]), if_neg (by rintro (h | h) <;> [exact n4 h; exact n5 h.1]),
        if_neg (by rintro (h | h) <;> [exact n2 h; exact n3 h.1]), if_neg n1] at this
      exact hk this
    · by_cases hv : valueAt cond (readKey ctx "first") = .none
      · exact .inl hv
      · right
        have := he ("first" ++ "_signal")
        rwa [if_neg (by rintro (h | h) <;> [exact c3 h; exact c4 h.1]), if_neg (by rintro (h | h) <;> [exact c1 h; exact c2 h.1]),
          if_neg (by rintro (h | h) <;> [exact b1 h.symm; exact hv h.2]), if_neg (Ne.symm a2)] at this
    · by_cases hv : valueAt cond (readKey ctx "second") = .none
      · exact .inl hv
      · right
        have := he ("second" ++ "_signal")
        rwa [if_neg (by rintro (h | h) <;> [exact e1 h; exact e2 h.1]), if_neg (by rintro (h | h) <;> [exact d1 h.symm; exact hv h.2]),
          if_neg (by rintro (h | h) <;> [exact b3 h.symm; exact c2 h.1.symm]), if_neg (Ne.symm a4)] at this
    · by_cases hv : valueAt cond (readKey ctx "output") = .none
      · exact .inl hv
      · right
        have := he ("output" ++ "_signal")
        rwa [if_neg (by rintro (h | h) <;> [exact f1 h.symm; exact hv h.2]), if_neg (by rintro (h | h) <;> [exact d3 h.symm; exact e2 h.1.symm]),
          if_neg (by rintro (h | h) <;> [exact b5 h.symm; exact c4 h.1.symm]), if_neg (Ne.symm a6)] at this
  · rintro ⟨honly, hop, ⟨h1, l1⟩, ⟨h2, l2⟩, h3, l3⟩
    refine ⟨hop, h1, h2, h3, fun k => ?_⟩
    by_contra hk
    split at hk
    · exact hk rfl
    rename_i n3
    split at hk
    · exact hk rfl
    rename_i n2
    split at hk
    · exact hk rfl
    rename_i n1
    split at hk
    · exact hk rfl
    rename_i n0
    have := honly k hk
    simp only [List.mem_cons, List.not_mem_nil, or_false, -String.reduceAppend] at this
    rcases this with h | h | h | h | h | h | h
    · exact n0 h
    · exact n1 (.inl h)
    · rcases l1 with l | l
      · exact n1 (.inr ⟨h, l⟩)
      · rw [h] at hk; exact hk l
    · exact n2 (.inl h)
    · rcases l2 with l | l
      · exact n2 (.inr ⟨h, l⟩)
      · rw [h] at hk; exact hk l
    · exact n3 (.inl h)
    · rcases l3 with l | l
      · exact n3 (.inr ⟨h, l⟩)
      · rw [h] at hk; exact hk l

theorem condRest_empty {kw rest : Dict} {f : String} :
    (condRest kw f rest).isEmpty = true ↔ rest.isEmpty = true ∧ Only [f] kw := by
  rw [isEmpty_iff]
  simp only [lookup_condRest]
  unfold Only
  constructor
  · intro h
    refine ⟨?_, fun k hk => ?_⟩
    · have := h f
      rw [if_pos rfl] at this
      by_contra hr
      rw [if_neg hr] at this
      cases this
    · by_contra hn
      rw [List.mem_singleton] at hn
      have := h k
      rw [if_neg hn] at this
      exact hk this
  · rintro ⟨hr, h⟩ k
    split
    · rfl
    · rename_i hn
      by_contra hk
      exact hn (List.mem_singleton.1 (h k hk))

theorem asPopDict_iff {v : Val} {d : Dict} : v.asPopDict = .ok d ↔ v = .dict d := by
  cases v <;> simp [Val.asPopDict]

theorem arithmetic_iff {env : Env} {ctx : CbCtx} {lo : Exc} {kw : Dict} (ht : ctx.type = "arithmetic")
    (ho : ctx.operator = "operation") (hos : ctx.options = some arithmeticOps) :
    (∃ a, cbInitChain env ctx lo [.Arithmetic, .Combinator] kw [] = .ok a) ↔
      Only ["arithmetic_conditions"] kw ∧ Needed kw "arithmetic_conditions" (Having (ConditionsOk env "operation"
        ["*", "/", "+", "-", "%", "^", "<<", ">>", "AND", "OR", "XOR"] "first_constant" [])) := by
  have hf : ctx.field = "arithmetic_conditions" := by unfold CbCtx.field; rw [ht]; rfl
  have k1 : readKey ctx "first" = "first_constant" := by unfold readKey; rw [ht]; rfl
  have k2 : readKey ctx "second" = "second_constant" := by unfold readKey; rw [ht]; rfl
  have k3 : readKey ctx "output" = "output_constant" := by unfold readKey; rw [ht]; rfl
  have ht' : tripKeys ctx = ["operation", "first_constant", "first_signal", "second_constant", "second_signal",
      "output_constant", "output_signal"] := by
    unfold tripKeys; rw [ho, k1, k2, k3]; rfl
  have hb : ∀ cond, (∃ a rest, combinatorBody env ctx cond = (.ok a, rest) ∧ rest.isEmpty = true) ↔
      ConditionsOk env "operation" ["*", "/", "+", "-", "%", "^", "<<", ">>", "AND", "OR", "XOR"] "first_constant" [] cond := by
    intro cond
    rw [conditions_iff hos (by rw [ht']; decide), ht', ho, k1, k2, k3]
    rfl
  have e0 : eraseKeys kw (cbKeys .Arithmetic) = kw := by
    unfold eraseKeys cbKeys
    simp
  have e1 : cbInit env ctx .Arithmetic kw = .ok ([], kw) := by
    show Except.ok (([] : Attrs), eraseKeys kw (cbKeys .Arithmetic)) = _
    rw [e0]
  have eq : (∃ a, cbInitChain env ctx lo [.Arithmetic, .Combinator] kw [] = .ok a) ↔
      ∃ cond a rest, (Dict.getD kw ctx.field (.dict [])).asPopDict = .ok cond ∧ combinatorBody env ctx cond = (.ok a, rest) ∧
        (condRest kw ctx.field rest).isEmpty = true := by
    rw [cbInitChain, e1]
    show (∃ a, cbInitChain env ctx lo [.Combinator] kw _ = .ok a) ↔ _
    rw [cbInitChain]
    simp only [show cbInit env ctx .Combinator kw = combinatorInit env ctx kw from rfl]
    constructor
    · rintro ⟨a, h⟩
      cases hc : combinatorInit env ctx kw with
      | error e => rw [hc] at h; cases h
      | ok r =>
        obtain ⟨cond, a', rest, h1, h2, rfl⟩ := combinatorInit_rest.1 hc
        rw [hc] at h
        refine ⟨cond, a', rest, h1, h2, ?_⟩
        have h : (if (condRest kw ctx.field rest).isEmpty then Except.ok _ else .error lo) = Except.ok a := h
        split at h
        · assumption
        · cases h
    · rintro ⟨cond, a', rest, h1, h2, h3⟩
      rw [combinatorInit_rest.2 ⟨cond, a', rest, h1, h2, rfl⟩]
      show ∃ a, (if (condRest kw ctx.field rest).isEmpty then Except.ok _ else .error lo) = Except.ok a
      rw [h3]
      exact ⟨_, rfl⟩
  rw [eq]
  simp only [condRest_empty, asPopDict_iff, hf]
  constructor
  · rintro ⟨cond, a, rest, h1, h2, h3, h4⟩
    refine ⟨h4, ?_⟩
    have hc := (hb cond).1 ⟨a, rest, h2, h3⟩
    unfold Dict.getD Dict.get? at h1
    cases hl : List.lookup "arithmetic_conditions" kw with
    | none =>
      rw [hl] at h1
      cases h1
      obtain ⟨-, ⟨v, hv, -⟩, -⟩ := hc
      cases hv
    | some v =>
      rw [hl] at h1
      exact ⟨v, hl, cond, h1, hc⟩
  · rintro ⟨h4, v, hl, cond, rfl, hc⟩
    obtain ⟨a, rest, h2, h3⟩ := (hb cond).2 hc
    refine ⟨cond, a, rest, ?_, h2, h3, h4⟩
    unfold Dict.getD Dict.get?
    rw [hl]
    rfl

theorem only_erase {ks : List String} {d : Dict} {k : String} : Only ks (Dict.erase d k) ↔ Only (k :: ks) d := by
  unfold Only
  simp only [lookup_erase, List.mem_cons]
  constructor
  · intro h k' hk
    by_cases e : k' = k
    · exact .inl e
    · exact .inr (h k' (by rw [if_neg e]; exact hk))
  · intro h k' hk
    split at hk
    · exact absurd rfl hk
    · rename_i e
      exact (h k' hk).resolve_left e

theorem operandOk_erase {env : Env} {d : Dict} {k c s : String} (h1 : c ≠ k) (h2 : s ≠ k) :
    OperandOk env (Dict.erase d k) c s ↔ OperandOk env d c s := by
  unfold OperandOk Given valueAt
  rw [lookup_erase, if_neg h1, lookup_erase, if_neg h2]

theorem decider_iff {env : Env} {ctx : CbCtx} {lo : Exc} {kw : Dict} (ht : ctx.type = "decider")
    (ho : ctx.operator = "comparator") (hos : ctx.options = some deciderOps) :
    (∃ a, cbInitChain env ctx lo [.Decider, .Combinator] kw [] = .ok a) ↔
      Only ["decider_conditions"] kw ∧ Needed kw "decider_conditions" (Having (ConditionsOk env "comparator"
        [">", "<", "=", "≥", "≤", "!="] "constant" ["copy_count_from_input"])) := by
  have hf : ctx.field = "decider_conditions" := by unfold CbCtx.field; rw [ht]; rfl
  have k1 : readKey ctx "first" = "constant" := by unfold readKey; rw [ht]; rfl
  have k2 : readKey ctx "second" = "second_constant" := by unfold readKey; rw [ht]; rfl
  have k3 : readKey ctx "output" = "output_constant" := by unfold readKey; rw [ht]; rfl
  have ht' : tripKeys ctx = ["comparator", "constant", "first_signal", "second_constant", "second_signal",
      "output_constant", "output_signal"] := by
    unfold tripKeys; rw [ho, k1, k2, k3]; rfl
  have hb : ∀ cond, (∃ a rest, combinatorBody env ctx (Dict.erase cond "copy_count_from_input") = (.ok a, rest) ∧
      rest.isEmpty = true) ↔
      ConditionsOk env "comparator" [">", "<", "=", "≥", "≤", "!="] "constant" ["copy_count_from_input"] cond := by
    intro cond
    rw [conditions_iff hos (by rw [ht']; decide), ht', ho, k1, k2, k3, operandOk_erase (by decide) (by decide),
      operandOk_erase (by decide) (by decide), operandOk_erase (by decide) (by decide), only_erase]
    unfold ConditionsOk Needed
    rw [lookup_erase, if_neg (by decide)]
    refine and_congr ?_ Iff.rfl
    unfold Only
    refine forall_congr' fun k => imp_congr_right fun _ => ?_
    simp only [List.mem_cons, List.mem_append, List.not_mem_nil, or_false]
    tauto
  have eq : (∃ a, cbInitChain env ctx lo [.Decider, .Combinator] kw [] = .ok a) ↔
      ∃ v cond, Dict.get? kw ctx.field = some v ∧ v.asPopDict = .ok cond ∧ ∃ cond' a rest,
        (Dict.getD (condRest kw ctx.field (Dict.erase cond "copy_count_from_input")) ctx.field (.dict [])).asPopDict = .ok cond' ∧
        combinatorBody env ctx cond' = (.ok a, rest) ∧
        (condRest (condRest kw ctx.field (Dict.erase cond "copy_count_from_input")) ctx.field rest).isEmpty = true := by
    rw [cbInitChain]
    simp only [show cbInit env ctx .Decider kw = deciderInit ctx kw from rfl]
    constructor
    · rintro ⟨a, h⟩
      cases hc : deciderInit ctx kw with
      | error e => rw [hc] at h; cases h
      | ok r =>
        obtain ⟨v, cond, h1, h2, rfl⟩ := deciderInit_rest.1 hc
        rw [hc] at h
        refine ⟨v, cond, h1, h2, ?_⟩
        generalize condRest kw ctx.field (Dict.erase cond "copy_count_from_input") = kw' at h ⊢
        have h : cbInitChain env ctx lo [.Combinator] kw' _ = .ok a := h
        rw [cbInitChain] at h
        simp only [show cbInit env ctx .Combinator kw' = combinatorInit env ctx kw' from rfl] at h
        cases hc' : combinatorInit env ctx kw' with
        | error e => rw [hc'] at h; cases h
        | ok r =>
          obtain ⟨cond', a', rest, h1, h2, rfl⟩ := combinatorInit_rest.1 hc'
          rw [hc'] at h
          refine ⟨cond', a', rest, h1, h2, ?_⟩
          have h : (if (condRest kw' ctx.field rest).isEmpty then Except.ok _ else .error lo) = Except.ok a := h
          split at h
          · assumption
          · cases h
    · rintro ⟨v, cond, h1, h2, cond', a', rest, h3, h4, h5⟩
      rw [deciderInit_rest.2 ⟨v, cond, h1, h2, rfl⟩]
      generalize condRest kw ctx.field (Dict.erase cond "copy_count_from_input") = kw' at h3 h5 ⊢
      show ∃ a, cbInitChain env ctx lo [.Combinator] kw' _ = .ok a
      rw [cbInitChain]
      simp only [show cbInit env ctx .Combinator kw' = combinatorInit env ctx kw' from rfl]
      rw [combinatorInit_rest.2 ⟨cond', a', rest, h3, h4, rfl⟩]
      show ∃ a, (if (condRest kw' ctx.field rest).isEmpty then Except.ok _ else .error lo) = Except.ok a
      rw [h5]
      exact ⟨_, rfl⟩
  have hcond : ∀ rest : Dict, Dict.getD (condRest kw ctx.field rest) ctx.field (.dict []) = .dict rest := by
    intro rest
    unfold Dict.getD Dict.get?
    rw [lookup_condRest, if_pos rfl]
    split
    · rename_i h
      rw [List.isEmpty_iff.1 h]
      rfl
    · rfl
  have honly : ∀ rest : Dict, Only [ctx.field] (condRest kw ctx.field rest) ↔ Only [ctx.field] kw := by
    intro rest
    unfold Only
    refine forall_congr' fun k => ?_
    rw [lookup_condRest]
    by_cases hk : k = ctx.field
    · simp [hk]
    · rw [if_neg hk]
  rw [eq]
  simp only [hcond, condRest_empty, asPopDict_iff, honly]
  rw [hf]
  constructor
  · rintro ⟨v, cond, hl, rfl, cond', a, rest, h1, h2, h3, h4⟩
    cases h1
    exact ⟨h4, _, hl, cond, rfl, (hb cond).1 ⟨a, rest, h2, h3⟩⟩
  · rintro ⟨h4, v, hl, cond, rfl, hc⟩
    obtain ⟨a, rest, h2, h3⟩ := (hb cond).2 hc
    exact ⟨_, cond, hl, rfl, _, a, rest, rfl, h2, h3, h4⟩

theorem mem_false {d : Dict} {k : String} : Dict.mem d k = false ↔ List.lookup k d = none := by
  unfold Dict.mem Dict.get?
  cases List.lookup k d <;> simp

/-- The control behaviour of a class of the table takes exactly good data. -/
theorem control_ok {env : Env} {lo : Exc} {c : Klass} {v : Val} (hg : GoodKlass c)
    (hf : .Filters ∈ c.cbChain → c.ctx.filtersShadowed = false) :
    (∃ x, Cb.new env lo c v = .ok x) ↔ Having (ControlOk env c) v := by
  rw [cbNew_ok]
  unfold Having
  refine exists_congr fun d => and_congr_right fun _ => ?_
  unfold ControlOk
  rw [mem_false, mem_false]
  refine and_congr_right fun _ => and_congr_right fun _ => ?_
  rcases hg.2.2 with h | ⟨h, h1, h2, h3⟩ | ⟨h, h1, h2, h3⟩
  · rw [if_neg (by intro e; rw [e] at h; exact h.2.2.2.2.1 rfl), if_neg (by intro e; rw [e] at h; exact h.2.1 rfl), cbInitChain_iff h]
    simp only [controlSettings_eq]
    refine and_congr_right fun _ => forall_congr' fun m => imp_congr_right fun hm => cbRead_ok ?_
    rintro rfl
    exact hf hm
  · rw [if_pos h, h]
    exact arithmetic_iff h1 h2 h3
  · rw [if_neg (by rw [h]; decide), if_pos h, h]
    exact decider_iff h1 h2 h3

/-! ## Entities -/

theorem rows_filters : ∀ p ∈ entityPrototypes, ∀ k, Klass.extend 0 Klass.entity p.2 = .ok k →
    (.FilterInserter ∈ k.chain → k.insFiltersShadowed = false) ∧
    (.Filters ∈ k.cbChain → k.ctx.filtersShadowed = false) := by
  have h : (entityPrototypes.all fun p => match Klass.extend 0 Klass.entity p.2 with
    | .ok k => decide ((.FilterInserter ∈ k.chain → k.insFiltersShadowed = false) ∧
      (.Filters ∈ k.cbChain → k.ctx.filtersShadowed = false)) | .error _ => true) = true := by
    decide +kernel
  intro p hp k hk
  have := List.all_eq_true.1 h p hp
  rw [hk] at this
  exact of_decide_eq_true this

theorem initChain_unshadowed {env : Env} {strict sh pop : Bool} {lo : Exc} {ms : List Mx} {kw : Dict} {a : Attrs}
    (h : .FilterInserter ∈ ms → sh = false) :
    initChain env strict sh lo ms pop kw a = initChain env strict false lo ms pop kw a := by
  cases sh with
  | false => rfl
  | true =>
    induction ms generalizing kw a pop with
    | nil => rfl
    | cons m ms ih =>
      have hm : mxRead env strict true m = mxRead env strict false m := by
        cases m <;> first | rfl | exact absurd (h (.head _)) (by decide)
      simp only [initChain, hm, ih (fun h' => h (.tail _ h'))]

theorem direction_ok {v : Val} : (∃ x, Direction.ofVal v = .ok x) ↔ Countable v := by
  unfold Countable
  cases v with
  | num n =>
    cases n with
    | int z => simp [Direction.ofVal]
    | flt q => simp [Direction.ofVal, Num.mod, Num.val]
  | bool t => simp [Direction.ofVal]
  | _ => simp [Direction.ofVal]

theorem number_ok {v : Val} : (∃ x, Entity.numberOf v = .ok x) ↔ OrNull IsInt v := by
  unfold OrNull IsInt Entity.numberOf
  cases v with
  | num n => cases n <;> simp
  | _ => simp

/-- If the name gives the object the class of `e'`, the remaining data decide. -/
theorem new_named {env : Env} {custom : Option Custom} {layer : Option BpId} {z : Dict} {e' : Entity} {name : Val}
    (z3 : Dict.get? z "name" = some name)
    (hname : ∀ nz, Entity.setName env custom (Entity.raw0 layer z nz) name = (.ok (), { e' with number := nz, auto := nz }))
    (hg : GoodKlass e'.klass) (hi : .FilterInserter ∈ e'.klass.chain → e'.klass.insFiltersShadowed = false)
    (hf : .Filters ∈ e'.klass.cbChain → e'.klass.ctx.filtersShadowed = false) :
    (∃ ez, Entity.new env custom layer z = .ok ez) ↔ Settable env e'.strict e'.klass z := by
  have hchain : (∃ a, initChain env e'.strict e'.klass.insFiltersShadowed (leftoverExc env e'.name) e'.klass.chain false
      (eraseKeys z (Entity.ownKeys ++ ["connections", "control_behavior"])) [] = .ok a) ↔
      (∀ k, List.lookup k z ≠ none → k ∈ Entity.ownKeys ++ ["connections", "control_behavior"] ∨
        ∃ m ∈ e'.klass.chain, k ∈ settings m) ∧
      ∀ m ∈ e'.klass.chain, BehaviourOk env e'.strict z m := by
    rw [initChain_unshadowed hi, initChain_iff hg.1 hg.2.1]
    refine and_congr ?_ (forall_congr' fun m => imp_congr_right fun hm => ?_)
    · refine forall_congr' fun k => ?_
      rw [lookup_eraseKeys]
      by_cases hk : k ∈ Entity.ownKeys ++ ["connections", "control_behavior"]
      · simp only [if_pos hk, ne_eq, not_true_eq_false, false_imp_iff, true_iff]
        exact fun _ => .inl hk
      · simp only [if_neg hk, settings_eq]
        exact imp_congr_right fun _ => ⟨.inr, fun h => h.resolve_left hk⟩
    · rw [← mxRead_ok]
      rw [mxRead_congr (g' := Dict.get? z)]
      intro k hk
      show List.lookup k _ = List.lookup k _
      rw [lookup_eraseKeys, if_neg]
      revert hk
      revert k
      cases m <;> decide
  have hcb : (∃ c, Entity.cbOf env e' z = .ok c) ↔ Given z "control_behavior" (Having (ControlOk env e'.klass)) := by
    unfold Entity.cbOf Given Dict.get?
    cases List.lookup "control_behavior" z with
    | none => exact ⟨fun _ v h => by (cases h), fun _ => ⟨_, rfl⟩⟩
    | some v =>
      simp only [bind_eq_ok, pure_eq_ok, Except.ok.injEq, Option.some.injEq, forall_eq']
      rw [← control_ok (lo := leftoverExc env e'.name) hg hf]
      exact ⟨fun ⟨_, c, h, _⟩ => ⟨c, h⟩, fun ⟨c, h⟩ => ⟨_, c, h, rfl⟩⟩
  have hdir : (∃ d, Direction.ofVal (Dict.getD z "direction" (.int 0)) = .ok d) ↔ Given z "direction" Countable :=
    direction_ok.trans (given_default (.inl ⟨_, rfl⟩))
  have hnum : (∃ n, Entity.numberOf (Dict.getD z "entity_number" .none) = .ok n) ↔ Given z "entity_number" (OrNull IsInt) :=
    number_ok.trans given_null
  have own : Entity.ownKeys ++ ["connections", "control_behavior"] = ["name", "position", "strict", "direction",
    "entity_number", "connections", "control_behavior"] := rfl
  rw [own] at hchain
  constructor
  · rintro ⟨ez, hz⟩
    obtain ⟨z1, z2, name', pz, nz, ez', z3', z4, z5, z6, z7⟩ := Entity.new_ok.1 hz
    cases z3.symm.trans z3'
    rw [hname nz] at z6
    cases z6
    obtain ⟨posz, dirz, cbz, az, g1, g2, g3, g4, -⟩ := Entity.finish_ok.1 z7
    obtain ⟨c1, c2⟩ := hchain.1 ⟨az, g4⟩
    exact ⟨c1, ⟨pz, z4, posOf_ok.1 ⟨_, g1⟩⟩, hnum.1 ⟨_, z5⟩, hdir.1 ⟨_, g2⟩, c2, hcb.1 ⟨_, g3⟩⟩
  · intro h
    obtain ⟨az, g4⟩ := hchain.2 ⟨h.known, h.behaviours⟩
    obtain ⟨cz, g3⟩ := hcb.2 h.control
    obtain ⟨dz, g2⟩ := hdir.2 h.direction
    obtain ⟨nz, z5⟩ := hnum.2 h.number
    obtain ⟨pz, z4, hp⟩ := h.position
    obtain ⟨posz, g1⟩ := posOf_ok.2 hp
    have no : ∀ k, k ∉ ["name", "position", "strict", "direction", "entity_number", "connections", "control_behavior"] →
        (∀ m, k ∉ settings m) → Dict.mem z k = false := by
      intro k h1 h2
      rw [mem_false]
      by_contra hk
      rcases h.known k hk with h' | ⟨m, -, h'⟩
      · exact h1 h'
      · exact h2 m h'
    refine ⟨_, Entity.new_ok.2 ⟨no _ (by decide) (fun m => by cases m <;> decide), no _ (by decide) (fun m => by cases m <;> decide),
      name, pz, nz, _, z3, z4, z5, hname nz, Entity.finish_ok.2 ⟨posz, dz, cz, az, g1, g2, g3, g4, rfl⟩⟩⟩

theorem setName_all {env : Env} {custom : Option Custom} {layer : Option BpId} {z : Dict} {e' : Entity} {name : Val}
    {n : Option Int} (h : Entity.setName env custom (Entity.raw0 layer z n) name = (.ok (), e')) (nz : Option Int) :
    Entity.setName env custom (Entity.raw0 layer z nz) name = (.ok (), { e' with number := nz, auto := nz }) := by
  have := setName_number env custom (Entity.raw0 layer z n) nz nz name
  rwa [h] at this

theorem strictIn_iff {d : Dict} {s : Bool} : StrictIn d s ↔ (Dict.getD d "strict" (.bool true)).truthy = s := by
  unfold StrictIn Needed Dict.getD Dict.get?
  cases h : List.lookup "strict" d with
  | none => cases s <;> simp [Val.truthy]
  | some v =>
    simp only [Option.some.injEq, exists_eq_left', Option.getD_some, ← nothing_iff]
    cases s <;> cases v.truthy <;> simp

/-- The class that a name gives to a new object. -/
theorem setName_class {env : Env} {p : Bp} {layer : Option BpId} {z : Dict} {s : Bool} {k : Klass} (hs : StrictIn z s)
    {v : Val} {n : Option Int} :
    (∃ e', Entity.setName env (some p.custom) (Entity.raw0 layer z n) v = (.ok (), e') ∧ e'.strict = s ∧ e'.klass = k) ↔
      ∃ name, v = .str name ∧ ClassOf env p s name k := by
  rw [strictIn_iff] at hs
  have hs' : (Entity.raw0 layer z n).strict = s := hs
  constructor
  · rintro ⟨e', h, h1, rfl⟩
    obtain ⟨name, rfl, ⟨h2, rfl⟩ | ⟨h2, data, t, ms, k, d1, d2, d3, d4, rfl⟩⟩ := Entity.setName_ok h
    · rw [hs'] at h2
      subst h2
      exact ⟨name, rfl, rfl⟩
    · rw [hs'] at h2
      subst h2
      refine ⟨name, rfl, ?_⟩
      cases t with
      | str ty =>
        obtain ⟨d, rfl, hl⟩ := subscript_ok.1 d2
        unfold mixinsFor at d3
        dsimp only at d3
        cases hp : prototypeMixins ty with
        | none => rw [hp] at d3; cases d3
        | some rs =>
          rw [hp] at d3
          simp only [Option.getD_some, Except.ok.injEq] at d3
          subst d3
          exact ⟨ty, rs, ⟨d, d1, hl⟩, hp, d4⟩
      | _ => unfold mixinsFor at d3; dsimp only at d3; split at d3 <;> cases d3
  · rintro ⟨name, rfl, h⟩
    unfold Entity.setName
    rw [hs']
    cases s with
    | false =>
      cases h
      exact ⟨_, rfl, rfl, rfl⟩
    | true =>
      obtain ⟨ty, ms, ⟨d, d1, hl⟩, hp, d4⟩ := h
      have e1 : Dict.get? env.entities name = some (.dict d) := d1
      have e2 : Val.subscript (.dict d) "type" = .ok (.str ty) := subscript_ok.2 ⟨d, rfl, hl⟩
      have e3 : mixinsFor (some p.custom) (.str ty) = .ok (customFor p ty ++ ms) := by
        unfold mixinsFor customFor
        simp only [show prototypeMixins ty = some ms from hp, Option.getD_some]
      have e4 : Klass.extend (Entity.raw0 layer z n).depth (Entity.raw0 layer z n).klass (customFor p ty ++ ms) = .ok k := d4
      simp only [Bool.not_true, Bool.false_eq_true, if_false, e1, e2, e3, e4]
      exact ⟨_, rfl, rfl, rfl⟩

theorem plain_filters : ∀ m ∈ plainBehaviours, ∀ p ∈ entityPrototypes, ∀ k,
    Klass.extend 0 Klass.entity ([m] ++ p.2) = .ok k → (.FilterInserter ∈ k.chain → k.insFiltersShadowed = false) ∧
      (.Filters ∈ k.cbChain → k.ctx.filtersShadowed = false) := by
  have h : (plainBehaviours.all fun m => entityPrototypes.all fun p => match Klass.extend 0 Klass.entity ([m] ++ p.2) with
    | .ok k => decide ((.FilterInserter ∈ k.chain → k.insFiltersShadowed = false) ∧
      (.Filters ∈ k.cbChain → k.ctx.filtersShadowed = false)) | .error _ => true) = true := by decide +kernel
  intro m hm p hp k hk
  have := List.all_eq_true.1 (List.all_eq_true.1 h m hm) p hp
  rw [hk] at this
  exact of_decide_eq_true this

theorem classOf_good {env : Env} {p : Bp} {s : Bool} {name : String} {k : Klass} (hc : PlainCustom env p)
    (h : ClassOf env p s name k) :
    GoodKlass k ∧ (.FilterInserter ∈ k.chain → k.insFiltersShadowed = false) ∧
      (.Filters ∈ k.cbChain → k.ctx.filtersShadowed = false) := by
  cases s with
  | false =>
    cases h
    decide
  | true =>
    obtain ⟨ty, ms, ht, d3, d4⟩ := h
    rcases hc name ty ht with h0 | ⟨m, hm, h0⟩
    · rw [h0] at d4
      exact ⟨rows_good (ty, ms) (mem_of_lookup d3) _ d4, rows_filters (ty, ms) (mem_of_lookup d3) _ d4⟩
    · rw [h0] at d4
      exact ⟨plain_good m hm (ty, ms) (mem_of_lookup d3) _ d4, plain_filters m hm (ty, ms) (mem_of_lookup d3) _ d4⟩

theorem new_settable {env : Env} {p : Bp} {layer : Option BpId} {z : Dict} {s : Bool} (hs : StrictIn z s)
    (hc : PlainCustom env p) :
    (∃ e, Entity.new env (some p.custom) layer z = .ok e) ↔
      ∃ name k, List.lookup "name" z = some (.str name) ∧ ClassOf env p s name k ∧ Settable env s k z := by
  constructor
  · rintro ⟨e, he⟩
    obtain ⟨-, -, name, pz, n, e', z3, -, -, h, hfin⟩ := Entity.new_ok.1 he
    have hse : e'.strict = s := by
      rw [← strictIn_iff.1 hs]
      obtain ⟨_, _, ⟨_, rfl⟩ | ⟨_, _, _, _, _, _, _, _, _, rfl⟩⟩ := Entity.setName_ok h <;> rfl
    obtain ⟨nm, rfl, hk⟩ := (setName_class hs).1 ⟨e', h, hse, rfl⟩
    obtain ⟨g1, g2, g3⟩ := classOf_good hc hk
    refine ⟨nm, e'.klass, z3, hk, ?_⟩
    rw [← hse]
    exact (new_named z3 (setName_all h) g1 g2 g3).1 ⟨e, he⟩
  · rintro ⟨name, k, z3, hk, hz⟩
    obtain ⟨g1, g2, g3⟩ := classOf_good hc hk
    obtain ⟨e', h, rfl, rfl⟩ := (setName_class (layer := layer) (n := none) hs).2 ⟨name, rfl, hk⟩
    exact (new_named z3 (setName_all h) g1 g2 g3).2 hz

end Verif
