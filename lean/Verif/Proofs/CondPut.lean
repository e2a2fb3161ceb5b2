import Verif.Proofs.CbPut
import Verif.Proofs.ResidueExact
import Verif.Spec.Assign
/-!
# Helper lemmas: assigning a part of a condition and constructing with it
-/
set_option autoImplicit false
set_option linter.unusedSimpArgs false

namespace Verif
open Spec

/-! ## Circuit conditions -/

theorem readCondition_put {env : Env} {ctx : CbCtx} {g : Kw} {w : Attrs} {y : String} {v : Val} {cd : Dict}
    (hy : y ∈ ["first", "second", "comparator"]) (hg : g "circuit_condition" = some (.dict cd))
    (h : cbRead env ctx .CircuitCondition g = .ok w) :
    y ∈ w.map (·.1) ∧
    cbRead env ctx .CircuitCondition
      (fun x => if x = "circuit_condition" then some (.dict (Dict.set cd (conditionKey y) v)) else g x) =
      (do return Dict.set w y (← cbAssign env ctx y v)) := by
  simp only [cbRead, Kw.orNone, hg, Option.getD_some, Val.asDict, ok_bind, bind_eq_ok, pure_eq_ok, Except.ok.injEq] at h
  obtain ⟨f, hf, s, hs, c, hc, rfl⟩ := h
  unfold Dict.getD at hf hs hc
  simp only [List.mem_cons, List.not_mem_nil, or_false] at hy
  rcases hy with rfl | rfl | rfl
  · refine ⟨by simp, ?_⟩
    have e : cbAssign env ctx "first" v = signalSet env v := rfl
    have k : conditionKey "first" = "first_signal" := by decide
    rw [e, k]
    simp only [cbRead, Kw.orNone, if_true, Option.getD_some, Val.asDict, ok_bind, Dict.getD, get_set_self]
    rw [get_set_ne (by decide), get_set_ne (by decide), get_set_ne (by decide)]
    cases signalSet env v <;> simp [hs, hc, Dict.set]
  · refine ⟨by simp, ?_⟩
    have e : cbAssign env ctx "second" v = signalSet env v := rfl
    have k : conditionKey "second" = "second_signal" := by decide
    rw [e, k]
    simp only [cbRead, Kw.orNone, if_true, Option.getD_some, Val.asDict, ok_bind, Dict.getD, get_set_self]
    rw [get_set_ne (by decide), get_set_ne (by decide)]
    simp only [hf, ok_bind]
    cases signalSet env v <;> simp [hc, Dict.set]
  · refine ⟨by simp, ?_⟩
    have e : cbAssign env ctx "comparator" v = operatorSet deciderOps v := rfl
    have k : conditionKey "comparator" = "comparator" := by decide
    rw [e, k]
    simp only [cbRead, Kw.orNone, if_true, Option.getD_some, Val.asDict, ok_bind, Dict.getD, get_set_self]
    rw [get_set_ne (by decide), get_set_ne (by decide), get_set_ne (by decide)]
    simp only [hf, hs, ok_bind]
    cases operatorSet deciderOps v <;> simp [Dict.set]

section
variable {env : Env} {ctx : CbCtx} {lo : Exc}

/-- The constructor of a control behaviour with a part of the circuit condition changed. -/
theorem cbInitChain_condition {ms : List Mx} {kw cd : Dict} {a a' : Attrs} {y : String} {v : Val} (hp : CbPlain ms)
    (hm : Mx.CircuitCondition ∈ ms) (hy : y ∈ ["first", "second", "comparator"])
    (hcd : Dict.get? kw "circuit_condition" = some (.dict cd)) (h : cbInitChain env ctx lo ms kw a = .ok a') :
    cbInitChain env ctx lo ms (Dict.set kw "circuit_condition" (.dict (Dict.set cd (conditionKey y) v))) a =
      (do return Dict.set a' y (← cbAssign env ctx y v)) := by
  have hk : "circuit_condition" ∈ cbKeys .CircuitCondition := List.mem_singleton.2 rfl
  have hka : y ∈ cbAttrs .CircuitCondition := hy
  induction ms generalizing kw a with
  | nil => cases hm
  | cons n ms ih =>
    obtain ⟨h1, h2, h3, h4, h5⟩ := hp
    unfold cbInitChain at h ⊢
    rw [cbInit_plain h1 h2] at h ⊢
    cases hr : cbRead env ctx n (Dict.get? kw) with
    | error e => rw [hr] at h; cases h
    | ok w =>
      rw [hr] at h
      simp only [ok_bind, pure_eq_ok] at h
      rw [get_put]
      by_cases hn : Mx.CircuitCondition = n
      · subst hn
        obtain ⟨hf, hput⟩ := readCondition_put (v := v) hy hcd hr
        rw [hput]
        cases hx : cbAssign env ctx y v with
        | error e => rfl
        | ok x =>
          simp only [ok_bind, pure_eq_ok]
          rw [eraseKeys_put hk, setAll_put_right (cbRead_nodup hr) hf]
          split at h
          · rename_i hst
            rw [if_pos hst]
            cases h
            rfl
          · rename_i hst
            rw [if_neg hst]
            refine cbInitChain_put_attrs h5 h ?_ (fun n hn => (h4 n hn).2 y hka)
            rw [mem_keys_iff, lookup_setAll (cbRead_nodup hr)]
            rw [mem_keys_iff] at hf
            cases hl : List.lookup y w with
            | none => exact absurd hl hf
            | some y => exact fun hx => by cases hx
      · have hm' : Mx.CircuitCondition ∈ ms := (List.mem_cons.1 hm).resolve_left hn
        have hkn : "circuit_condition" ∉ cbKeys n := fun hx => (h4 _ hm').1 _ hx hk
        have e : cbRead env ctx n (fun x => if x = "circuit_condition" then
            some (.dict (Dict.set cd (conditionKey y) v)) else Dict.get? kw x) = .ok w := by
          rw [← hr]
          refine cbRead_congr fun y hy => if_neg ?_
          rintro rfl
          exact hkn hy
        rw [e]
        simp only [ok_bind, pure_eq_ok]
        rw [eraseKeys_put_not hkn]
        have hst : ¬ (cbStops n = true) := by
          unfold cbStops
          simp only [decide_eq_true_eq]
          intro hi
          rw [h3 hi] at hm'
          cases hm'
        rw [if_neg hst] at h ⊢
        exact ih h5 hm' (by rw [get_eraseKeys hkn]; exact hcd) h

/-! ## Conditions of combinators -/

/-- What `get_from` returns, in terms of lookups. -/
def operandOf (ctx : CbCtx) (g : Kw) (key : String) : Except Exc Val :=
  match g.orNone (constKey ctx key) with
  | .none => match g.orNone (key ++ "_signal") with
    | .none => .ok .none
    | v => v.subscript "name"
  | v => .ok v

theorem getFrom_fst {d : Dict} {key : String} (hne : key ++ "_signal" ≠ constKey ctx key) :
    (getFrom ctx d key).1 = operandOf ctx (Dict.get? d) key := by
  unfold getFrom operandOf
  rw [← constKey]
  dsimp only
  rw [getD_erase_ne hne]
  unfold Dict.getD Kw.orNone
  generalize (Dict.get? d (constKey ctx key)).getD Val.none = x
  generalize (Dict.get? d (key ++ "_signal")).getD Val.none = y
  cases x <;> cases y <;> rfl

theorem operandOf_congr {g g' : Kw} {key : String} (h1 : g (constKey ctx key) = g' (constKey ctx key))
    (h2 : g (key ++ "_signal") = g' (key ++ "_signal")) : operandOf ctx g key = operandOf ctx g' key := by
  unfold operandOf Kw.orNone
  rw [h1, h2]

/-- The operator, in terms of lookups. -/
def operatorOf (ctx : CbCtx) (g : Kw) : Except Exc Val :=
  match g ctx.operator with
  | none => .error .keyError
  | some op => (match ctx.options with | some os => operatorSet os op | none => .ok op)

/-- The constructor of combinators in terms of lookups. -/
def bodyRead (env : Env) (ctx : CbCtx) (g : Kw) : Except Exc Attrs := do
  let op ← operatorOf ctx g
  let f ← operandOf ctx g "first"
  let f ← signalSet env f
  let s ← operandOf ctx g "second"
  let s ← signalSet env s
  let o ← operandOf ctx g "output"
  let o ← signalSet env o
  return [("operator", op), ("first", f), ("second", s), ("output", o)]

theorem combinatorBody_fst {os : List String} {cond : Dict} (hos : ctx.options = some os) (hn : (condKeys ctx).Nodup) :
    (combinatorBody env ctx cond).1 = bodyRead env ctx (Dict.get? cond) := by
  unfold condKeys at hn
  simp only [List.nodup_cons, List.mem_cons, List.not_mem_nil, or_false, not_or] at hn
  obtain ⟨⟨n01, n02, n03, n04, n05, n06⟩, ⟨n12, n13, n14, n15, n16⟩, ⟨n23, n24, n25, n26⟩, ⟨n34, n35, n36⟩,
    ⟨n45, n46⟩, n56, -⟩ := hn
  unfold combinatorBody bodyRead operatorOf
  rw [hos]
  dsimp only
  cases Dict.get? cond ctx.operator with
  | none => rfl
  | some op =>
    dsimp only
    cases operatorSet os op with
    | error e => rfl
    | ok op =>
      simp only [ok_bind]
      have g1 := getFrom_fst (ctx := ctx) (d := Dict.erase cond ctx.operator) (key := "first") (Ne.symm n12)
      have c1 : operandOf ctx (Dict.get? (Dict.erase cond ctx.operator)) "first" = operandOf ctx (Dict.get? cond) "first" :=
        operandOf_congr (get_erase_ne (Ne.symm n01)) (get_erase_ne (Ne.symm n02))
      rw [c1] at g1
      rw [← g1]
      cases e1 : getFrom ctx (Dict.erase cond ctx.operator) "first" with
      | mk r1 d1 =>
      have k1 : ∀ k, k ≠ constKey ctx "first" → k ≠ "first_signal" → k ≠ ctx.operator → Dict.get? d1 k = Dict.get? cond k := by
        intro k h1 h2 h3
        have := getFrom_get (ctx := ctx) (d := Dict.erase cond ctx.operator) (key := "first") h1 (show k ≠ _ from h2)
        rw [e1] at this
        rw [this, get_erase_ne h3]
      cases r1 with
      | error e => rfl
      | ok f =>
        dsimp only [ok_bind]
        cases signalSet env f with
        | error e => rfl
        | ok f =>
          dsimp only [ok_bind]
          have g2 := getFrom_fst (ctx := ctx) (d := d1) (key := "second") (Ne.symm n34)
          have c2 : operandOf ctx (Dict.get? d1) "second" = operandOf ctx (Dict.get? cond) "second" :=
            operandOf_congr (k1 _ (Ne.symm n13) (Ne.symm n23) (Ne.symm n03)) (k1 _ (Ne.symm n14) (Ne.symm n24) (Ne.symm n04))
          rw [c2] at g2
          rw [← g2]
          cases e2 : getFrom ctx d1 "second" with
          | mk r2 d2 =>
          have k2 : ∀ k, k ≠ constKey ctx "second" → k ≠ "second_signal" → k ≠ constKey ctx "first" → k ≠ "first_signal" →
              k ≠ ctx.operator → Dict.get? d2 k = Dict.get? cond k := by
            intro k h1 h2 h3 h4 h5
            have := getFrom_get (ctx := ctx) (d := d1) (key := "second") h1 (show k ≠ _ from h2)
            rw [e2] at this
            rw [this, k1 k h3 h4 h5]
          cases r2 with
          | error e => rfl
          | ok s =>
            dsimp only [ok_bind]
            cases signalSet env s with
            | error e => rfl
            | ok s =>
              dsimp only [ok_bind]
              have g3 := getFrom_fst (ctx := ctx) (d := d2) (key := "output") (Ne.symm n56)
              have c3 : operandOf ctx (Dict.get? d2) "output" = operandOf ctx (Dict.get? cond) "output" :=
                operandOf_congr (k2 _ (Ne.symm n35) (Ne.symm n45) (Ne.symm n15) (Ne.symm n25) (Ne.symm n05))
                  (k2 _ (Ne.symm n36) (Ne.symm n46) (Ne.symm n16) (Ne.symm n26) (Ne.symm n06))
              rw [c3] at g3
              rw [← g3]
              cases e3 : getFrom ctx d2 "output" with
              | mk r3 d3 =>
              cases r3 with
              | error e => rfl
              | ok o =>
                dsimp only [ok_bind]
                cases signalSet env o <;> rfl

theorem getFrom_signal {d : Dict} {key : String} (hne : key ++ "_signal" ≠ constKey ctx key) :
    Dict.get? (getFrom ctx d key).2 (key ++ "_signal") =
      if Dict.getD d (constKey ctx key) .none = .none then none else Dict.get? d (key ++ "_signal") := by
  unfold getFrom
  rw [← constKey]
  dsimp only
  generalize hx : Dict.getD d (constKey ctx key) Val.none = x
  cases x
  case none =>
    dsimp only
    rw [if_pos rfl]
    split <;> exact get_erase_self ..
  all_goals
    dsimp only
    rw [if_neg (fun h => by cases h)]
    exact get_erase_ne hne

theorem getFrom_constant {d : Dict} {key : String} (hne : key ++ "_signal" ≠ constKey ctx key) :
    Dict.get? (getFrom ctx d key).2 (constKey ctx key) = none := by
  unfold getFrom
  rw [← constKey]
  dsimp only
  split
  · split <;> (show Dict.get? (Dict.erase (Dict.erase _ _) _) _ = _; rw [get_erase_ne (Ne.symm hne)]; exact get_erase_self ..)
  · exact get_erase_self ..

/-- The conditions hold nothing that the constructor leaves over. -/
def Used (ctx : CbCtx) (cond : Dict) : Prop :=
  (∀ k, Dict.get? cond k ≠ none → k ∈ condKeys ctx) ∧
  ∀ key ∈ ["first", "second", "output"], Dict.get? cond (key ++ "_signal") ≠ none →
    Dict.getD cond (constKey ctx key) .none = .none

theorem dict_eq_nil {d : Dict} (h : ∀ k, Dict.get? d k = none) : d = [] := by
  cases d with
  | nil => rfl
  | cons p d =>
    have := h p.1
    unfold Dict.get? at this
    rw [List.lookup_cons_self] at this
    cases this

theorem combinatorBody_used {cond rest : Dict} {a : Attrs} (hn : (condKeys ctx).Nodup)
    (h : combinatorBody env ctx cond = (.ok a, rest)) : rest = [] ↔ Used ctx cond := by
  have hn' := hn
  unfold condKeys at hn
  simp only [List.nodup_cons, List.mem_cons, List.not_mem_nil, or_false, not_or] at hn
  obtain ⟨⟨n01, n02, n03, n04, n05, n06⟩, ⟨n12, n13, n14, n15, n16⟩, ⟨n23, n24, n25, n26⟩, ⟨n34, n35, n36⟩,
    ⟨n45, n46⟩, n56, -⟩ := hn
  have hget := fun k => combinatorBody_get (k := k) h
  unfold combinatorBody at h
  split at h
  · cases h
  · dsimp only at h
    split at h
    · cases h
    · split at h
      · cases h
      · rename_i f d1 e1
        split at h
        · cases h
        · split at h
          · cases h
          · rename_i s d2 e2
            split at h
            · cases h
            · split at h
              · cases h
              · rename_i o d3 e3
                split at h
                · cases h
                · cases h
                  have s1 : ∀ k, k ≠ constKey ctx "first" → k ≠ "first_signal" →
                      Dict.get? d1 k = Dict.get? (Dict.erase cond ctx.operator) k := by
                    intro k h1 h2
                    have := getFrom_get (ctx := ctx) (d := Dict.erase cond ctx.operator) (key := "first") h1 (show k ≠ _ from h2)
                    rwa [e1] at this
                  have s2 : ∀ k, k ≠ constKey ctx "second" → k ≠ "second_signal" → Dict.get? d2 k = Dict.get? d1 k := by
                    intro k h1 h2
                    have := getFrom_get (ctx := ctx) (d := d1) (key := "second") h1 (show k ≠ _ from h2)
                    rwa [e2] at this
                  have s3 : ∀ k, k ≠ constKey ctx "output" → k ≠ "output_signal" → Dict.get? rest k = Dict.get? d2 k := by
                    intro k h1 h2
                    have := getFrom_get (ctx := ctx) (d := d2) (key := "output") h1 (show k ≠ _ from h2)
                    rwa [e3] at this
                  have c1 := getFrom_constant (ctx := ctx) (d := Dict.erase cond ctx.operator) (key := "first") (Ne.symm n12)
                  have c2 := getFrom_constant (ctx := ctx) (d := d1) (key := "second") (Ne.symm n34)
                  have c3 := getFrom_constant (ctx := ctx) (d := d2) (key := "output") (Ne.symm n56)
                  have g1 := getFrom_signal (ctx := ctx) (d := Dict.erase cond ctx.operator) (key := "first") (Ne.symm n12)
                  have g2 := getFrom_signal (ctx := ctx) (d := d1) (key := "second") (Ne.symm n34)
                  have g3 := getFrom_signal (ctx := ctx) (d := d2) (key := "output") (Ne.symm n56)
                  rw [e1] at c1 g1
                  rw [e2] at c2 g2
                  rw [e3] at c3 g3
                  change Dict.get? d1 "first_signal" = _ at g1
                  change Dict.get? d2 "second_signal" = _ at g2
                  change Dict.get? rest "output_signal" = _ at g3
                  rw [getD_erase_ne (Ne.symm n01)] at g1
                  change _ = ite _ none (Dict.get? (Dict.erase cond ctx.operator) "first_signal") at g1
                  rw [get_erase_ne (Ne.symm n02)] at g1
                  have x2 : Dict.getD d1 (constKey ctx "second") .none = Dict.getD cond (constKey ctx "second") .none := by
                    unfold Dict.getD
                    rw [s1 _ (Ne.symm n13) (Ne.symm n23), get_erase_ne (Ne.symm n03)]
                  change _ = ite _ none (Dict.get? d1 "second_signal") at g2
                  rw [x2, s1 _ (Ne.symm n14) (Ne.symm n24), get_erase_ne (Ne.symm n04)] at g2
                  have x3 : Dict.getD d2 (constKey ctx "output") .none = Dict.getD cond (constKey ctx "output") .none := by
                    unfold Dict.getD
                    rw [s2 _ (Ne.symm n35) (Ne.symm n45), s1 _ (Ne.symm n15) (Ne.symm n25), get_erase_ne (Ne.symm n05)]
                  change _ = ite _ none (Dict.get? d2 "output_signal") at g3
                  rw [x3, s2 _ (Ne.symm n36) (Ne.symm n46), s1 _ (Ne.symm n16) (Ne.symm n26), get_erase_ne (Ne.symm n06)] at g3
                  have f1 : Dict.get? rest "first_signal" = Dict.get? d1 "first_signal" := by
                    rw [s3 _ n25 n26, s2 _ n23 n24]
                  have f2 : Dict.get? rest "second_signal" = Dict.get? d2 "second_signal" := s3 _ n45 n46
                  rw [← f1] at g1
                  rw [← f2] at g2
                  constructor
                  · rintro rfl
                    refine ⟨fun k hk => Classical.byContradiction fun hc => hk ?_, ?_⟩
                    · rw [← hget k hc]; rfl
                    · intro key hkey hs
                      refine Classical.byContradiction fun hc => hs ?_
                      simp only [List.mem_cons, List.not_mem_nil, or_false] at hkey
                      rcases hkey with rfl | rfl | rfl
                      · rw [if_neg hc] at g1; exact g1.symm
                      · rw [if_neg hc] at g2; exact g2.symm
                      · rw [if_neg hc] at g3; exact g3.symm
                  · rintro ⟨u1, u2⟩
                    have u : ∀ key ∈ ["first", "second", "output"],
                        (if Dict.getD cond (constKey ctx key) .none = .none then none else Dict.get? cond (key ++ "_signal")) = none := by
                      intro key hkey
                      split
                      · rfl
                      · rename_i hc
                        exact Classical.byContradiction fun hs => hc (u2 key hkey hs)
                    refine dict_eq_nil fun k => ?_
                    by_cases hk : k ∈ condKeys ctx
                    · simp only [condKeys, List.mem_cons, List.not_mem_nil, or_false] at hk
                      rcases hk with rfl | rfl | rfl | rfl | rfl | rfl | rfl
                      · rw [s3 _ n05 n06, s2 _ n03 n04, s1 _ n01 n02, get_erase_self]
                      · rw [s3 _ n15 n16, s2 _ n13 n14, c1]
                      · rw [g1]; exact u "first" (by decide)
                      · rw [s3 _ n35 n36, c2]
                      · rw [g2]; exact u "second" (by decide)
                      · exact c3
                      · rw [g3]; exact u "output" (by decide)
                    · rw [hget k hk]
                      exact Classical.byContradiction fun hc => hk (u1 k hc)

theorem combinator_chain {os : List String} {kw cond : Dict} {a : Attrs} (hos : ctx.options = some os)
    (hn : (condKeys ctx).Nodup) (hc : Dict.get? kw ctx.field = some (.dict cond)) :
    cbInitChain env ctx lo [.Combinator] kw a = (match bodyRead env ctx (Dict.get? cond) with
      | .error e => .error e
      | .ok w => open Classical in
        if Used ctx cond ∧ Dict.erase kw ctx.field = [] then .ok (setAll a w) else .error lo) := by
  have hf := combinatorBody_fst (env := env) (cond := cond) hos hn
  have hu := fun a rest => combinatorBody_used (env := env) (cond := cond) (a := a) (rest := rest) hn
  unfold cbInitChain
  simp only [cbInit, combinatorInit, Dict.getD, hc, Option.getD_some, Val.asPopDict, ok_bind]
  cases hb : combinatorBody env ctx cond with
  | mk r rest =>
    rw [hb] at hf
    rw [← hf]
    cases r with
    | error e => rfl
    | ok w =>
      have hu := hu w rest hb
      dsimp only
      simp only [pure_eq_ok, cbStops, cbInitChain, reduceCtorEq, decide_false, Bool.false_eq_true, if_false]
      by_cases hr : rest = []
      · subst hr
        rw [if_pos List.isEmpty_nil]
        by_cases hk : Dict.erase kw ctx.field = []
        · rw [hk, if_pos List.isEmpty_nil, if_pos ⟨hu.1 rfl, rfl⟩]
        · rw [if_neg (by simpa using hk), if_neg (fun h => hk h.2)]
      · have hne : ¬ (rest.isEmpty = true) := by simpa using hr
        have hne' : ¬ ((Dict.set (Dict.erase kw ctx.field) ctx.field (.dict rest)).isEmpty = true) := by
          intro h
          have h := List.isEmpty_iff.1 h
          have := get_set_self (Dict.erase kw ctx.field) ctx.field (.dict rest)
          rw [h] at this
          cases this
        rw [if_neg hne, if_neg hne', if_neg (fun h => hr (hu.2 h.1))]

theorem bodyRead_keys {g : Kw} {w : Attrs} (h : bodyRead env ctx g = .ok w) :
    ∃ op f s o, w = [("operator", op), ("first", f), ("second", s), ("output", o)] := by
  unfold bodyRead at h
  simp only [bind_eq_ok, pure_eq_ok, Except.ok.injEq] at h
  obtain ⟨op, -, _, -, f, -, _, -, s, -, _, -, o, -, rfl⟩ := h
  exact ⟨_, _, _, _, rfl⟩

/-- The operator given differently. -/
theorem bodyRead_operator {os : List String} {g : Kw} {w : Attrs} {v : Val} (hos : ctx.options = some os)
    (hn : (condKeys ctx).Nodup) (h : bodyRead env ctx g = .ok w) :
    bodyRead env ctx (fun x => if x = ctx.operator then some v else g x) =
      (do return Dict.set w "operator" (← operatorSet os v)) := by
  unfold condKeys at hn
  simp only [List.nodup_cons, List.mem_cons, List.not_mem_nil, or_false, not_or] at hn
  obtain ⟨⟨n01, n02, n03, n04, n05, n06⟩, -⟩ := hn
  have c : ∀ key, ctx.operator ≠ constKey ctx key → ctx.operator ≠ key ++ "_signal" →
      operandOf ctx (fun x => if x = ctx.operator then some v else g x) key = operandOf ctx g key :=
    fun key h1 h2 => operandOf_congr (if_neg (Ne.symm h1)) (if_neg (Ne.symm h2))
  unfold bodyRead at h ⊢
  rw [c "first" n01 n02, c "second" n03 n04, c "output" n05 n06]
  simp only [bind_eq_ok, pure_eq_ok, Except.ok.injEq] at h
  obtain ⟨op, -, f, hf, f', hf', s, hs, s', hs', o, ho, o', ho', rfl⟩ := h
  have e : operatorOf ctx (fun x => if x = ctx.operator then some v else g x) = operatorSet os v := by
    simp only [operatorOf, if_true, hos]
  simp only [e, hf, hf', hs, hs', ho, ho', ok_bind, pure_eq_ok]
  cases operatorSet os v <;> rfl

/-- A signal given differently. -/
theorem bodyRead_operand {g : Kw} {w : Attrs} {y : String} {v : Val} (hy : y ∈ ["first", "second", "output"])
    (hn : (condKeys ctx).Nodup) (hc : g.orNone (constKey ctx y) = .none) (h : bodyRead env ctx g = .ok w) :
    bodyRead env ctx (fun x => if x = y ++ "_signal" then some (.dict [("name", v)]) else g x) =
      (do return Dict.set w y (← signalSet env v)) := by
  unfold condKeys at hn
  simp only [List.nodup_cons, List.mem_cons, List.not_mem_nil, or_false, not_or] at hn
  obtain ⟨⟨n01, n02, n03, n04, n05, n06⟩, ⟨n12, n13, n14, n15, n16⟩, ⟨n23, n24, n25, n26⟩, ⟨n34, n35, n36⟩,
    ⟨n45, n46⟩, n56, -⟩ := hn
  have c : ∀ key, constKey ctx key ≠ y ++ "_signal" → key ++ "_signal" ≠ y ++ "_signal" →
      operandOf ctx (fun x => if x = y ++ "_signal" then some (.dict [("name", v)]) else g x) key = operandOf ctx g key :=
    fun key h1 h2 => operandOf_congr (if_neg h1) (if_neg h2)
  have own : constKey ctx y ≠ y ++ "_signal" →
      operandOf ctx (fun x => if x = y ++ "_signal" then some (.dict [("name", v)]) else g x) y = .ok v := by
    intro hne
    unfold Kw.orNone at hc
    simp only [operandOf, Kw.orNone, if_neg hne, hc, if_true, Option.getD_some]
    rfl
  unfold bodyRead at h ⊢
  simp only [bind_eq_ok, pure_eq_ok, Except.ok.injEq] at h
  obtain ⟨op, hop, f, hf, f', hf', s, hs, s', hs', o, ho, o', ho', rfl⟩ := h
  simp only [List.mem_cons, List.not_mem_nil, or_false] at hy
  rcases hy with rfl | rfl | rfl
  · rw [c "second" (Ne.symm n23) (by decide), c "output" (Ne.symm n25) (by decide), own n12]
    have e : operatorOf ctx (fun x => if x = "first" ++ "_signal" then some (.dict [("name", v)]) else g x) = operatorOf ctx g := by
      simp only [operatorOf, if_neg (show ctx.operator ≠ "first" ++ "_signal" from n02)]
    simp only [e, hop, hf, hf', hs, hs', ho, ho', ok_bind, pure_eq_ok]
    cases signalSet env v <;> rfl
  · rw [c "first" n14 (by decide), c "output" (Ne.symm n45) (by decide), own n34]
    have e : operatorOf ctx (fun x => if x = "second" ++ "_signal" then some (.dict [("name", v)]) else g x) = operatorOf ctx g := by
      simp only [operatorOf, if_neg (show ctx.operator ≠ "second" ++ "_signal" from n04)]
    simp only [e, hop, hf, hf', hs, hs', ho, ho', ok_bind, pure_eq_ok]
    cases signalSet env v <;> rfl
  · rw [c "first" n16 (by decide), c "second" n36 (by decide), own n56]
    have e : operatorOf ctx (fun x => if x = "output" ++ "_signal" then some (.dict [("name", v)]) else g x) = operatorOf ctx g := by
      simp only [operatorOf, if_neg (show ctx.operator ≠ "output" ++ "_signal" from n06)]
    simp only [e, hop, hf, hf', hs, hs', ho, ho', ok_bind, pure_eq_ok]
    cases signalSet env v <;> rfl

theorem Used.put {cond : Dict} {k : String} {x : Val} (h : Used ctx cond) (hk : k ∈ condKeys ctx)
    (hs : ∀ key ∈ ["first", "second", "output"], k = key ++ "_signal" → Dict.get? cond k ≠ none)
    (hc : ∀ key ∈ ["first", "second", "output"], k ≠ constKey ctx key) : Used ctx (Dict.set cond k x) := by
  refine ⟨fun k' hk' => ?_, fun key hkey hsig => ?_⟩
  · by_cases e : k' = k
    · rw [e]; exact hk
    · rw [get_set_ne e] at hk'; exact h.1 k' hk'
  · have : Dict.getD (Dict.set cond k x) (constKey ctx key) .none = Dict.getD cond (constKey ctx key) .none := by
      unfold Dict.getD
      rw [get_set_ne (Ne.symm (hc key hkey))]
    rw [this]
    by_cases e : key ++ "_signal" = k
    · exact h.2 key hkey (by rw [e]; exact hs key hkey e.symm)
    · rw [get_set_ne e] at hsig
      exact h.2 key hkey hsig

theorem cbAssign_operand {y : String} {v : Val} (hy : y ∈ ["first", "second", "output"]) :
    cbAssign env ctx y v = signalSet env v := by
  simp only [List.mem_cons, List.not_mem_nil, or_false] at hy
  rcases hy with rfl | rfl | rfl <;> rfl

theorem combinator_put {os : List String} {kw kw' cond cond' : Dict} {a a' : Attrs} {y : String} {v : Val}
    (hos : ctx.options = some os) (hn : (condKeys ctx).Nodup)
    (hc : Dict.get? kw ctx.field = some (.dict cond)) (hc' : Dict.get? kw' ctx.field = some (.dict cond'))
    (he : Dict.erase kw' ctx.field = Dict.erase kw ctx.field) (hp : PartGiven ctx.operator cond v y cond')
    (h : cbInitChain env ctx lo [.Combinator] kw a = .ok a') :
    cbInitChain env ctx lo [.Combinator] kw' a = (do return Dict.set a' y (← cbAssign env ctx y v)) := by
  rw [combinator_chain hos hn hc] at h
  rw [combinator_chain hos hn hc', he]
  cases hb : bodyRead env ctx (Dict.get? cond) with
  | error e => rw [hb] at h; cases h
  | ok w =>
    rw [hb] at h
    dsimp only at h
    split at h
    · rename_i hu
      cases h
      obtain ⟨op, f, s, o, rfl⟩ := bodyRead_keys hb
      have hn' := hn
      unfold condKeys at hn'
      simp only [List.nodup_cons, List.mem_cons, List.not_mem_nil, or_false, not_or] at hn'
      obtain ⟨⟨n01, n02, n03, n04, n05, n06⟩, ⟨n12, n13, n14, n15, n16⟩, ⟨n23, n24, n25, n26⟩, ⟨n34, n35, n36⟩,
        ⟨n45, n46⟩, n56, -⟩ := hn'
      have hnd : (([("operator", op), ("first", f), ("second", s), ("output", o)] : Dict).map (·.1)).Nodup := by
        show (["operator", "first", "second", "output"] : List String).Nodup
        decide
      cases hp with
      | operator =>
        have hu' : Used ctx (Dict.set cond ctx.operator v) := by
          refine hu.1.put (by simp [condKeys]) ?_ ?_
          · intro key hkey e
            simp only [List.mem_cons, List.not_mem_nil, or_false] at hkey
            rcases hkey with rfl | rfl | rfl
            · exact absurd e n02
            · exact absurd e n04
            · exact absurd e n06
          · intro key hkey
            simp only [List.mem_cons, List.not_mem_nil, or_false] at hkey
            rcases hkey with rfl | rfl | rfl
            · exact n01
            · exact n03
            · exact n05
        rw [get_put, bodyRead_operator hos hn hb]
        have e : cbAssign env ctx "operator" v = operatorSet os v := by
          show (match ctx.options with | some os => operatorSet os v | none => .ok v) = _
          rw [hos]
        rw [e]
        cases operatorSet os v with
        | error e => rfl
        | ok x =>
          simp only [ok_bind, pure_eq_ok]
          rw [if_pos ⟨hu', hu.2⟩, setAll_put_right hnd (by simp)]
      | operand hy hsig =>
        have hu' : Used ctx (Dict.set cond (y ++ "_signal") (.dict [("name", v)])) := by
          refine hu.1.put ?_ (fun _ _ _ => hsig) ?_
          · simp only [List.mem_cons, List.not_mem_nil, or_false] at hy
            rcases hy with rfl | rfl | rfl <;> simp [condKeys]
          · intro key hkey
            simp only [List.mem_cons, List.not_mem_nil, or_false] at hkey hy
            rcases hkey with rfl | rfl | rfl <;> rcases hy with rfl | rfl | rfl
            · exact Ne.symm n12
            · exact Ne.symm n14
            · exact Ne.symm n16
            · exact n23
            · exact Ne.symm n34
            · exact Ne.symm n36
            · exact n25
            · exact n45
            · exact Ne.symm n56
        rw [get_put, bodyRead_operand hy hn (hu.1.2 y hy hsig) hb, cbAssign_operand hy]
        cases signalSet env v with
        | error e => rfl
        | ok x =>
          simp only [ok_bind, pure_eq_ok]
          rw [if_pos ⟨hu', hu.2⟩, setAll_put_right hnd ?_]
          simp only [List.map_cons, List.map_nil]
          exact List.mem_cons_of_mem _ hy
    · cases h

/-- Erasing a key that was put. -/
theorem erase_put_self (d : Dict) (k : String) (v : Val) : Dict.erase (Dict.set d k v) k = Dict.erase d k := by
  have := eraseKeys_put (d := d) (ks := [k]) (k := k) (v := v) (by simp)
  unfold eraseKeys at this
  unfold Dict.erase
  have e : (fun p : String × Val => p.1 != k) = (fun p => !decide (p.1 = k)) := by
    funext p
    by_cases h : p.1 = k <;> simp [h]
  rw [e]
  simpa using this

theorem decider_chain {kw cond : Dict} {a : Attrs} (hc : Dict.get? kw ctx.field = some (.dict cond))
    (hne : Dict.erase cond "copy_count_from_input" ≠ []) :
    cbInitChain env ctx lo [.Decider, .Combinator] kw a =
      cbInitChain env ctx lo [.Combinator]
        (Dict.set (Dict.erase kw ctx.field) ctx.field (.dict (Dict.erase cond "copy_count_from_input")))
        (setAll a [("copy_count_from_input", Dict.getD cond "copy_count_from_input" (.bool false))]) := by
  conv => lhs; unfold cbInitChain
  have hg : Dict.getItem kw ctx.field = .ok (.dict cond) := by unfold Dict.getItem; rw [hc]
  have hne' : ¬ ((Dict.erase cond "copy_count_from_input").isEmpty = true) := by simpa using hne
  simp only [cbInit, deciderInit, hg, Val.asPopDict, ok_bind, pure_eq_ok, if_neg hne', cbStops, reduceCtorEq,
    decide_false, Bool.false_eq_true, if_false]

/-- Without conditions other than `copy_count_from_input` there is no operator. -/
theorem decider_chain_empty {kw cond : Dict} {a : Attrs} (hc : Dict.get? kw ctx.field = some (.dict cond))
    (he : Dict.erase cond "copy_count_from_input" = []) :
    cbInitChain env ctx lo [.Decider, .Combinator] kw a = .error .keyError := by
  unfold cbInitChain
  have hg : Dict.getItem kw ctx.field = .ok (.dict cond) := by unfold Dict.getItem; rw [hc]
  simp only [cbInit, deciderInit, hg, Val.asPopDict, ok_bind, pure_eq_ok, he, List.isEmpty_nil, if_true, cbStops,
    reduceCtorEq, decide_false, Bool.false_eq_true, if_false]
  unfold cbInitChain
  have hd : Dict.getD (Dict.erase kw ctx.field) ctx.field (.dict []) = .dict [] := by
    unfold Dict.getD
    rw [get_erase_self]
    rfl
  simp only [cbInit, combinatorInit, hd, Val.asPopDict, ok_bind]
  rfl

theorem decider_put {os : List String} {kw cond cond' : Dict} {a a' : Attrs} {y : String} {v : Val}
    (hos : ctx.options = some os) (hn : (condKeys ctx).Nodup) (hcc : "copy_count_from_input" ∉ condKeys ctx)
    (hc : Dict.get? kw ctx.field = some (.dict cond)) (hp : PartGiven ctx.operator cond v y cond')
    (h : cbInitChain env ctx lo [.Decider, .Combinator] kw a = .ok a') :
    cbInitChain env ctx lo [.Decider, .Combinator] (Dict.set kw ctx.field (.dict cond')) a =
      (do return Dict.set a' y (← cbAssign env ctx y v)) := by
  by_cases he : Dict.erase cond "copy_count_from_input" = []
  · rw [decider_chain_empty hc he] at h; cases h
  · rw [decider_chain hc he] at h
    have hkey : ∃ k x, k ≠ "copy_count_from_input" ∧ cond' = Dict.set cond k x ∧
        PartGiven ctx.operator (Dict.erase cond "copy_count_from_input") v y
          (Dict.set (Dict.erase cond "copy_count_from_input") k x) := by
      cases hp with
      | operator =>
        exact ⟨_, _, fun e => hcc (by rw [← e]; simp [condKeys]), rfl, .operator⟩
      | operand hy hs =>
        have hne : y ++ "_signal" ≠ "copy_count_from_input" := by
          simp only [List.mem_cons, List.not_mem_nil, or_false] at hy
          rcases hy with rfl | rfl | rfl <;> decide
        exact ⟨_, _, hne, rfl, .operand hy (by
          show Dict.get? _ _ ≠ none
          rw [get_erase_ne hne]
          exact hs)⟩
    obtain ⟨k, x, hk, rfl, hp'⟩ := hkey
    have he' : Dict.erase (Dict.set cond k x) "copy_count_from_input" =
        Dict.set (Dict.erase cond "copy_count_from_input") k x := erase_set hk
    have hne' : Dict.set (Dict.erase cond "copy_count_from_input") k x ≠ [] := by
      intro e
      have := get_set_self (Dict.erase cond "copy_count_from_input") k x
      rw [e] at this
      cases this
    rw [decider_chain (get_set_self ..) (by rw [he']; exact hne'), he']
    have hd : Dict.getD (Dict.set cond k x) "copy_count_from_input" (.bool false) =
        Dict.getD cond "copy_count_from_input" (.bool false) := by
      unfold Dict.getD
      rw [get_set_ne (Ne.symm hk)]
    rw [hd]
    refine combinator_put hos hn (get_set_self ..) (get_set_self ..) ?_ hp' h
    rw [erase_put_self, erase_put_self, erase_put_self]

theorem decider_copy {kw cond : Dict} {a' : Attrs} {v : Val} {os : List String} (hos : ctx.options = some os)
    (hn : (condKeys ctx).Nodup) (hc : Dict.get? kw ctx.field = some (.dict cond))
    (h : cbInitChain env ctx lo [.Decider, .Combinator] kw [] = .ok a') :
    cbInitChain env ctx lo [.Decider, .Combinator]
      (Dict.set kw ctx.field (.dict (Dict.set cond "copy_count_from_input" v))) [] =
      .ok (Dict.set a' "copy_count_from_input" v) := by
  by_cases he : Dict.erase cond "copy_count_from_input" = []
  · rw [decider_chain_empty hc he] at h; cases h
  · rw [decider_chain hc he, combinator_chain hos hn (get_set_self ..)] at h
    have he' := erase_put_self cond "copy_count_from_input" v
    rw [decider_chain (get_set_self ..) (by rw [he']; exact he), he', combinator_chain hos hn (get_set_self ..),
      erase_put_self, erase_put_self]
    rw [erase_put_self] at h
    cases hb : bodyRead env ctx (Dict.get? (Dict.erase cond "copy_count_from_input")) with
    | error e => rw [hb] at h; cases h
    | ok w =>
      rw [hb] at h
      dsimp only at h ⊢
      split at h
      · rename_i hu
        rw [if_pos hu]
        cases h
        obtain ⟨op, f, s, o, rfl⟩ := bodyRead_keys hb
        have hd : Dict.getD (Dict.set cond "copy_count_from_input" v) "copy_count_from_input" (.bool false) = v := by
          unfold Dict.getD
          rw [get_set_self]
          rfl
        rw [hd, ← setAll_put (by simp [setAll, Dict.set]) (by simp)]
        rfl
      · cases h

/-- The control behaviour built with a changed setting, from the attributes written. -/
theorem Cb.new_chain {kl : Klass} {d d' : Dict} {c : Cb} {m : Mx} {y : String} {v : Val} (hm : m ∈ kl.cbChain)
    (hy : y ∈ cbAttrs m) (hself : ∀ k, k = "self" ∨ k = "_entity" → Dict.mem d' k = Dict.mem d k)
    (hch : ∀ a, cbInitChain env kl.ctx lo kl.cbChain d [] = .ok a →
      cbInitChain env kl.ctx lo kl.cbChain d' [] = (do return Dict.set a y (← cbAssign env kl.ctx y v)))
    (h : Cb.new env lo kl (.dict d) = .ok c) :
    Cb.new env lo kl (.dict d') = (match c.setAttr env y v with
      | (.error x, _) => .error x
      | (.ok _, c) => .ok c) := by
  unfold Cb.new at h ⊢
  simp only [Val.kwargs, ok_bind] at h ⊢
  split at h
  · cases h
  · rename_i hn
    simp only [bind_eq_ok, pure_eq_ok, Except.ok.injEq] at h
    obtain ⟨a, ha, rfl⟩ := h
    rw [hself _ (.inl rfl), hself _ (.inr rfl), if_neg hn, hch a ha]
    unfold Cb.setAttr
    have hany : (kl.cbChain.any (fun m => (cbAttrs m).contains y)) = true := by
      rw [List.any_eq_true]
      exact ⟨m, hm, by simpa using hy⟩
    dsimp only
    rw [if_pos hany]
    cases cbAssign env kl.ctx y v <;> rfl

theorem mem_put {d : Dict} {k : String} {x : Val} (hs : k ≠ "self") (he : k ≠ "_entity") :
    ∀ l, l = "self" ∨ l = "_entity" → Dict.mem (Dict.set d k x) l = Dict.mem d l := by
  intro l hl
  unfold Dict.mem
  rcases hl with rfl | rfl
  · rw [get_set_ne (Ne.symm hs)]
  · rw [get_set_ne (Ne.symm he)]

end

/-- Making with a changed control behaviour and assigning. -/
theorem like_make_control {b : BpId} {kw d d' : Dict} {w w₀ : World} {r : Ref} {y : String} {v : Val}
    (h : layerMake b kw w = (.ok r, w₀)) (hs : (w₀.heap r).strict = true)
    (hc : NoCustom w.env (w.bp b) (w₀.heap r).name) (hcb : List.lookup "control_behavior" kw = some (.dict d))
    (hput : ∀ c, Cb.new w.env (leftoverExc w.env (w₀.heap r).name) (w₀.heap r).klass (.dict d) = .ok c →
      Cb.new w.env (leftoverExc w.env (w₀.heap r).name) (w₀.heap r).klass (.dict d') = (match c.setAttr w.env y v with
      | (.error x, _) => .error x
      | (.ok _, c) => .ok c)) :
    (∃ w₁, (Op.setControl r y v).run w₀ = (.ok (), w₁) ∧
      layerMake b (Dict.set kw "control_behavior" (.dict d')) w = (.ok r, w₁)) ∨
    (∃ x, (Op.setControl r y v).run w₀ = (.error x, w₀) ∧
      layerMake b (Dict.set kw "control_behavior" (.dict d')) w = (.error x, w)) := by
  obtain ⟨-, henv, hsolid⟩ := Solid.layerMake h hs hc
  obtain ⟨e, n, he, hh⟩ := layerMake_new h
  rw [hh] at hput
  have hnew := Entity.new_control (v := .dict d') he
  obtain ⟨a, hecb, hself, hent, hchain⟩ := Entity.new_cb_chain he hcb
  have hcbnew : Cb.new w.env (leftoverExc w.env e.name) e.klass (.dict d) = .ok ⟨e.klass.cbChain, e.klass.ctx, a⟩ := by
    unfold Cb.new
    simp only [Val.kwargs, ok_bind, hself, hent, Bool.or_false, Bool.false_eq_true, if_false, hchain, pure_eq_ok]
  have hput := hput _ hcbnew
  have hrun : (Op.setControl r y v).run w₀ = (((w₀.heap r).setControl w.env y v).1,
      w₀.setEnt r ((w₀.heap r).setControl w.env y v).2) := by
    rw [run_setControl, henv]
  have hcb' : (w₀.heap r).cb = some ⟨e.klass.cbChain, e.klass.ctx, a⟩ := by rw [hh]; exact hecb
  rw [hrun]
  unfold Entity.newControl at hnew
  change Cb.new w.env (leftoverExc w.env e.name) e.klass (.dict d') = _ at hput
  rw [hput] at hnew
  unfold Entity.setControl
  rw [hcb']
  dsimp only
  cases hx : Cb.setAttr w.env ⟨e.klass.cbChain, e.klass.ctx, a⟩ y v with
  | mk z c =>
    rw [hx] at hnew
    cases z with
    | error x =>
      refine .inr ⟨x, ?_, layerMake_of_error hnew⟩
      have hcc : c = ⟨e.klass.cbChain, e.klass.ctx, a⟩ := by
        unfold Cb.setAttr at hx
        split at hx
        · split at hx <;> cases hx
          rfl
        · cases hx; rfl
      subst hcc
      dsimp only
      rw [← hcb']
      show (Except.error x, w₀.setEnt r (w₀.heap r)) = _
      rw [setEnt_same]
    | ok u => exact .inl ⟨_, rfl, layerMake_upd (mild_cb (some c)) h he hnew⟩

theorem condKeys_arithmetic {ctx : CbCtx} (ht : ctx.type = "arithmetic") (ho : ctx.operator = "operation") :
    (condKeys ctx).Nodup := by
  simp only [condKeys, constKey, ht, ho]
  decide

theorem condKeys_decider {ctx : CbCtx} (ht : ctx.type = "decider") (ho : ctx.operator = "comparator") :
    (condKeys ctx).Nodup ∧ "copy_count_from_input" ∉ condKeys ctx := by
  simp only [condKeys, constKey, ht, ho]
  decide

theorem GoodKlass.arithmetic {k : Klass} (h : GoodKlass k) (hc : k.cbChain = [.Arithmetic, .Combinator]) :
    k.ctx.type = "arithmetic" ∧ k.ctx.operator = "operation" ∧ k.ctx.options = some arithmeticOps := by
  rcases h.2.2 with h | ⟨-, h⟩ | ⟨h, -⟩
  · rw [hc] at h
    exact absurd rfl h.2.2.2.2.1
  · exact h
  · rw [hc] at h; cases h

theorem GoodKlass.decider {k : Klass} (h : GoodKlass k) (hc : k.cbChain = [.Decider, .Combinator]) :
    k.ctx.type = "decider" ∧ k.ctx.operator = "comparator" ∧ k.ctx.options = some deciderOps := by
  rcases h.2.2 with h | ⟨h, -⟩ | ⟨-, h⟩
  · rw [hc] at h
    exact absurd rfl h.2.1
  · rw [hc] at h; cases h
  · exact h

theorem arithmetic_chain {env : Env} {ctx : CbCtx} {lo : Exc} {kw : Dict} {a : Attrs} :
    cbInitChain env ctx lo [.Arithmetic, .Combinator] kw a = cbInitChain env ctx lo [.Combinator] kw a := by
  conv => lhs; unfold cbInitChain
  rw [cbInit_arithmetic]
  rfl

end Verif
