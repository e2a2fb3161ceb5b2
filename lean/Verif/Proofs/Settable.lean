import Verif.Proofs.Blend
import Verif.Proofs.Decimal
import Verif.Proofs.Exportable
import Verif.Spec.Settable
/-!
# Helper lemmas: the data from which an entity can be made
-/
set_option autoImplicit false

namespace Verif
open Spec

/-! ## Values -/

theorem given_null {d : Dict} {k : String} {P : Val → Prop} : OrNull P (valueAt d k) ↔ Given d k (OrNull P) := by
  unfold Given valueAt
  cases List.lookup k d with
  | none => simp [OrNull]
  | some v => simp

theorem given_default {d : Dict} {k : String} {P : Val → Prop} {u : Val} (h : P u) :
    P ((List.lookup k d).getD u) ↔ Given d k P := by
  unfold Given
  cases List.lookup k d with
  | none => simp [h]
  | some v => simp

theorem ite_accept {α} {c : Prop} [Decidable c] {x : α} {e : Exc} :
    (∃ o, (if c then Except.ok x else .error e) = .ok o) ↔ c := by
  by_cases h : c <;> simp [h]

theorem ite_refuse {α} {c : Prop} [Decidable c] {x : α} {e : Exc} :
    (∃ o, (if c then .error e else Except.ok x) = .ok o) ↔ ¬ c := by
  by_cases h : c <;> simp [h]

theorem signalOk_none (env : Env) : SignalOk env .none := signalOk_iff.1 ⟨_, rfl⟩

theorem orientation_ok {v : Val} : (∃ o, orientationSet v = .ok o) ↔ OrNull Countable v := by
  have hm : ∀ n : Num, ∃ r, n.mod (.flt 1) = .ok r := by
    intro n
    unfold Num.mod
    rw [if_neg (by simp [Num.val])]
    cases n <;> exact ⟨_, rfl⟩
  unfold OrNull Countable
  cases v with
  | none => simp [orientationSet]
  | num n =>
    obtain ⟨r, hr⟩ := hm n
    simp [orientationSet, Val.num?, hr]
  | bool t =>
    obtain ⟨r, hr⟩ := hm (.int 1)
    obtain ⟨r', hr'⟩ := hm (.int 0)
    cases t <;> simp [orientationSet, Val.num?, hr, hr']
  | str s => simp [orientationSet]
  | list l => simp [orientationSet, Val.num?]
  | dict d => simp [orientationSet, Val.num?]

theorem intOrNone_ok {v : Val} : (∃ o, readIntOrNone v = .ok o) ↔ OrNull WholeOk v := by
  unfold readIntOrNone OrNull WholeOk
  split
  · simp
  · rename_i h
    simp only [bind_eq_ok, pure_eq_ok, Except.ok.injEq]
    constructor
    · rintro ⟨_, z, hz, -⟩
      exact .inr ⟨z, (pyInt_iff _ _).1 hz⟩
    · rintro (rfl | ⟨z, hz⟩)
      · exact absurd rfl h
      · exact ⟨_, z, (pyInt_iff _ _).2 hz, rfl⟩

theorem coord_iff {v : Val} : (∃ n, Vec.coord v = .ok n) ↔ IsNum v := by
  unfold IsNum
  cases v <;> simp [Vec.coord]

theorem point_ok {d : Dict} : (∃ p, Vec.new (.dict d) = .ok p) ↔ PointOk (.dict d) := by
  unfold Vec.new PointOk Having Needed
  simp only [bind_eq_ok, pure_eq_ok, Except.ok.injEq, lookup_getItem]
  constructor
  · rintro ⟨_, vx, h1, x, h2, vy, h3, y, h4, -⟩
    exact ⟨d, rfl, ⟨vx, h1, coord_iff.1 ⟨_, h2⟩⟩, vy, h3, coord_iff.1 ⟨_, h4⟩⟩
  · rintro ⟨d, h, ⟨vx, h1, h2⟩, vy, h3, h4⟩
    cases h
    obtain ⟨x, hx⟩ := coord_iff.2 h2
    obtain ⟨y, hy⟩ := coord_iff.2 h4
    exact ⟨_, vx, h1, x, hx, vy, h3, y, hy, rfl⟩

theorem vector_ok {v : Val} : (∃ o, readVector v = .ok o) ↔ OrNull PointOk v := by
  have key : (∃ o, readVector v = .ok o) ↔ ∃ p, Vec.ofVal v = .ok p := by
    unfold readVector
    simp only [bind_eq_ok]
    constructor
    · rintro ⟨_, p, hp, -⟩; exact ⟨p, hp⟩
    · rintro ⟨p, hp⟩
      cases p with
      | none => exact ⟨_, _, hp, rfl⟩
      | some p => exact ⟨_, _, hp, rfl⟩
  rw [key]
  unfold OrNull
  cases v with
  | none => exact ⟨fun _ => .inl rfl, fun _ => ⟨_, rfl⟩⟩
  | dict d =>
    refine (point_ok (d := d)).trans ⟨.inr, ?_⟩
    rintro (h | h)
    · cases h
    · exact h
  | _ => exact ⟨fun ⟨p, hp⟩ => by (cases hp), fun h => by (rcases h with h | ⟨d, h, -⟩ <;> cases h)⟩

theorem posOf_ok {v : Val} : (∃ p, Entity.posOf v = .ok p) ↔ PointOk v := by
  unfold Entity.posOf
  simp only [bind_eq_ok]
  cases v with
  | none =>
    exact ⟨fun ⟨p, q, hq, hp⟩ => by (cases hq; cases hp), fun ⟨d, h, _⟩ => by (cases h)⟩
  | dict d =>
    rw [← point_ok]
    constructor
    · rintro ⟨p, q, hq, -⟩; exact ⟨q, hq⟩
    · rintro ⟨q, hq⟩
      have : ∃ p, q = some p := by
        unfold Vec.new at hq
        simp only [bind_eq_ok, pure_eq_ok, Except.ok.injEq] at hq
        obtain ⟨_, -, _, -, _, -, _, -, rfl⟩ := hq
        exact ⟨_, rfl⟩
      obtain ⟨p, rfl⟩ := this
      exact ⟨p, _, hq, rfl⟩
  | _ => exact ⟨fun ⟨p, q, hq, hp⟩ => by (cases hq), fun ⟨d, h, _⟩ => by (cases h)⟩

theorem color_ok {v : Val} : (∃ o, readColor v = .ok o) ↔ OrNull ColorOk v := by
  unfold readColor OrNull
  split
  · simp
  · rename_i h
    rw [← colorOk_iff]
    simp only [bind_eq_ok, pure_eq_ok, Except.ok.injEq]
    constructor
    · rintro ⟨_, c, hc, -⟩; exact .inr ⟨c, hc⟩
    · rintro (rfl | ⟨c, hc⟩)
      · exact absurd rfl h
      · exact ⟨_, c, hc, rfl⟩

theorem choice_ok {l : List String} {v : Val} : (∃ o, readChoice l v = .ok o) ↔ OrNull (WordOf l) v := by
  unfold OrNull WordOf
  cases v <;> simp [readChoice, ite_accept]

theorem operator_ok {l : List String} {v : Val} : (∃ o, operatorSet l v = .ok o) ↔ OrNull (WordOf l) v := by
  unfold OrNull WordOf
  cases v <;> simp [operatorSet, ite_accept]

theorem nameStr_ok {env : Env} {v : Val} : (∃ o, nameStr env v = .ok o) ↔ OrNull (ListedName env) v := by
  unfold OrNull ListedName
  cases v with
  | str s =>
    unfold nameStr
    rw [ite_accept]
    unfold Dict.getD Dict.get?
    simp only [← nothing_iff, Bool.not_eq_false]
    constructor
    · intro ht
      cases h : List.lookup s env.defaults with
      | none => rw [h] at ht; cases ht
      | some row => rw [h] at ht; exact .inr ⟨s, row, rfl, h, ht⟩
    · rintro (h' | ⟨s', row', h1, h2, h3⟩)
      · cases h'
      · cases h1
        rw [h2]
        exact h3
  | none => simp [nameStr]
  | bool t => simp [nameStr]; split <;> simp
  | num n => simp [nameStr]; split <;> simp
  | list l => simp [nameStr]; split <;> simp
  | dict d => simp [nameStr]; split <;> simp

theorem recipe_ok {env : Env} {strict : Bool} {v : Val} : (∃ o, recipeSet env strict v = .ok o) ↔
    (strict = false ∨ OrNull (fun v => ∃ s, v = .str s ∧ List.lookup s env.recipes ≠ none) v) := by
  unfold recipeSet OrNull
  cases strict with
  | false => simp
  | true =>
    simp only [Bool.not_true, Bool.false_eq_true, if_false, Bool.true_eq_false, false_or]
    split
    · simp
    · rename_i h
      rw [← inTable_iff]
      simp only [bind_eq_ok]
      constructor
      · rintro ⟨o, t, ht, ho⟩
        cases t with
        | true => exact .inr ht
        | false => cases ho
      · rintro (rfl | ht)
        · exact absurd rfl h
        · exact ⟨_, true, ht, rfl⟩

theorem autoLaunch_ok {v : Val} : (∃ o, readAutoLaunch v = .ok o) ↔
    OrNull (fun v => (∃ t, v = .bool t) ∨ ∃ n, v = .num n ∧ (n.val = 0 ∨ n.val = 1)) v := by
  unfold OrNull
  cases v with
  | bool t => cases t <;> simp [readAutoLaunch, Val.num?, Num.val]
  | num n => simp [readAutoLaunch, Val.num?, ite_accept]
  | _ => simp [readAutoLaunch, Val.num?]

theorem variation_ok {v : Val} : (∃ o, readVariation v = .ok o) ↔
    ((∃ t, v = .bool t) ∨ ∃ n, v = .num n ∧ 0 ≤ n.val ∧ n.val ≤ 255) := by
  cases v with
  | bool t => cases t <;> simp [readVariation, Val.num?, Num.lt, Num.val] <;> norm_num
  | num n =>
    have h0 : (Num.int 0).val = 0 := by simp [Num.val]
    have h1 : (Num.int 255).val = 255 := by simp [Num.val]
    simp [readVariation, Val.num?, Num.lt, ite_refuse, h0, h1]
  | _ => simp [readVariation, Val.num?]

theorem canBeKey_iff {v : Val} : v.hashable = true ↔ CanBeKey v := by
  unfold CanBeKey
  cases v <;> simp [Val.hashable]

theorem floatOf_ok {v : Val} : (∃ q, pyFloat v = .ok q) ↔ ∃ q, FloatOf v q := by
  simp only [pyFloat_iff]

/-! ## Lists and objects -/

theorem foldlM_iff {α β} {F : β → α → Except Exc β} {Q : α → Prop} (h : ∀ b a, (∃ r, F b a = .ok r) ↔ Q a) (l : List α)
    (b : β) : (∃ r, l.foldlM F b = .ok r) ↔ ∀ a ∈ l, Q a := by
  induction l generalizing b with
  | nil => exact ⟨fun _ a ha => by (cases ha), fun _ => ⟨b, rfl⟩⟩
  | cons a l ih =>
    simp only [List.foldlM_cons, bind_eq_ok, List.mem_cons, forall_eq_or_imp]
    constructor
    · rintro ⟨r, b', h1, h2⟩
      exact ⟨(h b a).1 ⟨_, h1⟩, (ih b').1 ⟨_, h2⟩⟩
    · rintro ⟨h1, h2⟩
      obtain ⟨b', h1⟩ := (h b a).2 h1
      obtain ⟨r, hr⟩ := (ih b').2 h2
      exact ⟨r, b', h1, hr⟩

theorem each_iter {P : Dict → Prop} {v : Val} : Each P v ↔ ∃ l, v.iter = .ok l ∧ ∀ u ∈ l, Having P u := by
  unfold Each
  constructor
  · rintro ⟨l, h1, h2⟩
    exact ⟨l, (series_iff (fun u hu => by obtain ⟨d, rfl, -⟩ := h2 u hu; exact ⟨d, rfl⟩)).2 h1, h2⟩
  · rintro ⟨l, h1, h2⟩
    exact ⟨l, (series_iff (fun u hu => by obtain ⟨d, rfl, -⟩ := h2 u hu; exact ⟨d, rfl⟩)).1 h1, h2⟩

theorem each_null {P : Dict → Prop} {v : Val} : OrNull (Each P) v ↔ ∃ l, iterOrNone v = .ok l ∧ ∀ u ∈ l, Having P u := by
  unfold iterOrNone OrNull
  split
  · simp
  · rename_i h
    rw [each_iter]
    exact ⟨fun h' => h'.resolve_left h, .inr⟩

theorem only_any {ks : List String} {d : Dict} : (∀ p ∈ d, p.1 ∈ ks) ↔ Only ks d := by
  unfold Only
  constructor
  · intro h k hk
    cases hx : List.lookup k d with
    | none => exact absurd hx hk
    | some v => exact h (k, v) (mem_of_lookup hx)
  · intro h p hp
    refine h p.1 (fun hn => ?_)
    exact (List.lookup_eq_none_iff.1 hn p hp) |> fun h => by simp at h

theorem insFilter_ok {env : Env} {u : Val} : (∃ o, readInsFilter env u = .ok o) ↔
    Having (fun f => Only ["name", "index"] f ∧ Given f "name" (SignalOk env)) u := by
  unfold readInsFilter Having
  simp only [bind_eq_ok, kwargs_ok]
  constructor
  · rintro ⟨o, d, rfl, h⟩
    refine ⟨d, rfl, ?_⟩
    split at h
    · cases h
    · simp only [bind_eq_ok] at h
      obtain ⟨s, hs, h⟩ := h
      split at h
      · cases h
      · rename_i hk
        refine ⟨only_any.1 fun p hp => ?_, (given_default (signalOk_none env)).1 (signalOk_iff.1 ⟨s, hs⟩)⟩
        by_contra hn
        exact hk (List.any_eq_true.2 ⟨p, hp, by simpa using hn⟩)
  · rintro ⟨d, rfl, h1, h2⟩
    obtain ⟨s, hs⟩ := signalOk_iff.2 ((given_default (signalOk_none env)).2 h2)
    refine ⟨.dict [("index", Dict.getD d "index" .none), ("name", signalGet s)], d, rfl, ?_⟩
    rw [if_neg]
    · simp only [bind_eq_ok]
      refine ⟨s, hs, ?_⟩
      rw [if_neg]
      · rfl
      · rw [List.any_eq_true]
        rintro ⟨p, hp, hx⟩
        have := only_any.2 h1 p hp
        simp only [List.mem_cons, List.not_mem_nil, or_false] at this
        rcases this with e | e <;> simp [e] at hx
    · intro hm
      have : List.lookup "self" d ≠ none := fun hn => by simp [Dict.mem, Dict.get?, hn] at hm
      exact absurd (h1 _ this) (by decide)

theorem cbFilter_ok {env : Env} {u : Val} : (∃ o, readFilter env u = .ok o) ↔
    Having (fun f => Only ["signal", "count", "index"] f ∧ Given f "signal" (SignalOk env)) u := by
  unfold readFilter Having
  simp only [bind_eq_ok, kwargs_ok]
  constructor
  · rintro ⟨o, d, rfl, h⟩
    refine ⟨d, rfl, ?_⟩
    split at h
    · cases h
    · simp only [bind_eq_ok] at h
      obtain ⟨s, hs, h⟩ := h
      split at h
      · cases h
      · rename_i hk
        refine ⟨only_any.1 fun p hp => ?_, (given_default (signalOk_none env)).1 (signalOk_iff.1 ⟨s, hs⟩)⟩
        by_contra hn
        exact hk (List.any_eq_true.2 ⟨p, hp, by simpa [and_assoc] using hn⟩)
  · rintro ⟨d, rfl, h1, h2⟩
    obtain ⟨s, hs⟩ := signalOk_iff.2 ((given_default (signalOk_none env)).2 h2)
    refine ⟨.dict [("signal", s), ("count", Dict.getD d "count" .none), ("index", Dict.getD d "index" .none)], d, rfl, ?_⟩
    rw [if_neg]
    · simp only [bind_eq_ok]
      refine ⟨s, hs, ?_⟩
      rw [if_neg]
      · rfl
      · rw [List.any_eq_true]
        rintro ⟨p, hp, hx⟩
        have := only_any.2 h1 p hp
        simp only [List.mem_cons, List.not_mem_nil, or_false] at this
        rcases this with e | e | e <;> simp [e] at hx
    · intro hm
      have : List.lookup "self" d ≠ none := fun hn => by simp [Dict.mem, Dict.get?, hn] at hm
      exact absurd (h1 _ this) (by decide)

theorem circuitParameters_ok {u : Val} : (∃ o, readCircuitParameters u = .ok o) ↔
    Having (fun e => Only ["signal_value_is_pitch", "instrument_id", "note_id"] e) u := by
  unfold readCircuitParameters Having
  simp only [bind_eq_ok, kwargs_ok]
  constructor
  · rintro ⟨o, d, rfl, h⟩
    refine ⟨d, rfl, ?_⟩
    split at h
    · cases h
    · rename_i hk
      refine only_any.1 fun p hp => ?_
      by_contra hn
      exact hk (List.any_eq_true.2 ⟨p, hp, by simpa [and_assoc] using hn⟩)
  · rintro ⟨d, rfl, h1⟩
    refine ⟨.dict [("instrument_id", Dict.getD d "instrument_id" .none), ("note_id", Dict.getD d "note_id" .none),
      ("signal_value_is_pitch", Dict.getD d "signal_value_is_pitch" .none)], d, rfl, ?_⟩
    rw [if_neg]
    · rfl
    · rw [List.any_eq_true]
      rintro ⟨p, hp, hx⟩
      have := only_any.2 h1 p hp
      simp only [List.mem_cons, List.not_mem_nil, or_false] at this
      rcases this with e | e | e <;> simp [e] at hx

/-! ## Behaviours -/

theorem needed_subscript {u : Val} {k : String} {P : Val → Prop} :
    (∃ x, u.subscript k = .ok x ∧ P x) ↔ Having (fun f => Needed f k P) u := by
  unfold Having Needed
  constructor
  · rintro ⟨x, h, hp⟩
    obtain ⟨d, rfl, hl⟩ := subscript_ok.1 h
    exact ⟨d, rfl, x, hl, hp⟩
  · rintro ⟨d, rfl, x, hl, hp⟩
    exact ⟨x, subscript_ok.2 ⟨d, rfl, hl⟩, hp⟩

theorem items_ok {env : Env} {v : Val} : (∃ a, readItems env v = .ok a) ↔
    Having (fun e => ∀ k x, (k, x) ∈ e → k = "" ∨ List.lookup k env.signals ≠ none) v := by
  have key : ∀ p : String × Val, (∃ q, (do
      let s ← signalSet env (.str p.1)
      match signalGet s with
      | .str s => return (s, p.2)
      | _ => throw .unmodelled : Except Exc (String × Val)) = .ok q) ↔ (p.1 = "" ∨ List.lookup p.1 env.signals ≠ none) := by
    intro p
    have h1 : ∀ s, signalSet env (.str p.1) = .ok s → s = .str p.1 := by
      intro s hs
      unfold signalSet at hs
      dsimp only at hs
      split at hs
      · simp only [bind_eq_ok] at hs
        obtain ⟨t, -, ht⟩ := hs
        split at ht
        · cases ht; rfl
        · cases ht
      · cases hs; rfl
    have h2 : SignalOk env (.str p.1) ↔ (p.1 = "" ∨ List.lookup p.1 env.signals ≠ none) := by
      unfold SignalOk
      constructor
      · rintro (⟨z, h⟩ | ⟨u, ⟨d, h', -⟩ | ⟨-, rfl⟩, h | ⟨n, h, hn⟩⟩)
        · cases h
        · cases h'
        · cases h'
        · refine .inl ?_
          generalize p.1 = s at h
          cases h; rfl
        · cases h; exact .inr hn
      · intro h
        refine .inr ⟨_, .inr ⟨fun d h => by (cases h), rfl⟩, ?_⟩
        rcases h with h | h
        · rw [h]; exact .inl .text
        · exact .inr ⟨_, rfl, h⟩
    rw [← h2, ← signalOk_iff]
    simp only [bind_eq_ok]
    constructor
    · rintro ⟨q, s, hs, -⟩; exact ⟨s, hs⟩
    · rintro ⟨s, hs⟩
      refine ⟨(p.1, p.2), s, hs, ?_⟩
      rw [h1 s hs]
      rfl
  unfold readItems Having
  simp only [bind_eq_ok, asDict_ok]
  constructor
  · rintro ⟨a, d, rfl, l, hl, -⟩
    refine ⟨d, rfl, fun k x hx => ?_⟩
    exact (key (k, x)).1 (mapM_iff.1 ⟨l, hl⟩ (k, x) hx)
  · rintro ⟨d, rfl, h⟩
    obtain ⟨l, hl⟩ := mapM_iff.2 (fun p hp => (key p).2 (h p.1 p.2 hp))
    exact ⟨_, d, rfl, l, hl, rfl⟩

theorem cargo_ok {env : Env} {v : Val} : (∃ a, readCargo env v = .ok a) ↔
    OrNull (Having (fun e => Given e "filters" (Each (fun f =>
      Needed f "name" (OrNull (ListedName env)) ∧ Needed f "index" CanBeKey)))) v := by
  have step : ∀ (acc : List (Val × Dict)) (f : Val), (∃ r, (do
      let n ← nameStr env (← f.subscript "name")
      let i ← f.subscript "index"
      if !i.hashable then throw .typeError
      return setIdx acc i [("name", n)] : Except Exc (List (Val × Dict))) = .ok r) ↔
      Having (fun f => Needed f "name" (OrNull (ListedName env)) ∧ Needed f "index" CanBeKey) f := by
    intro acc f
    simp only [bind_eq_ok]
    constructor
    · rintro ⟨r, nv, h1, n, h2, i, h3, h4⟩
      obtain ⟨d, rfl, g1⟩ := subscript_ok.1 h1
      obtain ⟨d', h, h3⟩ := subscript_ok.1 h3
      cases h
      refine ⟨d, rfl, ⟨nv, g1, nameStr_ok.1 ⟨n, h2⟩⟩, i, h3, canBeKey_iff.1 ?_⟩
      cases hi : i.hashable with
      | true => rfl
      | false => rw [hi] at h4; cases h4
    · rintro ⟨d, rfl, ⟨nv, h1, h2⟩, i, h3, h4⟩
      obtain ⟨n, h2⟩ := nameStr_ok.2 h2
      refine ⟨setIdx acc i [("name", n)], nv, subscript_ok.2 ⟨d, rfl, h1⟩, n, h2, i, subscript_ok.2 ⟨d, rfl, h3⟩, ?_⟩
      rw [canBeKey_iff.2 h4]
      rfl
  unfold readCargo OrNull
  split
  · simp
  · rename_i h
    simp only [bind_eq_ok, asDict_ok]
    constructor
    · rintro ⟨a, d, rfl, fs, h1, l, h2, -⟩
      refine .inr ⟨d, rfl, ?_⟩
      refine (given_default (u := .list []) (each_iter.2 ⟨[], rfl, fun u hu => by (cases hu)⟩)).1 (each_iter.2 ⟨fs, h1, ?_⟩)
      exact (foldlM_iff step fs []).1 ⟨l, h2⟩
    · rintro (rfl | ⟨d, rfl, hg⟩)
      · exact absurd rfl h
      · obtain ⟨fs, h1, h2⟩ := each_iter.1 ((given_default (u := .list [])
          (each_iter.2 ⟨[], rfl, fun u hu => by (cases hu)⟩)).2 hg)
        obtain ⟨l, hl⟩ := (foldlM_iff step fs []).2 h2
        exact ⟨_, d, rfl, fs, h1, l, hl, rfl⟩

theorem infinity_ok {env : Env} {v : Val} : (∃ a, readInfinity env v = .ok a) ↔
    Having (fun e => Needed e "remove_unfiltered_items" IsAny ∧
      Needed e "filters" (OrNull (Each (fun f => Needed f "mode" (WordOf ["at-least", "at-most", "exactly"]) ∧
        Needed f "count" IsAny ∧ Needed f "name" (OrNull (ListedName env)) ∧ Needed f "index" CanBeKey)))) v := by
  have word : ∀ m : Val, (m == .str "at-least" || m == .str "at-most" || m == .str "exactly") = true ↔
      WordOf ["at-least", "at-most", "exactly"] m := by
    intro m
    unfold WordOf
    simp [or_assoc]
  have step : ∀ (acc : List (Val × Dict)) (f : Val), (∃ r, (do
      let mode ← f.subscript "mode"
      if !(mode == .str "at-least" || mode == .str "at-most" || mode == .str "exactly") then
        throw .valueError
      let count ← f.subscript "count"
      let n ← nameStr env (← f.subscript "name")
      let i ← f.subscript "index"
      if !i.hashable then throw .typeError
      return setIdx acc i [("count", count), ("mode", mode), ("name", n)] : Except Exc (List (Val × Dict))) = .ok r) ↔
      Having (fun f => Needed f "mode" (WordOf ["at-least", "at-most", "exactly"]) ∧
        Needed f "count" IsAny ∧ Needed f "name" (OrNull (ListedName env)) ∧ Needed f "index" CanBeKey) f := by
    intro acc f
    simp only [bind_eq_ok]
    constructor
    · rintro ⟨r, m, h1, h⟩
      split at h
      · cases h
      · rename_i hw
        simp only [bind_eq_ok] at h
        obtain ⟨c, h2, nv, h3, n, h4, i, h5, h6⟩ := h
        obtain ⟨d, rfl, g1⟩ := subscript_ok.1 h1
        obtain ⟨d', h, h2⟩ := subscript_ok.1 h2
        cases h
        obtain ⟨d', h, h3⟩ := subscript_ok.1 h3
        cases h
        obtain ⟨d', h, h5⟩ := subscript_ok.1 h5
        cases h
        refine ⟨d, rfl, ⟨m, g1, (word m).1 ?_⟩, ⟨c, h2, trivial⟩, ⟨nv, h3, nameStr_ok.1 ⟨n, h4⟩⟩, i, h5, canBeKey_iff.1 ?_⟩
        · rw [Bool.not_eq_true, Bool.not_eq_false'] at hw
          exact hw
        · cases hi : i.hashable with
          | true => rfl
          | false => rw [hi] at h6; cases h6
    · rintro ⟨d, rfl, ⟨m, h1, h2⟩, ⟨c, h3, -⟩, ⟨nv, h4, h5⟩, i, h6, h7⟩
      obtain ⟨n, h5⟩ := nameStr_ok.2 h5
      refine ⟨setIdx acc i [("count", c), ("mode", m), ("name", n)], m, subscript_ok.2 ⟨d, rfl, h1⟩, ?_⟩
      rw [(word m).2 h2]
      simp only [Bool.not_true, Bool.false_eq_true, if_false, bind_eq_ok]
      refine ⟨c, subscript_ok.2 ⟨d, rfl, h3⟩, nv, subscript_ok.2 ⟨d, rfl, h4⟩, n, h5, i, subscript_ok.2 ⟨d, rfl, h6⟩, ?_⟩
      rw [canBeKey_iff.2 h7]
      rfl
  unfold readInfinity
  simp only [bind_eq_ok]
  constructor
  · rintro ⟨a, r, h1, fv, h2, fs, h3, l, h4, -⟩
    obtain ⟨d, rfl, g1⟩ := subscript_ok.1 h1
    obtain ⟨d', h, h2⟩ := subscript_ok.1 h2
    cases h
    exact ⟨d, rfl, ⟨r, g1, trivial⟩, fv, h2, each_null.2 ⟨fs, h3, (foldlM_iff step fs []).1 ⟨l, h4⟩⟩⟩
  · rintro ⟨d, rfl, ⟨r, h1, -⟩, fv, h2, h3⟩
    obtain ⟨fs, h3, h4⟩ := each_null.1 h3
    obtain ⟨l, hl⟩ := (foldlM_iff step fs []).2 h4
    exact ⟨_, r, subscript_ok.2 ⟨d, rfl, h1⟩, fv, subscript_ok.2 ⟨d, rfl, h2⟩, fs, h3, l, hl, rfl⟩

theorem requestFilters_ok {env : Env} {v : Val} : (∃ a, readRequestFilters env v = .ok a) ↔
    OrNull (Each (fun f => Needed f "name" (OrNull (ListedName env)) ∧
      Needed f "count" WholeOk ∧ Needed f "index" CanBeKey)) v := by
  have step : ∀ (acc : List (Val × Dict)) (f : Val), (∃ r, (do
      let n ← nameStr env (← f.subscript "name")
      let c ← pyInt (← f.subscript "count")
      let i ← f.subscript "index"
      if !i.hashable then throw .typeError
      return setIdx acc i [("name", n), ("count", .int c)] : Except Exc (List (Val × Dict))) = .ok r) ↔
      Having (fun f => Needed f "name" (OrNull (ListedName env)) ∧ Needed f "count" WholeOk ∧ Needed f "index" CanBeKey) f := by
    intro acc f
    simp only [bind_eq_ok]
    constructor
    · rintro ⟨r, nv, h1, n, h2, cv, h3, c, h4, i, h5, h6⟩
      obtain ⟨d, rfl, g1⟩ := subscript_ok.1 h1
      obtain ⟨d', h, h3⟩ := subscript_ok.1 h3
      cases h
      obtain ⟨d', h, h5⟩ := subscript_ok.1 h5
      cases h
      refine ⟨d, rfl, ⟨nv, g1, nameStr_ok.1 ⟨n, h2⟩⟩, ⟨cv, h3, c, (pyInt_iff _ _).1 h4⟩, i, h5, canBeKey_iff.1 ?_⟩
      cases hi : i.hashable with
      | true => rfl
      | false => rw [hi] at h6; cases h6
    · rintro ⟨d, rfl, ⟨nv, h1, h2⟩, ⟨cv, h3, c, h4⟩, i, h5, h6⟩
      obtain ⟨n, h2⟩ := nameStr_ok.2 h2
      refine ⟨setIdx acc i [("name", n), ("count", .int c)], nv, subscript_ok.2 ⟨d, rfl, h1⟩, n, h2, cv,
        subscript_ok.2 ⟨d, rfl, h3⟩, c, (pyInt_iff _ _).2 h4, i, subscript_ok.2 ⟨d, rfl, h5⟩, ?_⟩
      rw [canBeKey_iff.2 h6]
      rfl
  unfold readRequestFilters
  simp only [bind_eq_ok]
  rw [each_null]
  constructor
  · rintro ⟨a, fs, h1, l, h2, -⟩
    exact ⟨fs, h1, (foldlM_iff step fs []).1 ⟨l, h2⟩⟩
  · rintro ⟨fs, h1, h2⟩
    obtain ⟨l, hl⟩ := (foldlM_iff step fs []).2 h2
    exact ⟨_, fs, h1, l, hl, rfl⟩

theorem parameters_ok {v : Val} : (∃ o, readParameters v = .ok o) ↔
    OrNull (Having (fun e => Needed e "playback_volume" (fun v => ∃ q, FloatOf v q) ∧
      Needed e "playback_globally" IsAny ∧ Needed e "allow_polyphony" IsAny)) v := by
  unfold readParameters OrNull
  split
  · simp
  · rename_i h
    simp only [bind_eq_ok, pure_eq_ok, Except.ok.injEq]
    constructor
    · rintro ⟨o, x, h1, q, h2, g, h3, p, h4, -⟩
      obtain ⟨d, rfl, g1⟩ := subscript_ok.1 h1
      obtain ⟨d', h, h3⟩ := subscript_ok.1 h3
      cases h
      obtain ⟨d', h, h4⟩ := subscript_ok.1 h4
      cases h
      exact .inr ⟨d, rfl, ⟨x, g1, q, (pyFloat_iff _ _).1 h2⟩, ⟨g, h3, trivial⟩, p, h4, trivial⟩
    · rintro (rfl | ⟨d, rfl, ⟨x, h1, q, h2⟩, ⟨g, h3, -⟩, p, h4, -⟩)
      · exact absurd rfl h
      · exact ⟨_, x, subscript_ok.2 ⟨d, rfl, h1⟩, q, (pyFloat_iff _ _).2 h2, g, subscript_ok.2 ⟨d, rfl, h3⟩, p,
          subscript_ok.2 ⟨d, rfl, h4⟩, rfl⟩

theorem alert_ok {env : Env} {v : Val} : (∃ o, readAlert env v = .ok o) ↔
    OrNull (Having (fun e => Needed e "show_alert" IsAny ∧ Needed e "show_on_map" IsAny ∧ Needed e "alert_message" IsAny ∧
        Given e "icon_signal_id" (Having (fun i => Given i "name" (OrNull (ListedName env)))))) v := by
  have hd : Having (fun i => Given i "name" (OrNull (ListedName env))) (.dict []) := ⟨[], rfl, fun v h => by (cases h)⟩
  unfold readAlert OrNull
  split
  · simp
  · rename_i h
    simp only [bind_eq_ok, pure_eq_ok, Except.ok.injEq, asDict_ok]
    constructor
    · rintro ⟨o, x, h1, y, h2, d', rfl, i, h3, n, h4, msg, h5, -⟩
      obtain ⟨d, hx, h1⟩ := subscript_ok.1 h1
      cases hx
      obtain ⟨d, hx, h2⟩ := subscript_ok.1 h2
      cases hx
      obtain ⟨d, hx, h5⟩ := subscript_ok.1 h5
      cases hx
      refine .inr ⟨_, rfl, ⟨x, h1, trivial⟩, ⟨y, h2, trivial⟩, ⟨msg, h5, trivial⟩, (given_default hd).1 ⟨i, h3, ?_⟩⟩
      exact given_null.1 (nameStr_ok.1 ⟨n, h4⟩)
    · rintro (rfl | ⟨d, rfl, ⟨x, h1, -⟩, ⟨y, h2, -⟩, ⟨msg, h5, -⟩, hg⟩)
      · exact absurd rfl h
      · obtain ⟨i, h3, h4⟩ := (given_default hd).2 hg
        obtain ⟨n, h4⟩ := nameStr_ok.2 (given_null.2 h4)
        exact ⟨_, x, subscript_ok.2 ⟨d, rfl, h1⟩, y, subscript_ok.2 ⟨d, rfl, h2⟩, d, rfl, i, h3, n, h4, msg,
          subscript_ok.2 ⟨d, rfl, h5⟩, rfl⟩

/-- Each behaviour reads exactly good settings. -/
theorem mxRead_ok {env : Env} {strict : Bool} {m : Mx} {d : Dict} :
    (∃ a, mxRead env strict false m (Dict.get? d) = .ok a) ↔ BehaviourOk env strict d m := by
  have one : ∀ {α β : Type} {f : Except Exc α} {g : α → β}, (∃ a, (do return g (← f) : Except Exc β) = .ok a) ↔ ∃ o, f = .ok o := by
    intro α β f g
    simp only [bind_eq_ok, pure_eq_ok, Except.ok.injEq]
    exact ⟨fun ⟨_, o, h, _⟩ => ⟨o, h⟩, fun ⟨o, h⟩ => ⟨_, o, h, rfl⟩⟩
  have at' : ∀ k, (Kw.orNone (Dict.get? d) k) = valueAt d k := fun k => rfl
  cases m
  case Items =>
    exact items_ok.trans (given_default (P := Having _) ⟨[], rfl, fun k x h => by (cases h)⟩)
  case Train => exact (one (g := fun o => [("orientation", o)])).trans (orientation_ok.trans given_null)
  case Cargo => exact cargo_ok.trans given_null
  case Color => exact (one (g := fun o => [("color", o)])).trans (color_ok.trans given_null)
  case Container => exact (one (g := fun o => [("bar", o)])).trans (intOrNone_ok.trans given_null)
  case Inserter =>
    simp only [mxRead, at', bind_eq_ok, pure_eq_ok, Except.ok.injEq, BehaviourOk, ← given_null, ← intOrNone_ok, ← vector_ok]
    exact ⟨fun ⟨_, o, h1, p, h2, q, h3, _⟩ => ⟨⟨o, h1⟩, ⟨p, h2⟩, ⟨q, h3⟩⟩,
      fun ⟨⟨o, h1⟩, ⟨p, h2⟩, ⟨q, h3⟩⟩ => ⟨_, o, h1, p, h2, q, h3, rfl⟩⟩
  case FilterInserter =>
    simp only [mxRead, at', bind_eq_ok, pure_eq_ok, Except.ok.injEq, BehaviourOk, ← given_null, ← choice_ok, each_null,
      ← insFilter_ok, Bool.false_and, Bool.false_eq_true, if_false, ← mapM_iff]
    exact ⟨fun ⟨_, fs, h1, l, h2, o, h3, _⟩ => ⟨⟨fs, h1, l, h2⟩, o, h3⟩,
      fun ⟨⟨fs, h1, l, h2⟩, o, h3⟩ => ⟨_, fs, h1, l, h2, o, h3, rfl⟩⟩
  case InfinityContainer =>
    refine infinity_ok.trans ?_
    unfold BehaviourOk Needed
    show Having _ (valueAt d "infinity_settings") ↔ _
    unfold valueAt
    cases List.lookup "infinity_settings" d with
    | none => exact ⟨fun ⟨d, h, _⟩ => by (cases h), fun ⟨v, h, _⟩ => by (cases h)⟩
    | some v => exact ⟨fun h => ⟨v, rfl, h⟩, fun ⟨u, h, hu⟩ => by cases h; exact hu⟩
  case Recipe =>
    refine (one (g := fun o => [("recipe", o)])).trans (recipe_ok.trans ?_)
    exact given_default (P := fun v => strict = false ∨ OrNull (fun v => ∃ s, v = .str s ∧ List.lookup s env.recipes ≠ none) v)
      (.inr (.inl rfl))
  case Requester =>
    exact (one (g := fun l => [("request_from_buffers", (Dict.get? d "request_from_buffers").getD (.bool false)),
      ("request_filters", l)])).trans (requestFilters_ok.trans given_null)
  case Silo => exact (one (g := fun o => [("auto_launch", o)])).trans (autoLaunch_ok.trans given_null)
  case Speaker =>
    refine Iff.trans ?_ (and_congr (parameters_ok.trans given_null) (alert_ok.trans given_null))
    simp only [mxRead, at', bind_eq_ok, pure_eq_ok, Except.ok.injEq]
    exact ⟨fun ⟨_, o, h1, p, h2, _⟩ => ⟨⟨o, h1⟩, ⟨p, h2⟩⟩, fun ⟨⟨o, h1⟩, ⟨p, h2⟩⟩ => ⟨_, o, h1, p, h2, rfl⟩⟩
  case Splitter =>
    simp only [mxRead, at', bind_eq_ok, pure_eq_ok, Except.ok.injEq, BehaviourOk, ← given_null, ← choice_ok, ← nameStr_ok]
    exact ⟨fun ⟨_, o, h1, p, h2, q, h3, _⟩ => ⟨⟨o, h1⟩, ⟨p, h2⟩, ⟨q, h3⟩⟩,
      fun ⟨⟨o, h1⟩, ⟨p, h2⟩, ⟨q, h3⟩⟩ => ⟨_, o, h1, p, h2, q, h3, rfl⟩⟩
  case Underground =>
    unfold mxRead BehaviourOk Needed WordOf Dict.get?
    cases List.lookup "type" d with
    | none => simp
    | some v => cases v <;> simp [ite_accept]
  case Variation =>
    refine (one (g := fun o => [("variation", o)])).trans (variation_ok.trans ?_)
    unfold BehaviourOk Needed
    rw [at']
    unfold valueAt
    cases List.lookup "variation" d with
    | none => simp
    | some v => simp
  all_goals exact ⟨fun _ => trivial, fun _ => ⟨_, rfl⟩⟩

end Verif
