import Verif.Proofs.Accept
import Verif.Proofs.AssignMake
import Verif.Proofs.CbPut
import Verif.Proofs.ShownCombi
import Verif.Proofs.ShownEntity
import Verif.Spec.Exportable
/-!
# Helper lemmas: which data can be exported again
-/
set_option autoImplicit false

namespace Verif
open Spec

/-! ## Signals -/

/-- What can be kept for a signal. -/
def Kept (s : Val) : Prop := s.truthy = false ∨ (∃ n, s = .str n) ∨ ∃ z : Int, s = .int z

theorem stands_inj {v u u' : Val} (h : Stands v u) (h' : Stands v u') : u = u' := by
  cases h with
  | object d => cases h' with
    | object => rfl
    | plain _ h => exact absurd rfl (h d)
  | plain _ hv => cases h' with
    | object d => exact absurd rfl (hv d)
    | plain => rfl

theorem signalSet_stands {env : Env} {v s : Val} (h : signalSet env v = .ok s) : Stands v s ∧ Kept s := by
  have key : ∀ u : Val, (if u.truthy then do
        if ← inTable env.signals u then .ok u else .error .unknownSignal
      else .ok u : Except Exc Val) = .ok s → u = s ∧ Kept s := by
    intro u hu
    cases ht : u.truthy with
    | false => rw [ht] at hu; cases hu; exact ⟨rfl, .inl ht⟩
    | true =>
      simp only [ht, if_true, bind_eq_ok] at hu
      obtain ⟨t, h1, h2⟩ := hu
      cases t with
      | false => cases h2
      | true =>
        cases h2
        obtain ⟨n, rfl, -⟩ := inTable_iff.1 h1
        exact ⟨rfl, .inr (.inl ⟨n, rfl⟩)⟩
  cases v with
  | num n =>
    cases n with
    | int z => cases h; exact ⟨.plain _ (fun _ h => by cases h), .inr (.inr ⟨z, rfl⟩)⟩
    | flt q =>
      obtain ⟨rfl, h2⟩ := key _ h
      exact ⟨.plain _ (fun _ h => by cases h), h2⟩
  | dict d =>
    obtain ⟨rfl, h2⟩ := key _ h
    exact ⟨.object d, h2⟩
  | none => obtain ⟨rfl, h2⟩ := key .none h; exact ⟨.plain _ (fun _ h => by cases h), h2⟩
  | bool b => obtain ⟨rfl, h2⟩ := key (.bool b) h; exact ⟨.plain _ (fun _ h => by cases h), h2⟩
  | str t => obtain ⟨rfl, h2⟩ := key (.str t) h; exact ⟨.plain _ (fun _ h => by cases h), h2⟩
  | list l => obtain ⟨rfl, h2⟩ := key (.list l) h; exact ⟨.plain _ (fun _ h => by cases h), h2⟩

theorem signalJson_iff {env : Env} {n : String} : (∃ j, signalJson env n = .ok j) ↔ ∃ t, SignalType env n t := by
  unfold signalJson SignalType
  simp only [bind_eq_ok, subscript_ok, pure_eq_ok, Except.ok.injEq]
  constructor
  · rintro ⟨j, data, h1, t, ⟨d, rfl, h2⟩, -⟩
    exact ⟨t, d, lookup_getItem.1 h1, h2⟩
  · rintro ⟨t, d, h1, h2⟩
    exact ⟨_, _, lookup_getItem.2 h1, t, ⟨d, rfl, h2⟩, rfl⟩

/-- The three kinds of things that are read back. -/
theorem signalGet_kept {s : Val} (h : Kept s) :
    (s = .none ∧ signalGet s = .none) ∨ (∃ z : Int, s = .int z ∧ signalGet s = .int z) ∨
    ∃ n, SignalText s n ∧ signalGet s = .str n ∧ (n = "" ↔ s = .str "") ∧ s ≠ .none ∧ ∀ z : Int, s ≠ .int z := by
  cases s with
  | none => exact .inl ⟨rfl, rfl⟩
  | num n =>
    cases n with
    | int z => exact .inr (.inl ⟨z, rfl, rfl⟩)
    | flt q => exact .inr (.inr ⟨_, .zero q, rfl, ⟨fun h => absurd h (by decide), (fun h => by cases h)⟩,
        (fun h => by cases h), (fun _ h => by cases h)⟩)
  | str t => exact .inr (.inr ⟨t, .name t, rfl, ⟨(fun h => by rw [h]), (fun h => by cases h; rfl)⟩,
        (fun h => by cases h), (fun _ h => by cases h)⟩)
  | bool b =>
    cases b with
    | false => exact .inr (.inr ⟨_, .false, rfl, ⟨fun h => absurd h (by decide), (fun h => by cases h)⟩,
        (fun h => by cases h), (fun _ h => by cases h)⟩)
    | true => rcases h with h | ⟨_, h⟩ | ⟨_, h⟩ <;> cases h
  | list l =>
    cases l with
    | nil => exact .inr (.inr ⟨_, .list, rfl, ⟨fun h => absurd h (by decide), (fun h => by cases h)⟩,
        (fun h => by cases h), (fun _ h => by cases h)⟩)
    | cons => rcases h with h | ⟨_, h⟩ | ⟨_, h⟩ <;> cases h
  | dict d =>
    cases d with
    | nil => exact .inr (.inr ⟨_, .object, rfl, ⟨fun h => absurd h (by decide), (fun h => by cases h)⟩,
        (fun h => by cases h), (fun _ h => by cases h)⟩)
    | cons => rcases h with h | ⟨_, h⟩ | ⟨_, h⟩ <;> cases h

theorem signalText_inj {u : Val} {n n' : String} (h : SignalText u n) (h' : SignalText u n') : n = n' := by
  cases h <;> cases h' <;> rfl

theorem typedText_iff {env : Env} {u : Val} {n : String} (h : SignalText u n) :
    TypedText env u ↔ ∃ j, signalJson env n = .ok j := by
  rw [signalJson_iff]
  constructor
  · rintro ⟨n', t, h1, h2⟩
    cases signalText_inj h h1
    exact ⟨t, h2⟩
  · rintro ⟨t, h2⟩
    exact ⟨n, t, h, h2⟩

section
variable {env : Env} {v s : Val} (h : signalSet env v = .ok s)
include h

theorem signalOut_iff : SignalOut env v ↔ s = .none ∨ IsInt s ∨ TypedText env s := by
  have hs := (signalSet_stands h).1
  constructor
  · rintro ⟨u, hu, h⟩
    cases stands_inj hs hu
    exact h
  · exact fun h => ⟨s, hs, h⟩

theorem objSetSignal_iff (k : String) : (∃ o, objSetSignal env k s = .ok o) ↔ SignalOut env v := by
  rw [signalOut_iff h]
  obtain ⟨-, hk⟩ := signalSet_stands h
  unfold objSetSignal
  rcases signalGet_kept hk with ⟨h1, h2⟩ | ⟨z, h1, h2⟩ | ⟨n, h1, h2, -, h3, h4⟩
  · rw [h2]; exact ⟨fun _ => .inl h1, fun _ => ⟨_, rfl⟩⟩
  · rw [h2]; exact ⟨fun _ => .inr (.inl ⟨z, h1⟩), fun _ => ⟨_, rfl⟩⟩
  · rw [h2]
    dsimp only
    simp only [bind_eq_ok, pure_eq_ok, Except.ok.injEq]
    rw [typedText_iff h1]
    constructor
    · rintro ⟨o, j, hj, -⟩; exact .inr (.inr ⟨j, hj⟩)
    · rintro (h | ⟨z, h⟩ | ⟨j, hj⟩)
      · exact absurd h h3
      · exact absurd h (h4 z)
      · exact ⟨_, j, hj, rfl⟩

theorem operandJson_iff (ck sk : String) : (∃ o, operandJson env ck sk s = .ok o) ↔ SignalOut env v := by
  rw [signalOut_iff h]
  obtain ⟨-, hk⟩ := signalSet_stands h
  unfold operandJson
  rcases signalGet_kept hk with ⟨h1, h2⟩ | ⟨z, h1, h2⟩ | ⟨n, h1, h2, -, h3, h4⟩
  · rw [h2]; exact ⟨fun _ => .inl h1, fun _ => ⟨_, rfl⟩⟩
  · rw [h2]; exact ⟨fun _ => .inr (.inl ⟨z, h1⟩), fun _ => ⟨_, rfl⟩⟩
  · rw [h2]
    dsimp only [signalToJson]
    simp only [bind_eq_ok, pure_eq_ok, Except.ok.injEq]
    rw [typedText_iff h1]
    constructor
    · rintro ⟨o, j, hj, -⟩; exact .inr (.inr ⟨j, hj⟩)
    · rintro (h | ⟨z, h⟩ | ⟨j, hj⟩)
      · exact absurd h h3
      · exact absurd h (h4 z)
      · exact ⟨_, j, hj, rfl⟩

theorem setTo_iff (ctx : CbCtx) (d : Dict) (k : String) : (∃ o, setTo env ctx d k s = .ok o) ↔ SignalOut env v := by
  rw [signalOut_iff h]
  obtain ⟨-, hk⟩ := signalSet_stands h
  unfold setTo
  rcases signalGet_kept hk with ⟨h1, h2⟩ | ⟨z, h1, h2⟩ | ⟨n, h1, h2, -, h3, h4⟩
  · rw [h2]; exact ⟨fun _ => .inl h1, fun _ => ⟨_, rfl⟩⟩
  · rw [h2]; exact ⟨fun _ => .inr (.inl ⟨z, h1⟩), fun _ => ⟨_, rfl⟩⟩
  · rw [h2]
    dsimp only [objSetSignal, signalGet]
    simp only [bind_eq_ok, pure_eq_ok, Except.ok.injEq]
    rw [typedText_iff h1]
    constructor
    · rintro ⟨o, _, ⟨j, hj, -⟩, -⟩; exact .inr (.inr ⟨j, hj⟩)
    · rintro (h | ⟨z, h⟩ | ⟨j, hj⟩)
      · exact absurd h h3
      · exact absurd h (h4 z)
      · exact ⟨_, _, ⟨j, hj, rfl⟩, rfl⟩

theorem objSetIfSignal_iff (k : String) : (∃ o, objSetIfSignal env k s = .ok o) ↔ OptionalOut env v := by
  obtain ⟨hs, hk⟩ := signalSet_stands h
  have e : OptionalOut env v ↔ s = .none ∨ s = .int 0 ∨ s = .str "" ∨ TypedText env s := by
    constructor
    · rintro ⟨u, hu, h⟩
      cases stands_inj hs hu
      exact h
    · exact fun h => ⟨s, hs, h⟩
  rw [e]
  unfold objSetIfSignal
  rcases signalGet_kept hk with ⟨h1, h2⟩ | ⟨z, h1, h2⟩ | ⟨n, h1, h2, h5, h3, h4⟩
  · rw [h2]; exact ⟨fun _ => .inl h1, fun _ => ⟨_, rfl⟩⟩
  · rw [h2]
    subst h1
    by_cases hz : z = 0
    · subst hz; exact ⟨fun _ => .inr (.inl rfl), fun _ => ⟨_, rfl⟩⟩
    · have ht : (Val.int z).truthy = true := by simp [Val.truthy, hz]
      rw [if_pos ht]
      constructor
      · rintro ⟨o, ho⟩; cases ho
      · rintro (h | h | h | ⟨n, t, h, -⟩) <;> cases h
        exact absurd rfl hz
  · rw [h2, typedText_iff h1]
    by_cases hn : n = ""
    · subst hn
      exact ⟨fun _ => .inr (.inr (.inl (h5.1 rfl))), fun _ => ⟨_, rfl⟩⟩
    · have ht : (Val.str n).truthy = true := by simp [Val.truthy, hn]
      rw [if_pos ht]
      dsimp only [signalToJson]
      simp only [bind_eq_ok, pure_eq_ok, Except.ok.injEq]
      constructor
      · rintro ⟨o, j, hj, -⟩; exact .inr (.inr (.inr ⟨j, hj⟩))
      · rintro (h | h | h | ⟨j, hj⟩)
        · exact absurd h h3
        · exact absurd h (h4 0)
        · exact absurd (h5.2 h) hn
        · exact ⟨_, j, hj, rfl⟩

theorem signalToJson_iff : (∃ j, signalToJson env (signalGet s) = .ok j) ↔ NamedOut env v := by
  obtain ⟨hs, hk⟩ := signalSet_stands h
  have e : NamedOut env v ↔ TypedText env s := by
    constructor
    · rintro ⟨u, hu, h⟩
      cases stands_inj hs hu
      exact h
    · exact fun h => ⟨s, hs, h⟩
  rw [e]
  rcases signalGet_kept hk with ⟨h1, h2⟩ | ⟨z, h1, h2⟩ | ⟨n, h1, h2, -⟩
  · rw [h2]; subst h1
    exact ⟨(fun ⟨j, hj⟩ => by cases hj), (fun ⟨n, t, h, _⟩ => by cases h)⟩
  · rw [h2]; subst h1
    exact ⟨(fun ⟨j, hj⟩ => by cases hj), (fun ⟨n, t, h, _⟩ => by cases h)⟩
  · rw [h2, typedText_iff h1]; rfl

end

/-! ## Behaviours -/

theorem attr_given {a : Kw} {k : String} {w : Attrs} (h : a k = Dict.get? w k) (hk : k ∈ w.map (·.1)) :
    ∃ v, attr a k = .ok v := by
  cases hw : Dict.get? w k with
  | none =>
    unfold Dict.get? at hw
    rw [lookup_none_iff] at hw
    exact absurd hk hw
  | some v => exact ⟨v, attr_ok.2 (h.trans hw)⟩

/-- Only the alerts of speakers can fail. -/
theorem mx_emits {env : Env} {strict sh : Bool} {m : Mx} {g a : Kw} {w : Dict} {dir : Direction} (hm : m ≠ .Speaker)
    (hr : mxRead env strict sh m g = .ok w) (ha : ∀ k ∈ mxAttrs m, a k = Dict.get? w k) :
    ∃ out, mxEmit env m a dir = .ok out := by
  have h : ∀ k ∈ mxAttrs m, ∃ v, attr a k = .ok v := fun k hk => attr_given (ha k hk) (mxRead_full hr k hk)
  cases m
  case Speaker => exact absurd rfl hm
  all_goals simp only [mxAttrs, mxKeys, List.mem_cons, List.not_mem_nil, or_false, forall_eq_or_imp, forall_eq,
    false_imp_iff, implies_true] at h
  all_goals first
    | exact ⟨_, rfl⟩
    | (obtain ⟨v, h⟩ := h; simp only [mxEmit, h, ok_bind, pure_eq_ok]; exact ⟨_, rfl⟩)
    | (obtain ⟨⟨v, h⟩, u, h'⟩ := h; simp only [mxEmit, h, h', ok_bind, pure_eq_ok]; exact ⟨_, rfl⟩)
    | (obtain ⟨⟨v, h⟩, ⟨u, h'⟩, x, h''⟩ := h; simp only [mxEmit, h, h', h'', ok_bind, pure_eq_ok]; exact ⟨_, rfl⟩)

theorem nameStr_cases {env : Env} {v n : Val} (h : nameStr env v = .ok n) : n = v ∧ (v = .none ∨ ∃ s, v = .str s) := by
  unfold nameStr at h
  split at h
  · cases h; exact ⟨rfl, .inl rfl⟩
  · split at h
    · cases h; exact ⟨rfl, .inr ⟨_, rfl⟩⟩
    · cases h
  · split at h <;> cases h

/-- The alert of a speaker. -/
theorem speaker_emits {env : Env} {strict sh : Bool} {g a : Kw} {w : Dict} {dir : Direction}
    (hr : mxRead env strict sh .Speaker g = .ok w) (ha : ∀ k ∈ mxAttrs .Speaker, a k = Dict.get? w k) :
    (∃ out, mxEmit env .Speaker a dir = .ok out) ↔ ∀ d i n, g "alert_parameters" = some (.dict d) →
      List.lookup "icon_signal_id" d = some (.dict i) → List.lookup "name" i = some (.str n) →
      ∃ row t, List.lookup n env.defaults = some (.dict row) ∧ List.lookup "type" row = some t := by
  simp only [mxRead, bind_eq_ok, pure_eq_ok, Except.ok.injEq] at hr
  obtain ⟨p, hp, al, hal, rfl⟩ := hr
  have h1 : attr a "parameters" = .ok p := attr_ok.2 ((ha "parameters" (by decide)).trans rfl)
  have h2 : attr a "alert_parameters" = .ok al := attr_ok.2 ((ha "alert_parameters" (by decide)).trans rfl)
  have e : (∃ out, mxEmit env .Speaker a dir = .ok out) ↔ ∃ o, alertJson env al = .ok o := by
    simp only [mxEmit, h1, h2, ok_bind, bind_eq_ok, pure_eq_ok, Except.ok.injEq]
    exact ⟨fun ⟨_, o, h, _⟩ => ⟨o, h⟩, fun ⟨o, h⟩ => ⟨_, o, h, rfl⟩⟩
  rw [e]
  unfold readAlert at hal
  split at hal
  · rename_i hg
    cases hal
    refine ⟨fun _ d i n hd => ?_, fun _ => ⟨_, rfl⟩⟩
    unfold Kw.orNone at hg
    rw [hd] at hg
    cases hg
  · rename_i hg
    simp only [bind_eq_ok, pure_eq_ok, Except.ok.injEq] at hal
    obtain ⟨sa, -, sm, -, d, hd, icon, hi, n, hn, msg, -, rfl⟩ := hal
    obtain ⟨rfl, hn'⟩ := nameStr_cases hn
    rw [asDict_ok] at hd hi
    have hgd : g "alert_parameters" = some (.dict d) := by
      unfold Kw.orNone at hd
      cases hx : g "alert_parameters" with
      | none => rw [hx] at hd; cases hd
      | some y => rw [hx] at hd; exact congrArg some hd
    have e2 : (∃ o, alertJson env (.dict [("show_alert", .bool sa.truthy), ("show_on_map", .bool sm.truthy),
        ("icon_signal_id", Dict.getD icon "name" .none), ("alert_message", msg)]) = .ok o) ↔
        ∃ o, alertIcon env (Dict.getD icon "name" .none) = .ok o := by
      simp only [alertJson, bind_eq_ok, pure_eq_ok, Except.ok.injEq]
      constructor
      · rintro ⟨o, _, -, _, -, _, -, ic, h, x, hx, -⟩
        cases h
        exact ⟨x, hx⟩
      · rintro ⟨x, hx⟩
        exact ⟨_, _, rfl, _, rfl, _, rfl, _, rfl, x, hx, rfl⟩
    rw [e2]
    have hicon : ∀ i, List.lookup "icon_signal_id" d = some (.dict i) → i = icon := fun i h => by
      have : Dict.getD d "icon_signal_id" (.dict []) = .dict i := by unfold Dict.getD Dict.get?; rw [h]; rfl
      rw [hi] at this
      cases this
      rfl
    have hdef : ∀ s, (∃ o, alertIcon env (.str s) = .ok o) ↔
        ∃ row t, List.lookup s env.defaults = some (.dict row) ∧ List.lookup "type" row = some t := by
      intro s
      simp only [alertIcon, bind_eq_ok, pure_eq_ok, Except.ok.injEq, subscript_ok]
      constructor
      · rintro ⟨_, t, ⟨row, h, ht⟩, -⟩
        refine ⟨row, t, ?_, ht⟩
        unfold Dict.getD Dict.get? at h
        cases hx : List.lookup s env.defaults with
        | none => rw [hx] at h; cases h
        | some y => rw [hx] at h; exact congrArg some h
      · rintro ⟨row, t, h, ht⟩
        refine ⟨_, t, ⟨row, ?_, ht⟩, rfl⟩
        unfold Dict.getD Dict.get?
        rw [h]
        rfl
    clear hn
    rcases hn' with hn | ⟨s, hn⟩
    · rw [hn]
      refine ⟨fun _ d' i n h1 h2 h3 => ?_, fun _ => ⟨_, rfl⟩⟩
      cases hgd.symm.trans h1
      cases hicon i h2
      unfold Dict.getD Dict.get? at hn
      rw [h3] at hn
      cases hn
    · rw [hn, hdef]
      constructor
      · intro hx d' i n h1 h2 h3
        cases hgd.symm.trans h1
        cases hicon i h2
        unfold Dict.getD Dict.get? at hn
        rw [h3] at hn
        cases hn
        exact hx
      · intro hx
        have hname : List.lookup "name" icon = some (.str s) := by
          unfold Dict.getD Dict.get? at hn
          cases hy : List.lookup "name" icon with
          | none => rw [hy] at hn; cases hn
          | some y => rw [hy] at hn; exact congrArg some hn
        cases hl : List.lookup "icon_signal_id" d with
        | none =>
          unfold Dict.getD Dict.get? at hi
          rw [hl] at hi
          cases hi
          cases hname
        | some y =>
          unfold Dict.getD Dict.get? at hi
          rw [hl] at hi
          cases hi
          exact hx d icon s hgd hl hname

/-! ## Control behaviours -/

/-- The conditions of `ExportableControl` for one behaviour. -/
def CbOut (env : Env) (m : Mx) (g : Kw) : Prop :=
  (∀ k, (m, k) ∈ signalSettings → m ≠ .Roboport → m ≠ .Station → SignalOut env (g.orNone k)) ∧
  (∀ k, (m, k) ∈ signalSettings → m = .Roboport ∨ m = .Station → OptionalOut env (g.orNone k)) ∧
  (m = .Filters → ∀ l, g "filters" = some (.list l) → ∀ d, Val.dict d ∈ l → NamedOut env (valueAt d "signal")) ∧
  (m = .CircuitCondition → ∀ d, g "circuit_condition" = some (.dict d) →
    SignalOut env (valueAt d "first_signal") ∧ SignalOut env ((List.lookup "second_signal" d).getD (valueAt d "constant")))

theorem filterJson_iff {env : Env} {f r : Val} (h : readFilter env f = .ok r) :
    (∃ j, filterJson env r = .ok j) ↔ ∀ d, f = .dict d → NamedOut env (valueAt d "signal") := by
  unfold readFilter at h
  simp only [bind_eq_ok] at h
  obtain ⟨d, hd, h⟩ := h
  have hd := kwargs_ok.1 hd
  subst hd
  split at h
  · cases h
  simp only [pure_eq_ok, ok_bind, bind_eq_ok] at h
  obtain ⟨s, hs, h⟩ := h
  split at h
  · cases h
  cases h
  have e : (∃ j, filterJson env (.dict [("signal", s), ("count", Dict.getD d "count" .none),
      ("index", Dict.getD d "index" .none)]) = .ok j) ↔ ∃ j, signalToJson env (signalGet s) = .ok j := by
    simp only [filterJson, bind_eq_ok, pure_eq_ok, Except.ok.injEq]
    constructor
    · rintro ⟨_, _, h, _, -, _, -, x, hx, -⟩
      cases h
      exact ⟨x, hx⟩
    · rintro ⟨x, hx⟩
      exact ⟨_, _, rfl, _, rfl, _, rfl, x, hx, rfl⟩
  rw [e, signalToJson_iff hs]
  exact ⟨fun h _ e => by cases e; exact h, fun h => h d rfl⟩

theorem cbOut_signals {env : Env} {m : Mx} {g : Kw} (h1 : m ≠ .Roboport) (h2 : m ≠ .Station) (h3 : m ≠ .Filters)
    (h4 : m ≠ .CircuitCondition) : CbOut env m g ↔ ∀ k, (m, k) ∈ signalSettings → SignalOut env (g.orNone k) :=
  ⟨fun h k hk => h.1 k hk h1 h2, fun h => ⟨fun k hk _ _ => h k hk, fun k _ h => by rcases h with h | h; exact absurd h h1; exact absurd h h2,
    fun h => absurd h h3, fun h => absurd h h4⟩⟩

theorem cbOut_optional {env : Env} {m : Mx} {g : Kw} (h : m = .Roboport ∨ m = .Station) :
    CbOut env m g ↔ ∀ k, (m, k) ∈ signalSettings → OptionalOut env (g.orNone k) := by
  refine ⟨fun h' k hk => h'.2.1 k hk h, fun h' => ⟨fun k hk n1 n2 => ?_, fun k hk _ => h' k hk, fun e => ?_, fun e => ?_⟩⟩
  · rcases h with h | h
    · exact absurd h n1
    · exact absurd h n2
  · rcases h with h | h <;> rw [h] at e <;> cases e
  · rcases h with h | h <;> rw [h] at e <;> cases e

theorem orNone_of {a : Kw} {k : String} {w : Attrs} {v : Val} (h : a k = Dict.get? w k) (hw : Dict.get? w k = some v) :
    a.orNone k = v := by
  unfold Kw.orNone
  rw [h, hw]
  rfl

theorem cb_emits {env : Env} {ctx : CbCtx} {m : Mx} {g a : Kw} {w : Dict}
    (hr : cbRead env ctx m g = .ok w) (ha : ∀ k ∈ cbAttrs m, a k = Dict.get? w k) :
    (∃ out, cbEmit env m a = .ok out) ↔ CbOut env m g := by
  have hat : m ≠ .CircuitCondition → ∀ k ∈ cbKeys m, ∃ v, attr a k = .ok v := fun hm k hk =>
    attr_given (ha k (by cases m <;> first | exact hk | exact absurd rfl hm | cases hk)) (cbRead_full hk hm hr)
  cases m
  case CircuitCondition =>
    have e : CbOut env .CircuitCondition g ↔ ∀ d, g "circuit_condition" = some (.dict d) →
        SignalOut env (valueAt d "first_signal") ∧ SignalOut env ((List.lookup "second_signal" d).getD (valueAt d "constant")) :=
      ⟨fun h => h.2.2.2 rfl, fun h => ⟨(fun k hk => by revert hk; simp [signalSettings]),
        (fun k hk => by revert hk; simp [signalSettings]), (fun h => by cases h),
        fun _ => h⟩⟩
    rw [e]
    simp only [cbRead] at hr
    split at hr
    · rename_i hg
      cases hr
      have h0 : ∀ k ∈ cbAttrs .CircuitCondition, a.orNone k = .none := fun k hk => by
        unfold Kw.orNone
        rw [ha k hk]
        rfl
      refine ⟨fun _ d hd => ?_, fun _ => ?_⟩
      · unfold Kw.orNone at hg
        rw [hd] at hg
        cases hg
      · simp only [cbEmit, h0 "first" (by decide), h0 "second" (by decide), operandJson, signalGet, ok_bind, pure_eq_ok]
        exact ⟨_, rfl⟩
    · simp only [bind_eq_ok, pure_eq_ok, Except.ok.injEq] at hr
      obtain ⟨d, hd, f, hf, s, hs, c, hc, rfl⟩ := hr
      rw [asDict_ok] at hd
      have hgd : g "circuit_condition" = some (.dict d) := by
        unfold Kw.orNone at hd
        cases hx : g "circuit_condition" with
        | none => rw [hx] at hd; cases hd
        | some y => rw [hx] at hd; exact congrArg some hd
      have e2 : (∃ out, cbEmit env .CircuitCondition a = .ok out) ↔
          (∃ o, operandJson env "first_constant" "first_signal" f = .ok o) ∧
          ∃ o, operandJson env "constant" "second_signal" s = .ok o := by
        simp only [cbEmit, orNone_of (ha "first" (by decide)) rfl, orNone_of (ha "second" (by decide)) rfl, bind_eq_ok,
          pure_eq_ok, Except.ok.injEq]
        exact ⟨fun ⟨_, x, h1, y, h2, _⟩ => ⟨⟨x, h1⟩, y, h2⟩, fun ⟨⟨x, h1⟩, y, h2⟩ => ⟨_, x, h1, y, h2, rfl⟩⟩
      rw [e2, operandJson_iff hf, operandJson_iff hs]
      constructor
      · intro h d' hd'
        cases hgd.symm.trans hd'
        exact h
      · exact fun h => h d hgd
  case Filters =>
    have e : CbOut env .Filters g ↔ ∀ l, g "filters" = some (.list l) → ∀ d, Val.dict d ∈ l → NamedOut env (valueAt d "signal") :=
      ⟨fun h => h.2.2.1 rfl, fun h => ⟨(fun k hk => by revert hk; simp [signalSettings]),
        (fun k hk => by revert hk; simp [signalSettings]), fun _ => h, (fun h => by cases h)⟩⟩
    rw [e]
    simp only [cbRead, bind_eq_ok] at hr
    obtain ⟨fs, hfs, hr⟩ := hr
    split at hr
    · cases hr
    simp only [ok_bind, pure_eq_ok, bind_eq_ok, Except.ok.injEq] at hr
    obtain ⟨out, hout, rfl⟩ := hr
    have e2 : (∃ o, cbEmit env .Filters a = .ok o) ↔ ∀ r ∈ out, ∃ j, filterJson env r = .ok j := by
      simp only [cbEmit, attr_ok.2 ((ha "filters" (by decide)).trans rfl), ok_bind, Val.iter]
      rw [← mapM_iff]
      cases out with
      | nil => exact ⟨fun _ => ⟨_, rfl⟩, fun _ => ⟨_, rfl⟩⟩
      | cons r out =>
        simp only [List.isEmpty_cons, Bool.false_eq_true, if_false, bind_eq_ok, pure_eq_ok, Except.ok.injEq]
        exact ⟨fun ⟨_, x, h, _⟩ => ⟨x, h⟩, fun ⟨x, h⟩ => ⟨_, x, h, rfl⟩⟩
    rw [e2]
    have hall : ∀ f ∈ fs, ∃ r ∈ out, readFilter env f = .ok r := fun f hf => by
      obtain ⟨r, hr⟩ := mapM_iff.1 ⟨_, hout⟩ f hf
      exact ⟨r, (mem_mapM_except hout r).2 ⟨f, hf, hr⟩, hr⟩
    constructor
    · intro h l hl d hd
      rw [hl] at hfs
      cases hfs
      obtain ⟨r, hr, hf⟩ := hall _ hd
      exact (filterJson_iff hf).1 (h r hr) d rfl
    · intro h r hr
      obtain ⟨f, hf, hfr⟩ := (mem_mapM_except hout r).1 hr
      refine (filterJson_iff hfr).2 (fun d hd => ?_)
      subst hd
      cases hg : g "filters" with
      | none => rw [hg] at hfs; cases hfs; cases hf
      | some v =>
        rw [hg] at hfs
        cases v with
        | list l => cases hfs; exact h _ hg d hf
        | dict x =>
          cases hfs
          obtain ⟨_, -, h⟩ := List.mem_map.1 hf
          cases h
        | str x =>
          cases hfs
          obtain ⟨_, -, h⟩ := List.mem_map.1 hf
          cases h
        | none => cases hfs
        | bool => cases hfs
        | num => cases hfs
  case Accumulator =>
    rw [cbOut_signals (by decide) (by decide) (by decide) (by decide)]
    simp only [cbRead, bind_eq_ok, pure_eq_ok, Except.ok.injEq] at hr
    obtain ⟨s, hs, rfl⟩ := hr
    simp only [cbEmit, orNone_of (ha "output_signal" (by decide)) rfl, objSetSignal_iff hs]
    simp [signalSettings]
  case ChainSignal =>
    rw [cbOut_signals (by decide) (by decide) (by decide) (by decide)]
    simp only [cbRead, bind_eq_ok, pure_eq_ok, Except.ok.injEq] at hr
    obtain ⟨s, hs, rfl⟩ := hr
    simp only [cbEmit, orNone_of (ha "blue_output_signal" (by decide)) rfl, objSetSignal_iff hs]
    simp [signalSettings]
  case TrainSignal =>
    rw [cbOut_signals (by decide) (by decide) (by decide) (by decide)]
    simp only [cbRead, bind_eq_ok, pure_eq_ok, Except.ok.injEq] at hr
    obtain ⟨r, h1, o, h2, gr, h3, rfl⟩ := hr
    obtain ⟨v, hv⟩ := hat (by decide) "circuit_read_signal" (by decide)
    simp only [cbEmit, hv, ok_bind, orNone_of (ha "red_output_signal" (by decide)) rfl,
      orNone_of (ha "orange_output_signal" (by decide)) rfl, orNone_of (ha "green_output_signal" (by decide)) rfl,
      bind_eq_ok, pure_eq_ok, Except.ok.injEq]
    have e : (∀ k, (Mx.TrainSignal, k) ∈ signalSettings → SignalOut env (g.orNone k)) ↔
        SignalOut env (g.orNone "red_output_signal") ∧ SignalOut env (g.orNone "orange_output_signal") ∧
        SignalOut env (g.orNone "green_output_signal") := by
      simp [signalSettings]
    rw [e, ← objSetSignal_iff h1 "red_output_signal", ← objSetSignal_iff h2 "orange_output_signal",
      ← objSetSignal_iff h3 "green_output_signal"]
    exact ⟨fun ⟨_, x, q1, y, q2, z, q3, _⟩ => ⟨⟨x, q1⟩, ⟨y, q2⟩, z, q3⟩,
      fun ⟨⟨x, q1⟩, ⟨y, q2⟩, z, q3⟩ => ⟨_, x, q1, y, q2, z, q3, rfl⟩⟩
  case Inserter =>
    rw [cbOut_signals (by decide) (by decide) (by decide) (by decide)]
    simp only [cbRead, bind_eq_ok, pure_eq_ok, Except.ok.injEq] at hr
    obtain ⟨s, hs, rfl⟩ := hr
    obtain ⟨v1, hv1⟩ := hat (by decide) "circuit_mode_of_operation" (by decide)
    obtain ⟨v2, hv2⟩ := hat (by decide) "circuit_set_stack_size" (by decide)
    obtain ⟨v3, hv3⟩ := hat (by decide) "circuit_hand_read_mode" (by decide)
    obtain ⟨v4, hv4⟩ := hat (by decide) "circuit_read_hand_contents" (by decide)
    simp only [cbEmit, hv1, hv2, hv3, hv4, ok_bind, orNone_of (ha "stack_control_input_signal" (by decide)) rfl,
      bind_eq_ok, pure_eq_ok, Except.ok.injEq]
    have e : (∀ k, (Mx.Inserter, k) ∈ signalSettings → SignalOut env (g.orNone k)) ↔
        SignalOut env (g.orNone "stack_control_input_signal") := by
      simp [signalSettings]
    rw [e, ← objSetSignal_iff hs "stack_control_input_signal"]
    exact ⟨fun ⟨_, x, q, _⟩ => ⟨x, q⟩, fun ⟨x, q⟩ => ⟨_, x, q, rfl⟩⟩
  case Station =>
    rw [cbOut_optional (.inr rfl)]
    simp only [cbRead, bind_eq_ok, pure_eq_ok, Except.ok.injEq] at hr
    obtain ⟨s, hs, rfl⟩ := hr
    obtain ⟨v1, hv1⟩ := hat (by decide) "circuit_enable_disable" (by decide)
    obtain ⟨v2, hv2⟩ := hat (by decide) "read_from_train" (by decide)
    obtain ⟨v3, hv3⟩ := hat (by decide) "read_stopped_train" (by decide)
    simp only [cbEmit, hv1, hv2, hv3, ok_bind, orNone_of (ha "train_stopped_signal" (by decide)) rfl,
      bind_eq_ok, pure_eq_ok, Except.ok.injEq]
    have e : (∀ k, (Mx.Station, k) ∈ signalSettings → OptionalOut env (g.orNone k)) ↔
        OptionalOut env (g.orNone "train_stopped_signal") := by
      simp [signalSettings]
    rw [e, ← objSetIfSignal_iff hs "train_stopped_signal"]
    exact ⟨fun ⟨_, x, q, _⟩ => ⟨x, q⟩, fun ⟨x, q⟩ => ⟨_, x, q, rfl⟩⟩
  case Roboport =>
    rw [cbOut_optional (.inl rfl)]
    simp only [cbRead, bind_eq_ok, pure_eq_ok, Except.ok.injEq] at hr
    obtain ⟨s1, h1, s2, h2, s3, h3, s4, h4, rfl⟩ := hr
    obtain ⟨v1, hv1⟩ := hat (by decide) "read_logistics" (by decide)
    obtain ⟨v2, hv2⟩ := hat (by decide) "read_robot_stats" (by decide)
    simp only [cbEmit, hv1, hv2, ok_bind, orNone_of (ha "available_construction_output_signal" (by decide)) rfl,
      orNone_of (ha "total_construction_output_signal" (by decide)) rfl,
      orNone_of (ha "available_logistic_output_signal" (by decide)) rfl,
      orNone_of (ha "total_logistic_output_signal" (by decide)) rfl, bind_eq_ok, pure_eq_ok, Except.ok.injEq]
    have e : (∀ k, (Mx.Roboport, k) ∈ signalSettings → OptionalOut env (g.orNone k)) ↔
        OptionalOut env (g.orNone "available_construction_output_signal") ∧
        OptionalOut env (g.orNone "total_construction_output_signal") ∧
        OptionalOut env (g.orNone "available_logistic_output_signal") ∧
        OptionalOut env (g.orNone "total_logistic_output_signal") := by
      simp [signalSettings]
    rw [e, ← objSetIfSignal_iff h1 "available_construction_output_signal",
      ← objSetIfSignal_iff h2 "total_construction_output_signal", ← objSetIfSignal_iff h3 "available_logistic_output_signal",
      ← objSetIfSignal_iff h4 "total_logistic_output_signal"]
    exact ⟨fun ⟨_, x, q1, y, q2, z, q3, u, q4, _⟩ => ⟨⟨x, q1⟩, ⟨y, q2⟩, ⟨z, q3⟩, u, q4⟩,
      fun ⟨⟨x, q1⟩, ⟨y, q2⟩, ⟨z, q3⟩, u, q4⟩ => ⟨_, x, q1, y, q2, z, q3, u, q4, rfl⟩⟩
  all_goals rw [cbOut_signals (by decide) (by decide) (by decide) (by decide)]
  all_goals
    refine ⟨fun _ k hk => absurd hk (by simp [signalSettings]), fun _ => ?_⟩
    have h := hat (by decide)
    simp only [cbKeys, List.mem_cons, List.not_mem_nil, or_false, forall_eq_or_imp, forall_eq, false_imp_iff,
      implies_true] at h
    first
    | exact ⟨_, rfl⟩
    | (obtain ⟨v, h⟩ := h; simp only [cbEmit, h, ok_bind, pure_eq_ok]; exact ⟨_, rfl⟩)
    | (obtain ⟨⟨v, h⟩, ⟨u, h'⟩, x, h''⟩ := h; simp only [cbEmit, h, h', h'', ok_bind, pure_eq_ok]; exact ⟨_, rfl⟩)

theorem cbEmitChain_total {env : Env} {ctx : CbCtx} {ms : List Mx} {a : Kw} {obj : Dict} (hp : CbPlain ms)
    (h : ∀ m ∈ ms, ∃ out, cbEmit env m a = .ok out) : ∃ o, cbEmitChain env ctx ms a obj = .ok o := by
  induction ms generalizing obj with
  | nil => exact ⟨obj, rfl⟩
  | cons m ms ih =>
    obtain ⟨h1, h2, -, -, h5⟩ := hp
    obtain ⟨out, ho⟩ := h m (List.mem_cons_self ..)
    have e : cbEmit1 env ctx m a obj = .ok (setAll obj out) := by
      unfold cbEmit1
      split
      · exact absurd rfl h1
      · exact absurd rfl h2
      · rw [ho]; rfl
    rw [cbEmitChain, e]
    exact ih h5 (fun m' hm => h m' (List.mem_cons_of_mem _ hm))

/-! ## Combinators -/

theorem operand_inj {d : Dict} {ck sk : String} {u u' : Val} (h : OperandAt d ck sk u) (h' : OperandAt d ck sk u') : u = u' := by
  have some_at : ∀ {k : String} {x : Val}, List.lookup k d = some x → valueAt d k = x := fun h => by
    unfold valueAt; rw [h]; rfl
  rcases h with ⟨h1, h2⟩ | ⟨h1, h2, rfl⟩ | ⟨h1, s, h2, h3⟩ <;> rcases h' with ⟨g1, g2⟩ | ⟨g1, g2, rfl⟩ | ⟨g1, t, g2, g3⟩
  · exact Option.some.inj (h2.symm.trans g2)
  · exact absurd ((some_at h2).symm.trans g1) h1
  · exact absurd ((some_at h2).symm.trans g1) h1
  · exact absurd ((some_at g2).symm.trans h1) g1
  · rfl
  · cases (some_at g2).symm.trans h2
  · exact absurd ((some_at g2).symm.trans h1) g1
  · cases (some_at h2).symm.trans g2
  · cases h2.symm.trans g2
    exact Option.some.inj (h3.symm.trans g3)

theorem operand_congr {d d' : Dict} {ck sk : String} {u : Val} (h1 : Dict.get? d' ck = Dict.get? d ck)
    (h2 : Dict.get? d' sk = Dict.get? d sk) (h : OperandAt d' ck sk u) : OperandAt d ck sk u := by
  unfold Dict.get? at h1 h2
  unfold OperandAt valueAt at *
  rwa [h1, h2] at h

theorem getFrom_operand {ctx : CbCtx} {d d' : Dict} {key : String} {u : Val} (hne : readKey ctx key ≠ key ++ "_signal")
    (h : getFrom ctx d key = (.ok u, d')) : OperandAt d (readKey ctx key) (key ++ "_signal") u ∧
      ∀ k, k ≠ readKey ctx key → k ≠ key ++ "_signal" → Dict.get? d' k = Dict.get? d k := by
  have eq : getFrom ctx d key = (match Dict.getD d (readKey ctx key) .none with
    | .none => match Dict.getD (Dict.erase d (readKey ctx key)) (key ++ "_signal") .none with
      | .none => (.ok .none, Dict.erase (Dict.erase d (readKey ctx key)) (key ++ "_signal"))
      | v => (v.subscript "name", Dict.erase (Dict.erase d (readKey ctx key)) (key ++ "_signal"))
    | v => (.ok v, Dict.erase d (readKey ctx key))) := rfl
  have e1 : Dict.getD d (readKey ctx key) .none = valueAt d (readKey ctx key) := rfl
  have e2 : Dict.getD (Dict.erase d (readKey ctx key)) (key ++ "_signal") .none = valueAt d (key ++ "_signal") := by
    unfold Dict.getD
    rw [get_erase_ne hne.symm]
    rfl
  have two : ∀ k, k ≠ readKey ctx key → k ≠ key ++ "_signal" →
      Dict.get? (Dict.erase (Dict.erase d (readKey ctx key)) (key ++ "_signal")) k = Dict.get? d k := by
    intro k h1 h2
    rw [get_erase_ne h2, get_erase_ne h1]
  have some_of : ∀ {k : String}, valueAt d k ≠ .none → List.lookup k d = some (valueAt d k) := fun {k} h => by
    unfold valueAt at *
    cases hx : List.lookup k d with
    | none => rw [hx] at h; exact absurd rfl h
    | some v => rfl
  rw [eq, e1, e2] at h
  split at h
  · rename_i h1
    split at h
    · rename_i h2
      cases h
      exact ⟨.inr (.inl ⟨h1, h2, rfl⟩), two⟩
    · rename_i h2
      obtain ⟨h3, rfl⟩ := Prod.mk.inj h
      obtain ⟨s, h4, h5⟩ := subscript_ok.1 h3
      refine ⟨.inr (.inr ⟨h1, s, ?_, h5⟩), two⟩
      rw [← h4]
      exact some_of h2
  · rename_i h1
    cases h
    exact ⟨.inl ⟨h1, some_of h1⟩, fun k hk _ => get_erase_ne hk⟩

/-- The operands of a combinator and what is kept of them. -/
theorem combinatorBody_operands {env : Env} {ctx : CbCtx} {cond rest : Dict} {a : Attrs} (hn : (tripKeys ctx).Nodup)
    (h : combinatorBody env ctx cond = (.ok a, rest)) : ∃ op f s o uf us uo,
      a = [("operator", op), ("first", f), ("second", s), ("output", o)] ∧
      Dict.get? cond ctx.operator ≠ none ∧
      (signalSet env uf = .ok f ∧ OperandAt cond (readKey ctx "first") "first_signal" uf) ∧
      (signalSet env us = .ok s ∧ OperandAt cond (readKey ctx "second") "second_signal" us) ∧
      (signalSet env uo = .ok o ∧ OperandAt cond (readKey ctx "output") "output_signal" uo) := by
  unfold tripKeys at hn
  simp only [List.nodup_cons, List.mem_cons, List.not_mem_nil, or_false, not_or, -String.reduceAppend, not_false_eq_true,
    List.nodup_nil, and_true] at hn
  obtain ⟨⟨a1, a2, a3, a4, a5, a6⟩, ⟨b1, b2, b3, b4, b5⟩, ⟨c1, c2, c3, c4⟩, ⟨d1, d2, d3⟩, ⟨e1, e2⟩, f1⟩ := hn
  unfold combinatorBody at h
  cases hop : Dict.get? cond ctx.operator with
  | none => rw [hop] at h; cases h
  | some op =>
  rw [hop] at h
  dsimp only at h
  split at h
  · cases h
  rename_i op' _
  cases h1 : getFrom ctx (Dict.erase cond ctx.operator) "first" with
  | mk x1 k1 =>
  rw [h1] at h
  cases x1 with
  | error e => cases h
  | ok uf =>
  dsimp only at h
  split at h
  · cases h
  rename_i f hf
  cases h2 : getFrom ctx k1 "second" with
  | mk x2 k2 =>
  rw [h2] at h
  cases x2 with
  | error e => cases h
  | ok us =>
  dsimp only at h
  split at h
  · cases h
  rename_i s hs
  cases h3 : getFrom ctx k2 "output" with
  | mk x3 k3 =>
  rw [h3] at h
  cases x3 with
  | error e => cases h
  | ok uo =>
  dsimp only at h
  split at h
  · cases h
  rename_i o ho
  cases h
  obtain ⟨p1, q1⟩ := getFrom_operand b1 h1
  obtain ⟨p2, q2⟩ := getFrom_operand d1 h2
  obtain ⟨p3, q3⟩ := getFrom_operand f1 h3
  have g0 : ∀ k, k ≠ ctx.operator → Dict.get? (Dict.erase cond ctx.operator) k = Dict.get? cond k := fun k hk =>
    get_erase_ne hk
  refine ⟨op', f, s, o, uf, us, uo, rfl, by simp, ⟨hf, ?_⟩, ⟨hs, ?_⟩, ⟨ho, ?_⟩⟩
  · exact operand_congr (g0 _ (Ne.symm a1)) (g0 _ (Ne.symm a2)) p1
  · refine operand_congr ?_ ?_ p2
    · rw [q1 _ (Ne.symm b2) (Ne.symm c1), g0 _ (Ne.symm a3)]
    · exact (q1 _ (Ne.symm b3) (Ne.symm c2)).trans (g0 _ (Ne.symm a4))
  · refine operand_congr ?_ ?_ p3
    · rw [q2 _ (Ne.symm d2) (Ne.symm e1), q1 _ (Ne.symm b4) (Ne.symm c3), g0 _ (Ne.symm a5)]
    · exact (q2 _ (Ne.symm d3) (Ne.symm e2)).trans ((q1 _ (Ne.symm b5) (Ne.symm c4)).trans (g0 _ (Ne.symm a6)))

theorem combinatorEmit_iff {env : Env} {ctx : CbCtx} {os : List String} {a : Kw} {obj old : Dict} {f s o uf us uo : Val}
    (hos : ctx.options = some os) (hno : ctx.noOperator = false)
    (hf : signalSet env uf = .ok f) (hs : signalSet env us = .ok s) (ho : signalSet env uo = .ok o)
    (af : a.orNone "first" = f) (as : a.orNone "second" = s) (ao : a.orNone "output" = o)
    (hold : Dict.getD obj ctx.field (.dict []) = .dict old) :
    (∃ out, combinatorEmit env ctx a obj = .ok out) ↔ SignalOut env uf ∧ SignalOut env us ∧ SignalOut env uo := by
  unfold combinatorEmit
  rw [operatorRead_eq hos, hno, af, as, ao, hold]
  simp only [Bool.false_eq_true, if_false, ok_bind, bind_eq_ok, pure_eq_ok, Except.ok.injEq, Val.kwargs]
  constructor
  · rintro ⟨out, d1, h1, d2, h2, d3, h3, -⟩
    exact ⟨(setTo_iff hf ctx _ _).1 ⟨_, h1⟩, (setTo_iff hs ctx _ _).1 ⟨_, h2⟩, (setTo_iff ho ctx _ _).1 ⟨_, h3⟩⟩
  · rintro ⟨h1, h2, h3⟩
    obtain ⟨d1, h1⟩ := (setTo_iff hf ctx [(ctx.operator, a.orNone "operator")] "first").2 h1
    obtain ⟨d2, h2⟩ := (setTo_iff hs ctx d1 "second").2 h2
    obtain ⟨d3, h3⟩ := (setTo_iff ho ctx d2 "output").2 h3
    exact ⟨_, d1, h1, d2, h2, d3, h3, rfl⟩

theorem three_operands {env : Env} {d : Dict} {c1 c2 c3 s1 s2 s3 : String} {uf us uo : Val} (h1 : OperandAt d c1 s1 uf)
    (h2 : OperandAt d c2 s2 us) (h3 : OperandAt d c3 s3 uo) :
    (∀ p ∈ [(c1, s1), (c2, s2), (c3, s3)], ∀ u, OperandAt d p.1 p.2 u → SignalOut env u) ↔
      SignalOut env uf ∧ SignalOut env us ∧ SignalOut env uo := by
  simp only [List.mem_cons, List.not_mem_nil, or_false, forall_eq_or_imp, forall_eq]
  constructor
  · rintro ⟨g1, g2, g3⟩
    exact ⟨g1 _ h1, g2 _ h2, g3 _ h3⟩
  · rintro ⟨g1, g2, g3⟩
    exact ⟨fun u hu => operand_inj h1 hu ▸ g1, fun u hu => operand_inj h2 hu ▸ g2, fun u hu => operand_inj h3 hu ▸ g3⟩

theorem arithmetic_emits {env : Env} {ctx : CbCtx} {os : List String} {lo : Exc} {kw : Dict} {a : Attrs}
    (ht : ctx.type = "arithmetic") (hop : ctx.operator = "operation") (hos : ctx.options = some os)
    (hno : ctx.noOperator = false) (h : cbInitChain env ctx lo [.Arithmetic, .Combinator] kw [] = .ok a) :
    (∃ o, cbEmitChain env ctx [.Arithmetic, .Combinator] (Dict.get? a) [] = .ok o) ↔
      ∀ d, List.lookup "arithmetic_conditions" kw = some (.dict d) →
        ∀ p ∈ [("first_constant", "first_signal"), ("second_constant", "second_signal"), ("output_constant", "output_signal")],
          ∀ u, OperandAt d p.1 p.2 u → SignalOut env u := by
  have hfield : ctx.field = "arithmetic_conditions" := by unfold CbCtx.field; rw [ht]; decide
  have hrk : ∀ k, readKey ctx k = k ++ "_constant" := by
    intro k
    unfold readKey
    rw [ht]
    rfl
  have hn : (tripKeys ctx).Nodup := by
    unfold tripKeys readKey
    rw [hop, ht]
    decide
  have h' : (match combinatorInit env ctx kw with
      | .error e => .error e
      | .ok (w, kw) => if kw.isEmpty then .ok (setAll [] w) else .error lo : Except Exc Attrs) = .ok a := by
    rw [cbInitChain, cbInit_arithmetic] at h
    exact h
  split at h'
  · cases h'
  rename_i w kw' hi
  split at h'
  case isFalse => cases h'
  unfold combinatorInit at hi
  simp only [bind_eq_ok] at hi
  obtain ⟨cond, hc, hi⟩ := hi
  split at hi
  · cases hi
  rename_i a' rest hb
  cases hi
  obtain ⟨op, f, s, o, uf, us, uo, rfl, hne, ⟨f1, f2⟩, ⟨s1, s2⟩, o1, o2⟩ := combinatorBody_operands hn hb
  cases h'
  have hl : List.lookup "arithmetic_conditions" kw = some (.dict cond) := by
    unfold Dict.getD Dict.get? at hc
    rw [hfield] at hc
    cases hx : List.lookup "arithmetic_conditions" kw with
    | none => rw [hx] at hc; cases hc; exact absurd rfl hne
    | some v =>
      rw [hx] at hc
      cases v <;> cases hc
      rfl
  have e : (∃ o', cbEmitChain env ctx [.Arithmetic, .Combinator] (Dict.get? (setAll [] [("operator", op), ("first", f),
      ("second", s), ("output", o)])) [] = .ok o') ↔ ∃ o', combinatorEmit env ctx (Dict.get? [("operator", op), ("first", f),
      ("second", s), ("output", o)]) [] = .ok o' := by
    have : cbEmitChain env ctx [.Arithmetic, .Combinator] (Dict.get? (setAll [] [("operator", op), ("first", f),
      ("second", s), ("output", o)])) [] = (match combinatorEmit env ctx (Dict.get? [("operator", op), ("first", f),
      ("second", s), ("output", o)]) [] with
      | .error e => .error e
      | .ok obj => .ok obj : Except Exc Dict) := rfl
    rw [this]
    cases combinatorEmit env ctx (Dict.get? [("operator", op), ("first", f), ("second", s), ("output", o)]) [] <;> rfl
  rw [e, combinatorEmit_iff hos hno f1 s1 o1 rfl rfl rfl (old := []) rfl]
  rw [hrk] at f2 s2 o2
  rw [← three_operands f2 s2 o2]
  exact ⟨fun h d hd => by cases hl.symm.trans hd; exact h, fun h => h cond hl⟩

theorem decider_emits {env : Env} {ctx : CbCtx} {os : List String} {lo : Exc} {kw : Dict} {a : Attrs}
    (ht : ctx.type = "decider") (hop : ctx.operator = "comparator") (hos : ctx.options = some os)
    (hno : ctx.noOperator = false) (h : cbInitChain env ctx lo [.Decider, .Combinator] kw [] = .ok a) :
    (∃ o, cbEmitChain env ctx [.Decider, .Combinator] (Dict.get? a) [] = .ok o) ↔
      ∀ d, List.lookup "decider_conditions" kw = some (.dict d) →
        ∀ p ∈ [("constant", "first_signal"), ("second_constant", "second_signal"), ("output_constant", "output_signal")],
          ∀ u, OperandAt d p.1 p.2 u → SignalOut env u := by
  have hfield : ctx.field = "decider_conditions" := by unfold CbCtx.field; rw [ht]; decide
  have hrk1 : readKey ctx "first" = "constant" := by unfold readKey; rw [ht]; rfl
  have hrk2 : readKey ctx "second" = "second_constant" := by unfold readKey; rw [ht]; rfl
  have hrk3 : readKey ctx "output" = "output_constant" := by unfold readKey; rw [ht]; rfl
  have hn : (tripKeys ctx).Nodup := by
    unfold tripKeys readKey
    rw [hop, ht]
    decide
  have h' : (match deciderInit ctx kw with
      | .error e => .error e
      | .ok (w, kw) => match combinatorInit env ctx kw with
        | .error e => .error e
        | .ok (w', kw) => if kw.isEmpty then .ok (setAll (setAll [] w) w') else .error lo : Except Exc Attrs) = .ok a := h
  split at h'
  · cases h'
  rename_i w kw' hd
  split at h'
  · cases h'
  rename_i w' kw'' hi
  split at h'
  case isFalse => cases h'
  unfold deciderInit at hd
  simp only [bind_eq_ok, pure_eq_ok, Except.ok.injEq, Prod.mk.injEq, lookup_getItem] at hd
  obtain ⟨v, hl, cond, hc, rfl, rfl⟩ := hd
  have hv : v = .dict cond := by cases v <;> cases hc; rfl
  subst hv
  rw [hfield] at hl
  have hcond : ∀ k, k ≠ "copy_count_from_input" →
      Dict.get? (Dict.erase cond "copy_count_from_input") k = Dict.get? cond k := fun k hk => get_erase_ne hk
  unfold combinatorInit at hi
  simp only [bind_eq_ok] at hi
  obtain ⟨cond', hc', hi⟩ := hi
  split at hi
  · cases hi
  rename_i a' rest hb
  cases hi
  obtain ⟨op, f, s, o, uf, us, uo, rfl, hne, ⟨f1, f2⟩, ⟨s1, s2⟩, o1, o2⟩ := combinatorBody_operands hn hb
  cases h'
  have hcc : cond' = Dict.erase cond "copy_count_from_input" := by
    by_cases hem : (Dict.erase cond "copy_count_from_input").isEmpty = true
    · rw [if_pos hem] at hc'
      unfold Dict.getD at hc'
      rw [get_erase_self] at hc'
      cases hc'
      exact absurd rfl hne
    · rw [if_neg hem] at hc'
      unfold Dict.getD at hc'
      rw [get_set_self] at hc'
      cases hc'
      rfl
  subst hcc
  generalize Dict.getD cond "copy_count_from_input" (.bool false) = c
  have e : (∃ o', cbEmitChain env ctx [.Decider, .Combinator] (Dict.get? (setAll (setAll [] [("copy_count_from_input", c)])
      [("operator", op), ("first", f), ("second", s), ("output", o)])) [] = .ok o') ↔
      ∃ o', combinatorEmit env ctx (Dict.get? [("copy_count_from_input", c), ("operator", op), ("first", f),
      ("second", s), ("output", o)]) [(ctx.field, .dict [("copy_count_from_input", c)])] = .ok o' := by
    have : cbEmitChain env ctx [.Decider, .Combinator] (Dict.get? (setAll (setAll [] [("copy_count_from_input", c)])
      [("operator", op), ("first", f), ("second", s), ("output", o)])) [] = (match combinatorEmit env ctx
        (Dict.get? [("copy_count_from_input", c), ("operator", op), ("first", f),
      ("second", s), ("output", o)]) [(ctx.field, .dict [("copy_count_from_input", c)])] with
      | .error e => .error e
      | .ok obj => .ok obj : Except Exc Dict) := rfl
    rw [this]
    cases combinatorEmit env ctx (Dict.get? [("copy_count_from_input", c), ("operator", op), ("first", f),
      ("second", s), ("output", o)]) [(ctx.field, .dict [("copy_count_from_input", c)])] <;> rfl
  have hold : Dict.getD [(ctx.field, .dict [("copy_count_from_input", c)])] ctx.field (.dict []) =
      .dict [("copy_count_from_input", c)] := by
    unfold Dict.getD
    rw [get_single, if_pos rfl]
    rfl
  rw [e, combinatorEmit_iff hos hno f1 s1 o1 rfl rfl rfl hold]
  rw [hrk1] at f2
  rw [hrk2] at s2
  rw [hrk3] at o2
  rw [← three_operands (operand_congr (hcond _ (by decide)) (hcond _ (by decide)) f2)
    (operand_congr (hcond _ (by decide)) (hcond _ (by decide)) s2)
    (operand_congr (hcond _ (by decide)) (hcond _ (by decide)) o2)]
  exact ⟨fun h d hd => by cases hl.symm.trans hd; exact h, fun h => h cond hl⟩

/-! ## The data of an entity -/

theorem signalSettings_keys : ∀ p ∈ signalSettings, p.2 ∈ cbKeys p.1 := by decide

theorem plain_emits {env : Env} {k : Klass} {ctx : CbCtx} {lo : Exc} {x : Dict} {a : Attrs} (hp : CbPlain k.cbChain)
    (h : cbInitChain env ctx lo k.cbChain x [] = .ok a) :
    (∃ o, cbEmitChain env ctx k.cbChain (Dict.get? a) [] = .ok o) ↔ ExportableControl env k x := by
  have key : ∀ m ∈ k.cbChain, ((∃ out, cbEmit env m (Dict.get? a) = .ok out) ↔ CbOut env m (Dict.get? x)) := by
    intro m hm
    obtain ⟨g, w, j1, j2, j3⟩ := cbInitChain_read hp h (fun _ _ _ _ => rfl) hm
    have hor : ∀ k, (m, k) ∈ signalSettings → g.orNone k = Kw.orNone (Dict.get? x) k := by
      intro k hk
      unfold Kw.orNone
      rw [j3 k (signalSettings_keys _ hk)]
    rw [cb_emits j1 j2]
    unfold CbOut
    constructor
    · rintro ⟨h1, h2, h3, h4⟩
      refine ⟨fun k hk n1 n2 => hor k hk ▸ h1 k hk n1 n2, fun k hk e => hor k hk ▸ h2 k hk e, ?_, ?_⟩
      · rintro rfl
        rw [← j3 "filters" (by decide)]
        exact h3 rfl
      · rintro rfl
        rw [← j3 "circuit_condition" (by decide)]
        exact h4 rfl
    · rintro ⟨h1, h2, h3, h4⟩
      refine ⟨fun k hk n1 n2 => (hor k hk).symm ▸ h1 k hk n1 n2, fun k hk e => (hor k hk).symm ▸ h2 k hk e, ?_, ?_⟩
      · rintro rfl
        rw [j3 "filters" (by decide)]
        exact h3 rfl
      · rintro rfl
        rw [j3 "circuit_condition" (by decide)]
        exact h4 rfl
  constructor
  · rintro ⟨o, ho⟩
    have hall : ∀ m ∈ k.cbChain, CbOut env m (Dict.get? x) := fun m hm =>
      (key m hm).1 ((cbEmitChain_get hp ho (fun _ _ _ _ => rfl) m hm).imp fun _ h => h.1)
    exact ⟨fun m k hm hk n1 n2 => (hall m hm).1 k hk n1 n2, fun m k hm hk e => (hall m hm).2.1 k hk e,
      fun hm => (hall _ hm).2.2.1 rfl, fun hm => (hall _ hm).2.2.2 rfl,
      fun e => absurd (e ▸ hp) (by decide), fun e => absurd (e ▸ hp) (by decide)⟩
  · intro h
    refine cbEmitChain_total hp fun m hm => (key m hm).2
      ⟨fun k hk n1 n2 => h.signal m k hm hk n1 n2, fun k hk e => h.optional m k hm hk e, ?_, ?_⟩
    · rintro rfl
      exact h.filters hm
    · rintro rfl
      exact h.condition hm

theorem exportable_arithmetic {env : Env} {k : Klass} {x : Dict} (hc : k.cbChain = [.Arithmetic, .Combinator]) :
    ExportableControl env k x ↔ ∀ d, List.lookup "arithmetic_conditions" x = some (.dict d) →
        ∀ p ∈ [("first_constant", "first_signal"), ("second_constant", "second_signal"), ("output_constant", "output_signal")],
          ∀ u, OperandAt d p.1 p.2 u → SignalOut env u := by
  refine ⟨fun h => h.arithmetic hc, fun h => ⟨?_, ?_, ?_, ?_, fun _ => h, ?_⟩⟩
  · intro m k hm hk
    rw [hc] at hm
    simp only [List.mem_cons, List.not_mem_nil, or_false] at hm
    rcases hm with rfl | rfl <;> exact absurd (signalSettings_keys _ hk) (by simp [cbKeys])
  · intro m k hm hk
    rw [hc] at hm
    simp only [List.mem_cons, List.not_mem_nil, or_false] at hm
    rcases hm with rfl | rfl <;> exact absurd (signalSettings_keys _ hk) (by simp [cbKeys])
  · intro hm; rw [hc] at hm; exact absurd hm (by decide)
  · intro hm; rw [hc] at hm; exact absurd hm (by decide)
  · intro e; rw [hc] at e; exact absurd e (by decide)

theorem exportable_decider {env : Env} {k : Klass} {x : Dict} (hc : k.cbChain = [.Decider, .Combinator]) :
    ExportableControl env k x ↔ ∀ d, List.lookup "decider_conditions" x = some (.dict d) →
        ∀ p ∈ [("constant", "first_signal"), ("second_constant", "second_signal"), ("output_constant", "output_signal")],
          ∀ u, OperandAt d p.1 p.2 u → SignalOut env u := by
  refine ⟨fun h => h.decider hc, fun h => ⟨?_, ?_, ?_, ?_, ?_, fun _ => h⟩⟩
  · intro m k hm hk
    rw [hc] at hm
    simp only [List.mem_cons, List.not_mem_nil, or_false] at hm
    rcases hm with rfl | rfl <;> exact absurd (signalSettings_keys _ hk) (by simp [cbKeys])
  · intro m k hm hk
    rw [hc] at hm
    simp only [List.mem_cons, List.not_mem_nil, or_false] at hm
    rcases hm with rfl | rfl <;> exact absurd (signalSettings_keys _ hk) (by simp [cbKeys])
  · intro hm; rw [hc] at hm; exact absurd hm (by decide)
  · intro hm; rw [hc] at hm; exact absurd hm (by decide)
  · intro e; rw [hc] at e; exact absurd e (by decide)

theorem ctx_hasOperator {k : Klass} (h : k.ctx.type ≠ "") : k.ctx.noOperator = false := by
  unfold Klass.ctx at h ⊢
  dsimp only at h ⊢
  cases ht : k.first (fun m => m = .Arithmetic || m = .Decider || m = .Combinator) with
  | none => rw [ht] at h; exact absurd rfl h
  | some m => rfl

theorem control_emits {env : Env} {k k₀ : Klass} {lo : Exc} {x : Dict} {a : Attrs} (hg : GoodKlass k₀)
    (hcc : k.cbChain = k₀.cbChain) (hcx : k.ctx = k₀.ctx) (h : cbInitChain env k.ctx lo k.cbChain x [] = .ok a) :
    (∃ o, cbEmitChain env k.ctx k.cbChain (Dict.get? a) [] = .ok o) ↔ ExportableControl env k x := by
  rcases hg.2.2 with hp | ⟨hc, h1, h2, h3⟩ | ⟨hc, h1, h2, h3⟩
  · exact plain_emits (hcc ▸ hp) h
  · have hno : k₀.ctx.noOperator = false := ctx_hasOperator (by rw [h1]; decide)
    rw [exportable_arithmetic (hcc.trans hc)]
    rw [hcc.trans hc, hcx] at h ⊢
    exact arithmetic_emits h1 h2 h3 hno h
  · have hno : k₀.ctx.noOperator = false := ctx_hasOperator (by rw [h1]; decide)
    rw [exportable_decider (hcc.trans hc)]
    rw [hcc.trans hc, hcx] at h ⊢
    exact decider_emits h1 h2 h3 hno h

/-- An entity made from `kw` can be exported exactly if `kw` can. -/
theorem new_emits {env : Env} {custom : Option Custom} {layer : Option BpId} {kw : Dict} {e e' : Entity} {obj : Dict}
    (he : Entity.new env custom layer kw = .ok e) (hg : OwnControls env e) (hk : e'.klass = e.klass)
    (hat : e'.attrs = e.attrs) (hcb : e'.cb = e.cb) :
    (∃ d, e'.emitRest env obj = .ok d) ↔ Exportable env e.klass kw := by
  obtain ⟨k₀, hg, hcc, hcx⟩ := OwnControls.good hg he
  have hn := Entity.new_nodup he
  have hch := Entity.new_chain he
  obtain ⟨-, -, name, position, number, e₁, -, -, -, hs, hf⟩ := Entity.new_ok.1 he
  obtain ⟨pos, dir, cb, a, -, -, f3, -, hfin⟩ := Entity.finish_ok.1 hf
  have hcb' : e.cb = cb := by rw [hfin]
  have hkl : e.klass = e₁.klass := by rw [hfin]
  have h1 : (∃ o, emitChain env e'.dir e'.klass.chain (Dict.get? e'.attrs) obj = .ok o) ↔ ExportableAlert env e.klass kw := by
    rw [hk, hat]
    have hsp : .Speaker ∈ e.klass.chain → ((∃ out, mxEmit env .Speaker (Dict.get? e.attrs) e'.dir = .ok out) ↔
        ExportableAlert env e.klass kw) := by
      intro hm
      obtain ⟨g, w, j1, j2, j3⟩ := initChain_read hch hn (fun _ _ _ _ => rfl) hm
      have hgk : g "alert_parameters" = List.lookup "alert_parameters" kw := by
        have hfree : "alert_parameters" ∉ ["name", "position", "entity_number", "direction", "control_behavior"] := by decide
        rcases j3 "alert_parameters" (by decide) with h | ⟨h, hI⟩
        · rw [h, get_eraseKeys (by decide)]; rfl
        · cases hv : List.lookup "alert_parameters" kw with
          | none => exact h
          | some v => exact absurd hch (initChain_behind hI (k := "alert_parameters") (by decide) hn (by rw [get_eraseKeys (by decide)]; exact hv))
      rw [speaker_emits j1 j2, hgk]
      unfold ExportableAlert
      exact ⟨fun h _ => h, fun h => h hm⟩
    constructor
    · rintro ⟨o, ho⟩ hm
      exact (hsp hm).1 (emitChain_mem ho _ hm) hm
    · intro h
      refine emitChain_all (fun m hm => ?_) obj
      by_cases hms : m = .Speaker
      · subst hms
        exact (hsp hm).2 h
      · obtain ⟨g, w, j1, j2, j3⟩ := initChain_read hch hn (fun _ _ _ _ => rfl) hm
        exact mx_emits hms j1 j2
  have h2 : (e'.cb = none ∨ ∃ c o, e'.cb = some c ∧
      cbEmitChain env (c.seenBy e'.klass).ctx c.chain (Dict.get? c.attrs) [] = .ok o) ↔
      ∀ x, List.lookup "control_behavior" kw = some (.dict x) → ExportableControl env e.klass x := by
    rw [hcb, hcb', hk]
    unfold Entity.cbOf Dict.get? at f3
    cases hx : List.lookup "control_behavior" kw with
    | none =>
      rw [hx] at f3
      cases f3
      exact ⟨(fun _ x h => by cases h), fun _ => .inl rfl⟩
    | some v =>
      rw [hx] at f3
      simp only [bind_eq_ok, pure_eq_ok, Except.ok.injEq] at f3
      obtain ⟨cc, hnew, rfl⟩ := f3
      have hv : ∃ x, v = .dict x := by
        unfold Cb.new at hnew
        simp only [bind_eq_ok] at hnew
        obtain ⟨x, hx, -⟩ := hnew
        exact ⟨x, kwargs_ok.1 hx⟩
      obtain ⟨x, rfl⟩ := hv
      obtain ⟨c1, c2, c3⟩ := Cb.new_parts hnew
      have hctx : (cc.seenBy e.klass).ctx = e.klass.ctx := by
        unfold Cb.seenBy
        rw [c2, hkl]
      rw [← hkl] at c1 c3
      have := control_emits hg hcc hcx c3
      constructor
      · rintro (h | ⟨c, o, h, ho⟩) y hy
        · cases h
        · cases h
          cases hy
          rw [hctx, c1] at ho
          exact this.1 ⟨o, ho⟩
      · intro h
        obtain ⟨o, ho⟩ := this.2 (h x rfl)
        exact .inr ⟨cc, o, rfl, by rw [hctx, c1]; exact ho⟩
  constructor
  · rintro ⟨d, hd⟩
    obtain ⟨obj1, g1, g2⟩ := emitRest_ok.1 hd
    refine ⟨h1.1 ⟨_, g1⟩, h2.1 ?_⟩
    rcases g2 with ⟨g, -⟩ | ⟨c, o, g, h, -⟩
    · exact .inl g
    · exact .inr ⟨c, o, g, h⟩
  · rintro ⟨g1, g2⟩
    obtain ⟨obj1, g1⟩ := h1.2 g1
    rcases h2.2 g2 with g | ⟨c, o, g, h⟩
    · exact ⟨_, emitRest_ok.2 ⟨obj1, g1, .inl ⟨g, rfl⟩⟩⟩
    · exact ⟨_, emitRest_ok.2 ⟨obj1, g1, .inr ⟨c, o, g, h, rfl⟩⟩⟩

/-! ## Icons -/

theorem setPy_slot {α} {l l' : List α} {i : Val} {z : Int} {x : α} (hl : l.length = 4) (hz : iconIndex i = .ok z)
    (h : setPy l z x = .ok l') : ∃ p, p < 4 ∧ (∀ q, SlotOf i q ↔ q = p) ∧ l' = l.set p x := by
  have hb := setPy_ok.1 ⟨_, h⟩
  rw [hl] at hb
  unfold setPy at h
  unfold iconIndex at hz
  have hp : ∃ p : Nat, p < 4 ∧ (z = p ∨ z = (p : Int) - 4) ∧ l' = l.set p x := by
    split at h
    · cases h
      exact ⟨z.toNat, by omega, by omega, rfl⟩
    · split at h
      · cases h
        exact ⟨(z + l.length).toNat, by omega, by omega, rfl⟩
      · cases h
  obtain ⟨p, h1, h2, h3⟩ := hp
  refine ⟨p, h1, fun q => ?_, h3⟩
  unfold SlotOf
  split at hz
  · rename_i y
    cases hz
    constructor
    · rintro (⟨z', he, h4, h5⟩ | ⟨he, -⟩ | ⟨he, -⟩)
      · cases he
        omega
      · cases he
      · cases he
    · rintro rfl
      exact .inl ⟨y, rfl, by omega, h1⟩
  · rename_i t
    cases t
    · cases hz
      constructor
      · rintro (⟨z', he, -⟩ | ⟨he, -⟩ | ⟨-, rfl⟩)
        · cases he
        · cases he
        · rcases h2 with h2 | h2 <;> simp at h2 <;> omega
      · rintro rfl
        exact .inr (.inr ⟨rfl, by rcases h2 with h2 | h2 <;> simp at h2 <;> omega⟩)
    · cases hz
      constructor
      · rintro (⟨z', he, -⟩ | ⟨-, rfl⟩ | ⟨he, -⟩)
        · cases he
        · rcases h2 with h2 | h2 <;> simp at h2 <;> omega
        · cases he
      · rintro rfl
        exact .inr (.inl ⟨rfl, by rcases h2 with h2 | h2 <;> simp at h2 <;> omega⟩)
  · cases hz

theorem lastFill_cons {v : Val} {l : List Val} {p : Nat} {s : Val} :
    LastFill (v :: l) p s ↔ LastFill l p s ∨ (Fills v p s ∧ ∀ u ∈ l, ∀ t, ¬ Fills u p t) := by
  unfold LastFill
  constructor
  · rintro ⟨bs, u, as, h, hi, ha⟩
    cases bs with
    | nil => cases h; exact .inr ⟨hi, ha⟩
    | cons x bs => cases h; exact .inl ⟨bs, u, as, rfl, hi, ha⟩
  · rintro (⟨bs, u, as, rfl, hi, ha⟩ | ⟨hi, ha⟩)
    · exact ⟨v :: bs, u, as, rfl, hi, ha⟩
    · exact ⟨[], v, l, rfl, hi, ha⟩

/-- The slots after a list of icons. -/
theorem iconsAll_fill {env : Env} {l : List Val} {acc ic : List (Option Val)} (hacc : acc.length = 4)
    (h : iconsAll env l acc = .ok ic) (p : Nat) (x : Val) : ic[p]? = some (some x) ↔
      (∃ s, LastFill l p s ∧ signalSet env s = .ok x) ∨ ((∀ v ∈ l, ∀ t, ¬ Fills v p t) ∧ acc[p]? = some (some x)) := by
  induction l generalizing acc with
  | nil =>
    cases h
    constructor
    · intro hx; exact .inr ⟨by simp, hx⟩
    · rintro (⟨s, ⟨bs, v, as, hb, -⟩, -⟩ | ⟨-, hx⟩)
      · exact absurd hb (by simp)
      · exact hx
  | cons v l ih =>
    simp only [iconsAll, bind_eq_ok, subscript_ok] at h
    obtain ⟨s, ⟨d, rfl, hs⟩, s', hs', i, ⟨_, hd, hi⟩, z, hz, acc', ha', h⟩ := h
    cases hd
    obtain ⟨q, hq, hslot, rfl⟩ := setPy_slot hacc hz ha'
    have hf : ∀ p t, Fills (.dict d) p t ↔ p = q ∧ t = s := by
      intro p t
      constructor
      · rintro ⟨_, i', he, h1, h2, h3⟩
        cases he
        rw [hs] at h1
        rw [hi] at h2
        cases h1; cases h2
        exact ⟨(hslot p).1 h3, rfl⟩
      · rintro ⟨rfl, rfl⟩
        exact ⟨d, i, rfl, hs, hi, (hslot p).2 rfl⟩
    rw [ih (by simpa using hacc) h]
    by_cases e : p = q
    · subst e
      rw [List.getElem?_set_self (by omega)]
      constructor
      · rintro (⟨t, ht, hx⟩ | ⟨hno, hx⟩)
        · exact .inl ⟨t, lastFill_cons.2 (.inl ht), hx⟩
        · cases hx
          exact .inl ⟨s, lastFill_cons.2 (.inr ⟨(hf p s).2 ⟨rfl, rfl⟩, hno⟩), hs'⟩
      · rintro (⟨t, ht, hx⟩ | ⟨hno, -⟩)
        · rcases lastFill_cons.1 ht with ht | ⟨ht, hno⟩
          · exact .inl ⟨t, ht, hx⟩
          · obtain ⟨-, rfl⟩ := (hf p t).1 ht
            cases hs'.symm.trans hx
            exact .inr ⟨hno, rfl⟩
        · exact absurd ((hf p s).2 ⟨rfl, rfl⟩) (hno _ (List.mem_cons_self ..) s)
    · rw [List.getElem?_set_ne (Ne.symm e)]
      constructor
      · rintro (⟨t, ht, hx⟩ | ⟨hno, hx⟩)
        · exact .inl ⟨t, lastFill_cons.2 (.inl ht), hx⟩
        · refine .inr ⟨?_, hx⟩
          intro u hu t ht
          rcases List.mem_cons.1 hu with rfl | hu
          · exact e ((hf p t).1 ht).1
          · exact hno u hu t ht
      · rintro (⟨t, ht, hx⟩ | ⟨hno, hx⟩)
        · rcases lastFill_cons.1 ht with ht | ⟨ht, -⟩
          · exact .inl ⟨t, ht, hx⟩
          · exact absurd ((hf p t).1 ht).1 e
        · exact .inr ⟨fun u hu => hno u (List.mem_cons_of_mem _ hu), hx⟩

/-- Every signal that is put into a slot was accepted. -/
theorem iconsAll_signals {env : Env} {l : List Val} {acc ic : List (Option Val)} (h : iconsAll env l acc = .ok ic) {p : Nat}
    {s : Val} (hs : LastFill l p s) : ∃ x, signalSet env s = .ok x := by
  obtain ⟨bs, v, as, rfl, ⟨d, i, rfl, h1, -⟩, -⟩ := hs
  obtain ⟨acc', -, h⟩ := iconsAll_append.1 h
  simp only [iconsAll, bind_eq_ok, subscript_ok] at h
  obtain ⟨s', ⟨d', hd, hs'⟩, x, hx, -⟩ := h
  cases hd
  cases hs'.symm.trans h1
  exact ⟨x, hx⟩

/-- Icons can be exported exactly if the last one for each slot can. -/
theorem icons_out {env : Env} {l : List Val} {ic : List (Option Val)} (h : iconsAll env l [none, none, none, none] = .ok ic) :
    (∃ out, iconsJson env 0 ic = .ok out) ↔ ∀ p s, LastFill l p s → NamedOut env s := by
  have key := iconsAll_fill rfl h
  constructor
  · rintro ⟨out, ho⟩ p s hs
    obtain ⟨x, hx⟩ := iconsAll_signals h hs
    exact (signalToJson_iff hx).1 (iconsJson_each ho p x ((key p x).2 (.inl ⟨s, hs, hx⟩)))
  · intro hall
    refine iconsJson_total (fun p x hp => ?_) 0
    rcases (key p x).1 hp with ⟨s, hs, hx⟩ | ⟨-, hx⟩
    · exact (signalToJson_iff hx).2 (hall p s hs)
    · rcases p with _ | _ | _ | _ | p <;> simp at hx

end Verif
