import Verif.Spec.Shown
import Verif.Proofs.Custom
import Verif.Proofs.CustomRun
import Verif.Proofs.Decimal
/-!
# Helper lemmas: what was given is what is exported
-/
set_option autoImplicit false

namespace Verif
open Spec

/-! ## Equal values -/

def OptEq (o o' : Option Val) : Prop := (o = none ∧ o' = none) ∨ ∃ v v', o = some v ∧ o' = some v' ∧ PyEq v v'

theorem OptEq.some {v v' : Val} (h : PyEq v v') : OptEq (some v) (some v') := .inr ⟨v, v', rfl, rfl, h⟩

theorem OptEq.refl (o : Option Val) : OptEq o o := by
  cases o with
  | none => exact .inl ⟨rfl, rfl⟩
  | some v => exact .some (.refl v)

theorem pyEq_dict {d d' : Dict} (h : ∀ k, OptEq (List.lookup k d) (List.lookup k d')) : PyEq (.dict d) (.dict d') := by
  refine .dict d d' (fun k => ?_) (fun k v v' h1 h2 => ?_)
  · rcases h k with ⟨h1, h2⟩ | ⟨v, v', h1, h2, -⟩ <;> rw [h1, h2] <;> rfl
  · rcases h k with ⟨h3, -⟩ | ⟨v, v', h3, h4, h5⟩
    · rw [h1] at h3; cases h3
    · rw [h1] at h3; rw [h2] at h4; cases h3; cases h4; exact h5

/-- Two dicts whose keys are among `ks` are equal if the values at these keys are. -/
theorem pyEq_keys {d d' : Dict} (ks : List String) (h1 : ∀ k, List.lookup k d ≠ none → k ∈ ks)
    (h2 : ∀ k, List.lookup k d' ≠ none → k ∈ ks) (h : ∀ k ∈ ks, OptEq (List.lookup k d) (List.lookup k d')) :
    PyEq (.dict d) (.dict d') := by
  refine pyEq_dict (fun k => ?_)
  by_cases hk : k ∈ ks
  · exact h k hk
  · exact .inl ⟨by_contra (fun hc => hk (h1 k hc)), by_contra (fun hc => hk (h2 k hc))⟩

theorem mem_keys_of_lookup {d : Dict} {k : String} (h : List.lookup k d ≠ none) : k ∈ d.map (·.1) := by
  cases hq : List.lookup k d with
  | none => exact absurd hq h
  | some v => exact List.mem_map.2 ⟨(k, v), mem_of_lookup hq, rfl⟩

theorem lookup_one (k k' : String) (v : Val) (d : Dict) :
    List.lookup k' ((k, v) :: d) = if k' = k then some v else List.lookup k' d := lookup_cons_if ..

/-! ## Lists kept by index -/

theorem foldIdx_new {step : Val → Except Exc (Val × Dict)} {fs : List Val} {acc l : List (Val × Dict)}
    (hP : ∀ f ∈ fs, ∀ p, step f = .ok p → indexOf f = some p.1 ∧ IsInt p.1 ∧ PyEq f (.dict (("index", p.1) :: p.2)))
    (hd : fs.Pairwise (fun x y => indexOf x ≠ indexOf y))
    (ha : ∀ q ∈ acc, IsInt q.1 ∧ ∀ f ∈ fs, indexOf f ≠ some q.1)
    (h : fs.foldlM (fun acc f => do let p ← step f; return setIdx acc p.1 p.2) acc = .ok l) :
    ∃ l', l = acc ++ l' ∧ List.Forall₂ PyEq fs (l'.map (fun p => Val.dict (("index", p.1) :: p.2))) := by
  induction fs generalizing acc with
  | nil => cases h; exact ⟨[], by simp, .nil⟩
  | cons f fs ih =>
    rw [List.foldlM_cons, bind_eq_ok] at h
    obtain ⟨acc', h', h⟩ := h
    simp only [bind_eq_ok, pure_eq_ok, Except.ok.injEq] at h'
    obtain ⟨p, hp, rfl⟩ := h'
    obtain ⟨p1, ⟨z, pz⟩, p3⟩ := hP f (List.mem_cons_self ..) p hp
    rw [List.pairwise_cons] at hd
    have hset : setIdx acc p.1 p.2 = acc ++ [p] := by
      refine setIdx_append (fun q hq => ?_)
      obtain ⟨⟨y, hy⟩, h2⟩ := ha q hq
      have := h2 f (List.mem_cons_self ..)
      rw [p1, hy, pz] at this
      rw [hy, pz]
      show (Num.int y).eq (.int z) = false
      have hne : y ≠ z := fun e => this (by rw [e])
      simp [Num.eq, Num.val, hne]
    rw [hset] at h
    obtain ⟨l', rfl, h2⟩ := ih (fun f hf => hP f (List.mem_cons_of_mem _ hf)) hd.2 (fun q hq => by
      rcases List.mem_append.1 hq with hq | hq
      · exact ⟨(ha q hq).1, fun f hf => (ha q hq).2 f (List.mem_cons_of_mem _ hf)⟩
      · rw [List.mem_singleton] at hq
        subst hq
        exact ⟨⟨z, pz⟩, fun g hg e => hd.1 g hg (by rw [p1, e])⟩) h
    exact ⟨p :: l', by rw [List.append_assoc]; rfl, .cons p3 h2⟩

theorem idxJson_slots {step : Val → Except Exc (Val × Dict)} {P : Val → Prop} {v : Val} {fs : List Val}
    {l : List (Val × Dict)} (hv : Slots P v) (hi : v = .list fs)
    (hP : ∀ f, P f → ∀ p, step f = .ok p → indexOf f = some p.1 ∧ IsInt p.1 ∧ PyEq f (.dict (("index", p.1) :: p.2)))
    (h : fs.foldlM (fun acc f => do let p ← step f; return setIdx acc p.1 p.2) [] = .ok l) :
    PyEq v (idxJson l) ∧ ((idxJson l).truthy = false → v = .list []) := by
  obtain ⟨l0, h0, h1, h2⟩ := hv
  rw [hi] at h0
  injection h0 with h0
  subst h0
  obtain ⟨l', rfl, h3⟩ := foldIdx_new (fun f hf => hP f (h1 f hf)) h2 (fun q hq => by cases hq) h
  subst hi
  refine ⟨.list _ _ h3, fun ht => ?_⟩
  cases h3' : fs with
  | nil => rfl
  | cons f fs =>
    rw [h3'] at h3
    unfold idxJson at ht
    cases hl : l.map (fun p => Val.dict (("index", p.1) :: p.2)) with
    | nil => rw [hl] at h3; cases h3
    | cons x xs => rw [hl] at ht; cases ht

theorem record_get {req opt : List (String × (Val → Prop))} {d : Dict} (h : Record req opt (.dict d)) {k : String}
    {P : Val → Prop} (hk : (k, P) ∈ req) : ∃ x, List.lookup k d = some x ∧ P x := by
  obtain ⟨d', h0, -, h1, -⟩ := h
  injection h0 with h0
  subst h0
  exact h1 _ hk

theorem record_keys {req opt : List (String × (Val → Prop))} {d : Dict} (h : Record req opt (.dict d)) :
    ∀ k, List.lookup k d ≠ none → k ∈ req.map (·.1) ++ opt.map (·.1) := by
  obtain ⟨d', h0, h1, -⟩ := h
  injection h0 with h0
  subst h0
  exact h1

theorem record_opt {req opt : List (String × (Val → Prop))} {d : Dict} (h : Record req opt (.dict d)) {k : String}
    {P : Val → Prop} (hk : (k, P) ∈ opt) {x : Val} (hx : List.lookup k d = some x) : P x := by
  obtain ⟨d', h0, -, -, h1⟩ := h
  injection h0 with h0
  subst h0
  exact h1 _ hk x hx

theorem subscript_dict {d : Dict} {k : String} {v : Val} (h : List.lookup k d = some v) :
    (Val.dict d).subscript k = .ok v := by
  show Dict.getItem d k = .ok v
  rw [lookup_getItem]
  exact h

theorem nameStr_text {env : Env} {s : String} {n : Val} (h : nameStr env (.str s) = .ok n) : n = .str s := by
  unfold nameStr at h
  dsimp only at h
  split at h
  · cases h; rfl
  · cases h

theorem cargoStep_new {env : Env} {f : Val} (hf : Record [("index", IsInt), ("name", IsText)] [] f) (p : Val × Dict)
    (h : cargoStep env f = .ok p) :
    indexOf f = some p.1 ∧ IsInt p.1 ∧ PyEq f (.dict (("index", p.1) :: p.2)) := by
  obtain ⟨d, rfl, -⟩ := id hf
  obtain ⟨i, hi, pi⟩ := record_get hf (k := "index") (P := IsInt) (by simp)
  obtain ⟨n, hn, s, rfl⟩ := record_get hf (k := "name") (P := IsText) (by simp)
  unfold cargoStep at h
  rw [subscript_dict hi, subscript_dict hn] at h
  simp only [bind_eq_ok, ok_bind] at h
  obtain ⟨x, hx, h⟩ := h
  cases nameStr_text hx
  obtain ⟨z, rfl⟩ := pi
  cases h
  refine ⟨hi, ⟨z, rfl⟩, pyEq_keys ["index", "name"] (record_keys hf) (fun k => mem_keys_of_lookup) ?_⟩
  intro k hk
  simp only [List.mem_cons, List.not_mem_nil, or_false] at hk
  rcases hk with rfl | rfl
  · rw [hi]; exact .refl _
  · rw [hn]; exact .refl _

theorem requestStep_new {env : Env} {f : Val} (hf : Record [("index", IsInt), ("name", IsText), ("count", IsInt)] [] f)
    (p : Val × Dict) (h : requestStep env f = .ok p) :
    indexOf f = some p.1 ∧ IsInt p.1 ∧ PyEq f (.dict (("index", p.1) :: p.2)) := by
  obtain ⟨d, rfl, -⟩ := id hf
  obtain ⟨i, hi, pi⟩ := record_get hf (k := "index") (P := IsInt) (by simp)
  obtain ⟨n, hn, s, rfl⟩ := record_get hf (k := "name") (P := IsText) (by simp)
  obtain ⟨c, hc, y, rfl⟩ := record_get hf (k := "count") (P := IsInt) (by simp)
  unfold requestStep at h
  rw [subscript_dict hi, subscript_dict hn, subscript_dict hc] at h
  simp only [bind_eq_ok, ok_bind] at h
  obtain ⟨x, hx, c, hc', h⟩ := h
  cases nameStr_text hx
  cases hc'
  obtain ⟨z, rfl⟩ := pi
  cases h
  refine ⟨hi, ⟨z, rfl⟩, pyEq_keys ["index", "name", "count"] (record_keys hf) (fun k => mem_keys_of_lookup) ?_⟩
  intro k hk
  simp only [List.mem_cons, List.not_mem_nil, or_false] at hk
  rcases hk with rfl | rfl | rfl
  · rw [hi]; exact .refl _
  · rw [hn]; exact .refl _
  · rw [hc]; exact .refl _

theorem infinityStep_new {env : Env} {f : Val}
    (hf : Record [("index", IsInt), ("count", IsAny), ("mode", IsText), ("name", IsText)] [] f)
    (p : Val × Dict) (h : infinityStep env f = .ok p) :
    indexOf f = some p.1 ∧ IsInt p.1 ∧ PyEq f (.dict (("index", p.1) :: p.2)) := by
  obtain ⟨d, rfl, -⟩ := id hf
  obtain ⟨i, hi, pi⟩ := record_get hf (k := "index") (P := IsInt) (by simp)
  obtain ⟨n, hn, s, rfl⟩ := record_get hf (k := "name") (P := IsText) (by simp)
  obtain ⟨c, hc, -⟩ := record_get hf (k := "count") (P := IsAny) (by simp)
  obtain ⟨m, hm, t, rfl⟩ := record_get hf (k := "mode") (P := IsText) (by simp)
  unfold infinityStep at h
  rw [subscript_dict hi, subscript_dict hn, subscript_dict hc, subscript_dict hm] at h
  simp only [ok_bind] at h
  split at h
  · cases h
  simp only [bind_eq_ok] at h
  obtain ⟨x, hx, h⟩ := h
  cases nameStr_text hx
  obtain ⟨z, rfl⟩ := pi
  cases h
  refine ⟨hi, ⟨z, rfl⟩, pyEq_keys ["index", "count", "mode", "name"] (record_keys hf) (fun k => mem_keys_of_lookup) ?_⟩
  intro k hk
  simp only [List.mem_cons, List.not_mem_nil, or_false] at hk
  rcases hk with rfl | rfl | rfl | rfl
  · rw [hi]; exact .refl _
  · rw [hc]; exact .refl _
  · rw [hm]; exact .refl _
  · rw [hn]; exact .refl _

/-! ## Single values -/

theorem readInsFilter_new {env : Env} {f x : Val} (hf : Record [("index", IsAny), ("name", IsText)] [] f)
    (h : readInsFilter env f = .ok x) : PyEq f x := by
  obtain ⟨d, rfl, -⟩ := id hf
  obtain ⟨i, hi, -⟩ := record_get hf (k := "index") (P := IsAny) (by simp)
  obtain ⟨n, hn, s, rfl⟩ := record_get hf (k := "name") (P := IsText) (by simp)
  unfold readInsFilter at h
  simp only [Val.kwargs, ok_bind] at h
  split at h
  · cases h
  have e1 : Dict.getD d "name" .none = .str s := by unfold Dict.getD Dict.get?; rw [hn]; rfl
  have e2 : Dict.getD d "index" .none = i := by unfold Dict.getD Dict.get?; rw [hi]; rfl
  rw [e1, e2, bind_eq_ok] at h
  obtain ⟨y, hy, h⟩ := h
  split at h
  · cases h
  cases h
  have hy' : y = .str s := by
    unfold signalSet at hy
    dsimp only at hy
    split at hy
    · rw [bind_eq_ok] at hy
      obtain ⟨b, -, hy⟩ := hy
      split at hy
      · cases hy; rfl
      · cases hy
    · cases hy; rfl
  subst hy'
  refine pyEq_keys ["index", "name"] (record_keys hf) (fun k => mem_keys_of_lookup) ?_
  intro k hk
  simp only [List.mem_cons, List.not_mem_nil, or_false] at hk
  rcases hk with rfl | rfl
  · rw [hi]; exact .refl _
  · rw [hn]; exact .refl _

theorem mapM_forall₂ {α β : Type} {f : α → Except Exc β} {R : α → β → Prop} {l : List α} {l' : List β}
    (hR : ∀ x ∈ l, ∀ y, f x = .ok y → R x y) (h : l.mapM f = .ok l') : List.Forall₂ R l l' := by
  induction l generalizing l' with
  | nil => cases h; exact .nil
  | cons x l ih =>
    rw [List.mapM_cons] at h
    simp only [bind_eq_ok, pure_eq_ok, Except.ok.injEq] at h
    obtain ⟨y, hy, ys, hys, rfl⟩ := h
    exact .cons (hR x (List.mem_cons_self ..) y hy) (ih (fun x hx => hR x (List.mem_cons_of_mem _ hx)) hys)

theorem clamp_share {n : Num} (h0 : 0 ≤ n.val) (h1 : n.val ≤ 1) : (Color.clamp n).val = n.val := by
  unfold Color.clamp
  dsimp only
  have one : (Num.int 1).val = 1 := by simp [Num.val]
  have zero : (Num.int 0).val = 0 := by simp [Num.val]
  by_cases h : n.lt (.int 1) = true
  · rw [if_pos h, if_neg (by simp [Num.lt, zero, h0])]
  · rw [if_neg h, if_neg (by simp [Num.lt, one, zero])]
    rw [one]
    simp only [Num.lt, one, decide_eq_true_eq, not_lt] at h
    linarith

theorem readColor_new {v x : Val} (hv : Record [("r", IsShare), ("g", IsShare), ("b", IsShare), ("a", IsShare)] [] v)
    (h : readColor v = .ok x) : PyEq v x ∧ x ≠ .none := by
  obtain ⟨d, rfl, -⟩ := id hv
  obtain ⟨_, hr, r, rfl, r0, r1⟩ := record_get hv (k := "r") (P := IsShare) (by simp)
  obtain ⟨_, hg, g, rfl, g0, g1⟩ := record_get hv (k := "g") (P := IsShare) (by simp)
  obtain ⟨_, hb, b, rfl, b0, b1⟩ := record_get hv (k := "b") (P := IsShare) (by simp)
  obtain ⟨_, ha, a, rfl, a0, a1⟩ := record_get hv (k := "a") (P := IsShare) (by simp)
  unfold readColor at h
  simp only [bind_eq_ok, pure_eq_ok, Except.ok.injEq, Color.ofVal, Val.kwargs, ok_bind] at h
  obtain ⟨c, hc, rfl⟩ := h
  unfold Color.ofKwargs at hc
  split at hc
  · cases hc
  simp only [Dict.getD, Dict.get?, hr, hg, hb, ha, Option.getD_some, Color.component, Val.num?, ok_bind] at hc
  cases hc
  refine ⟨pyEq_keys ["r", "g", "b", "a"] (record_keys hv) (fun k => mem_keys_of_lookup) ?_, by simp [Color.toJson]⟩
  intro k hk
  simp only [List.mem_cons, List.not_mem_nil, or_false] at hk
  rcases hk with rfl | rfl | rfl | rfl
  · rw [hr]; exact .some (.num _ _ (clamp_share r0 r1).symm)
  · rw [hg]; exact .some (.num _ _ (clamp_share g0 g1).symm)
  · rw [hb]; exact .some (.num _ _ (clamp_share b0 b1).symm)
  · rw [ha]; exact .some (.num _ _ (clamp_share a0 a1).symm)

theorem readVector_new {v x : Val} (hv : Record [("x", IsNum), ("y", IsNum)] [] v) (h : readVector v = .ok x) :
    PyEq v x ∧ x ≠ .none := by
  obtain ⟨d, rfl, -⟩ := id hv
  obtain ⟨_, hx, a, rfl⟩ := record_get hv (k := "x") (P := IsNum) (by simp)
  obtain ⟨_, hy, b, rfl⟩ := record_get hv (k := "y") (P := IsNum) (by simp)
  have e1 : Dict.getItem d "x" = .ok (.num a) := lookup_getItem.2 hx
  have e2 : Dict.getItem d "y" = .ok (.num b) := lookup_getItem.2 hy
  unfold readVector at h
  simp only [Vec.ofVal, Vec.new, e1, e2, ok_bind, Vec.coord, pure_eq_ok, Except.ok.injEq] at h
  subst h
  refine ⟨pyEq_keys ["x", "y"] (record_keys hv) (fun k => mem_keys_of_lookup) ?_, by simp [Vec.toJson]⟩
  intro k hk
  simp only [List.mem_cons, List.not_mem_nil, or_false] at hk
  rcases hk with rfl | rfl
  · rw [hx]; exact .refl _
  · rw [hy]; exact .refl _

theorem pyFloat_new {n : Num} {q : Rat} (hn : Binary64 n.val) (h : pyFloat (.num n) = .ok q) : q = n.val := by
  have h := (pyFloat_iff _ _).1 h
  cases n with
  | int z => exact rounded_unique h.2 (rounded_self hn)
  | flt r => exact h

theorem readParameters_new {v x : Val} (hv : Record [("playback_volume", IsDouble), ("playback_globally", IsFlag),
    ("allow_polyphony", IsFlag)] [] v) (h : readParameters v = .ok x) : PyEq v x ∧ x ≠ .none := by
  obtain ⟨d, rfl, -⟩ := id hv
  obtain ⟨_, h1, n, rfl, hn⟩ := record_get hv (k := "playback_volume") (P := IsDouble) (by simp)
  obtain ⟨_, h2, b, rfl⟩ := record_get hv (k := "playback_globally") (P := IsFlag) (by simp)
  obtain ⟨_, h3, c, rfl⟩ := record_get hv (k := "allow_polyphony") (P := IsFlag) (by simp)
  unfold readParameters at h
  simp only [subscript_dict h1, subscript_dict h2, subscript_dict h3, ok_bind, bind_eq_ok, pure_eq_ok,
    Except.ok.injEq] at h
  obtain ⟨q, hq, rfl⟩ := h
  have := pyFloat_new hn hq
  refine ⟨pyEq_keys ["playback_volume", "playback_globally", "allow_polyphony"] (record_keys hv)
    (fun k => mem_keys_of_lookup) ?_, by simp⟩
  intro k hk
  simp only [List.mem_cons, List.not_mem_nil, or_false] at hk
  rcases hk with rfl | rfl | rfl
  · rw [h1]; exact .some (.num _ _ this.symm)
  · rw [h2]; exact .refl _
  · rw [h3]; exact .refl _

theorem alert_new {env : Env} {v x : Val} {out : Dict} (hv : Record [("show_alert", IsFlag), ("show_on_map", IsFlag),
    ("alert_message", IsAny)] [("icon_signal_id", IsItemSignal env)] v) (h : readAlert env v = .ok x)
    (ho : alertJson env x = .ok out) : ∃ v', out = [("alert_parameters", v')] ∧ PyEq v v' := by
  obtain ⟨d, rfl, -⟩ := id hv
  obtain ⟨_, h1, a, rfl⟩ := record_get hv (k := "show_alert") (P := IsFlag) (by simp)
  obtain ⟨_, h2, b, rfl⟩ := record_get hv (k := "show_on_map") (P := IsFlag) (by simp)
  obtain ⟨m, h3, -⟩ := record_get hv (k := "alert_message") (P := IsAny) (by simp)
  unfold readAlert at h
  simp only [subscript_dict h1, subscript_dict h2, subscript_dict h3, ok_bind, bind_eq_ok, pure_eq_ok,
    Except.ok.injEq, Val.asDict] at h
  obtain ⟨icon, hi, n, hn, rfl⟩ := h
  unfold alertJson at ho
  simp only [bind_eq_ok, pure_eq_ok, Except.ok.injEq] at ho
  obtain ⟨sa, e1, sm, e2, msg, e3, ic, e4, extra, he, rfl⟩ := ho
  cases e1; cases e2; cases e3; cases e4
  refine ⟨_, rfl, pyEq_keys ["show_alert", "show_on_map", "alert_message", "icon_signal_id"] (record_keys hv)
    (fun k hk => ?_) ?_⟩
  · have := mem_keys_of_lookup hk
    unfold alertIcon at he
    split at he
    · cases he; simp at this ⊢; tauto
    · simp only [bind_eq_ok, pure_eq_ok, Except.ok.injEq] at he
      obtain ⟨t, -, rfl⟩ := he
      simpa using this
    · cases he
  intro k hk
  simp only [List.mem_cons, List.not_mem_nil, or_false] at hk
  rcases hk with rfl | rfl | rfl | rfl
  · rw [h1]; exact .refl _
  · rw [h2]; exact .refl _
  · rw [h3]; exact .refl _
  · cases hq : List.lookup "icon_signal_id" d with
    | none =>
      rw [show Dict.getD d "icon_signal_id" (.dict []) = .dict [] by unfold Dict.getD Dict.get?; rw [hq]; rfl] at hi
      cases hi
      cases hn
      cases he
      exact .inl ⟨rfl, rfl⟩
    | some i =>
      obtain ⟨di, s, t, row, rfl, k1, k2, k3, k4, k5⟩ := record_opt hv (k := "icon_signal_id")
        (P := IsItemSignal env) (by simp) hq
      rw [show Dict.getD d "icon_signal_id" (.dict []) = .dict di by unfold Dict.getD Dict.get?; rw [hq]; rfl] at hi
      cases hi
      rw [show Dict.getD icon "name" .none = .str s by unfold Dict.getD Dict.get?; rw [k2]; rfl] at hn
      cases nameStr_text hn
      unfold alertIcon at he
      dsimp only at he
      rw [show Dict.getD env.defaults s .none = .dict row by unfold Dict.getD Dict.get?; rw [k4]; rfl] at he
      simp only [subscript_dict k5, ok_bind] at he
      cases he
      refine .some (pyEq_keys ["name", "type"] (fun k hk => by simpa using k1 k hk) (fun k => mem_keys_of_lookup) ?_)
      intro k hk
      simp only [List.mem_cons, List.not_mem_nil, or_false] at hk
      rcases hk with rfl | rfl
      · rw [k2]; exact .refl _
      · rw [k3]; exact .refl _

theorem readChoice_new {os : List String} {s : String} {x : Val} (h : readChoice os (.str s) = .ok x) : x = .str s := by
  unfold readChoice at h
  dsimp only at h
  split at h
  · cases h; rfl
  · cases h

theorem cargo_new {env : Env} {v : Val} {w : Attrs} (hv : Record [] [("bar", IsInt),
    ("filters", SomeSlots (Record [("index", IsInt), ("name", IsText)] []))] v) (hne : v ≠ .dict [])
    (h : readCargo env v = .ok w) : ∃ bar fs, w = [("inventory_bar", bar), ("inventory_filters", fs)] ∧
      PyEq v (cargoInventory bar fs) ∧ cargoInventory bar fs ≠ .none := by
  obtain ⟨d, rfl, -⟩ := id hv
  rw [readCargo_eq (by simp)] at h
  simp only [bind_eq_ok, pure_eq_ok, Except.ok.injEq] at h
  obtain ⟨_, e, fs, hfs, l, hl, rfl⟩ := h
  cases e
  refine ⟨_, _, rfl, ?_⟩
  have hbar : OptEq (List.lookup "bar" d) (List.lookup "bar" (objSet "bar" (Dict.getD d "bar" .none))) ∧
      (Dict.getD d "bar" .none = .none → List.lookup "bar" d = none) := by
    cases hb : List.lookup "bar" d with
    | none =>
      rw [show Dict.getD d "bar" .none = .none by unfold Dict.getD Dict.get?; rw [hb]; rfl]
      exact ⟨.inl ⟨rfl, rfl⟩, fun _ => rfl⟩
    | some b =>
      obtain ⟨z, rfl⟩ := record_opt hv (k := "bar") (P := IsInt) (by simp) hb
      rw [show Dict.getD d "bar" .none = .int z by unfold Dict.getD Dict.get?; rw [hb]; rfl]
      exact ⟨.refl _, fun h => by cases h⟩
  have hfil : OptEq (List.lookup "filters" d) (if (idxJson l).truthy then some (idxJson l) else none) ∧
      ((idxJson l).truthy = false → List.lookup "filters" d = none) := by
    cases hb : List.lookup "filters" d with
    | none =>
      rw [show Dict.getD d "filters" (.list []) = .list [] by unfold Dict.getD Dict.get?; rw [hb]; rfl] at hfs
      cases hfs
      cases hl
      exact ⟨.inl ⟨rfl, rfl⟩, fun _ => rfl⟩
    | some x =>
      obtain ⟨h1, h2⟩ := record_opt hv (k := "filters") (P := SomeSlots _) (List.mem_cons_of_mem _ (List.mem_cons_self ..)) hb
      rw [show Dict.getD d "filters" (.list []) = x by unfold Dict.getD Dict.get?; rw [hb]; rfl] at hfs
      have hx : x = .list fs := by
        obtain ⟨l0, rfl, -⟩ := h1
        cases hfs; rfl
      obtain ⟨h3, h4⟩ := idxJson_slots h1 hx (fun f hf p hp => cargoStep_new hf p hp) hl
      have ht : (idxJson l).truthy = true := by
        by_contra hc
        exact h2 (h4 (by simpa using hc))
      rw [if_pos ht]
      exact ⟨.some h3, fun h => by rw [ht] at h; cases h⟩
  have hinv : cargoInventory (Dict.getD d "bar" .none) (idxJson l) =
      .dict (objSet "bar" (Dict.getD d "bar" .none) ++ (if (idxJson l).truthy then [("filters", idxJson l)] else [])) := by
    unfold cargoInventory
    rw [if_neg]
    rintro ⟨h1, h2⟩
    have e1 := hbar.2 h1
    have e2 := hfil.2 h2
    apply hne
    cases d with
    | nil => rfl
    | cons p d =>
      have := record_keys hv p.1 (by rw [show p = (p.1, p.2) from rfl, lookup_one, if_pos rfl]; simp)
      simp only [List.map_cons, List.map_nil, List.nil_append, List.mem_cons, List.not_mem_nil, or_false] at this
      rw [show p = (p.1, p.2) from rfl, lookup_one] at e1 e2
      rcases this with h | h
      · rw [if_pos h.symm] at e1; cases e1
      · rw [if_pos h.symm] at e2; cases e2
  rw [hinv]
  refine ⟨pyEq_keys ["bar", "filters"] (fun k hk => by simpa using record_keys hv k hk) (fun k hk => ?_) ?_, by simp⟩
  · have := (append_sub (objSet_sub "bar" (Dict.getD d "bar" .none)) (ite_sub ((idxJson l).truthy = true) "filters"
      (idxJson l))).subset (mem_keys_of_lookup hk)
    simpa using this
  intro k hk
  simp only [List.mem_cons, List.not_mem_nil, or_false] at hk
  rcases hk with rfl | rfl
  · rw [lookup_append]
    have : List.lookup "bar" (if (idxJson l).truthy then [("filters", idxJson l)] else []) = none := by split <;> rfl
    rw [this, Option.or_none]
    exact hbar.1
  · rw [lookup_append, lookup_objSet, if_neg (by decide), Option.none_or]
    have : List.lookup "filters" (if (idxJson l).truthy then [("filters", idxJson l)] else []) =
        (if (idxJson l).truthy then some (idxJson l) else none) := by split <;> rfl
    rw [this]
    exact hfil.1

theorem readItems_new {env : Env} {d : Dict} {w : Attrs} (h : readItems env (.dict d) = .ok w) :
    w = [("items", .dict d)] := by
  unfold readItems at h
  simp only [Val.asDict, ok_bind, bind_eq_ok, pure_eq_ok, Except.ok.injEq] at h
  obtain ⟨l, hl, rfl⟩ := h
  have : l = d := by
    have := mapM_forall₂ (R := fun p q => q = p) (fun p _ q hq => ?_) hl
    · clear hl
      induction this with
      | nil => rfl
      | cons h _ ih => rw [h, ih]
    · simp only [bind_eq_ok] at hq
      obtain ⟨s, hs, hq⟩ := hq
      have hs' : s = .str p.1 := by
        unfold signalSet at hs
        dsimp only at hs
        split at hs
        · rw [bind_eq_ok] at hs
          obtain ⟨b, -, hs⟩ := hs
          split at hs
          · cases hs; rfl
          · cases hs
        · cases hs; rfl
      subst hs'
      cases hq
      rfl
  rw [this]

theorem orientation_new {n : Num} {x : Val} (h0 : 0 ≤ n.val) (h1 : n.val < 1) (h : orientationSet (.num n) = .ok x) :
    PyEq (.num n) x ∧ x ≠ .none := by
  unfold orientationSet at h
  simp only [Val.num?, Num.mod_one, fract_of_range ⟨h0, h1⟩, ok_bind, pure_eq_ok, Except.ok.injEq] at h
  subst h
  exact ⟨.num _ _ rfl, by simp⟩

/-- `objSet` writes what is there. -/
theorem objSet_some {k : String} {v v' : Val} (h : PyEq v v' ∧ v' ≠ .none) : ∃ x, List.lookup k (objSet k v') = some x ∧ PyEq v x :=
  ⟨v', by rw [lookup_objSet, if_pos rfl, if_neg h.2], h.1⟩

/-- One mixin. -/
theorem mx_shown {env : Env} {strict sh : Bool} {m : Mx} {g a : Kw} {w out : Dict} {dir : Direction} {k : String} {v : Val}
    (hr : mxRead env strict sh m g = .ok w) (hk : k ∈ settings m) (hv : g k = some v) (hf : GameForm env k v)
    (ha : ∀ k ∈ mxAttrs m, a k = Dict.get? w k) (he : mxEmit env m a dir = .ok out) :
    ∃ v', List.lookup k out = some v' ∧ PyEq v v' := by
  have ho : Kw.orNone g k = v := by unfold Kw.orNone; rw [hv]; rfl
  cases hf
  case items d hne =>
    have hm : m = .Items := by revert hk; cases m <;> decide
    subst hm
    simp only [mxRead, hv, Option.getD_some] at hr
    cases readItems_new hr
    simp only [mxEmit, bind_eq_ok, pure_eq_ok, Except.ok.injEq, attr_ok, ha "items" (by decide), get_single, if_true,
      Option.some.injEq, exists_eq_left'] at he
    have : (Val.dict d).truthy = true := by cases d <;> first | rfl | exact absurd rfl hne
    rw [if_pos this] at he
    subst he
    exact ⟨_, rfl, .refl _⟩
  case orientation n h0 h1 =>
    have hm : m = .Train := by revert hk; cases m <;> decide
    subst hm
    simp only [mxRead, ho, bind_eq_ok, pure_eq_ok, Except.ok.injEq] at hr
    obtain ⟨x, hx, rfl⟩ := hr
    simp only [mxEmit, bind_eq_ok, pure_eq_ok, Except.ok.injEq, attr_ok, ha "orientation" (by decide), get_single, if_true,
      Option.some.injEq, exists_eq_left'] at he
    subst he
    exact objSet_some (orientation_new h0 h1 hx)
  case inventory hne hrec =>
    have hm : m = .Cargo := by revert hk; cases m <;> decide
    subst hm
    simp only [mxRead, ho] at hr
    obtain ⟨bar, fs, rfl, h1, h2⟩ := cargo_new hrec hne hr
    have e1 : a "inventory_bar" = some bar := ha "inventory_bar" (by decide)
    have e2 : a "inventory_filters" = some fs := ha "inventory_filters" (by decide)
    simp only [mxEmit, bind_eq_ok, pure_eq_ok, Except.ok.injEq, attr_ok, e1, e2, Option.some.injEq, exists_eq_left'] at he
    subst he
    exact objSet_some ⟨h1, h2⟩
  case color hrec =>
    have hm : m = .Color := by revert hk; cases m <;> decide
    subst hm
    simp only [mxRead, ho, bind_eq_ok, pure_eq_ok, Except.ok.injEq] at hr
    obtain ⟨x, hx, rfl⟩ := hr
    simp only [mxEmit, Kw.orNone, Except.ok.injEq, ha "color" (by decide), get_single, if_true, Option.getD_some] at he
    subst he
    exact objSet_some (readColor_new hrec hx)
  case bar hrec =>
    have hm : m = .Container := by revert hk; cases m <;> decide
    subst hm
    obtain ⟨z, rfl⟩ := hrec
    simp only [mxRead, ho, readIntOrNone, pyInt, Num.trunc, ok_bind, bind_eq_ok, pure_eq_ok, Except.ok.injEq] at hr
    subst hr
    simp only [mxEmit, bind_eq_ok, pure_eq_ok, Except.ok.injEq, attr_ok, ha "bar" (by decide), get_single, if_true,
      Option.some.injEq, exists_eq_left'] at he
    subst he
    exact ⟨_, rfl, .refl _⟩
  case override_stack_size hrec =>
    have hm : m = .Inserter := by revert hk; cases m <;> decide
    subst hm
    obtain ⟨z, rfl⟩ := hrec
    simp only [mxRead, ho, readIntOrNone, pyInt, Num.trunc, ok_bind, bind_eq_ok, pure_eq_ok, Except.ok.injEq] at hr
    obtain ⟨p, -, q, -, rfl⟩ := hr
    have e1 := ha "override_stack_size" (by decide)
    have e2 := ha "pickup_position" (by decide)
    have e3 := ha "drop_position" (by decide)
    simp only [mxEmit, bind_eq_ok, pure_eq_ok, Except.ok.injEq, attr_ok, e1, e2, e3] at he
    obtain ⟨_, i1, _, i2, _, i3, rfl⟩ := he
    cases i1
    exact ⟨_, by rw [List.append_assoc, lookup_append]; rfl, .refl _⟩
  case drop_position hrec =>
    have hm : m = .Inserter := by revert hk; cases m <;> decide
    subst hm
    simp only [mxRead, ho, bind_eq_ok, pure_eq_ok, Except.ok.injEq] at hr
    obtain ⟨o, -, p, -, q, hq, rfl⟩ := hr
    obtain ⟨h1, h2⟩ := readVector_new hrec hq
    have e1 := ha "override_stack_size" (by decide)
    have e2 := ha "pickup_position" (by decide)
    have e3 := ha "drop_position" (by decide)
    simp only [mxEmit, bind_eq_ok, pure_eq_ok, Except.ok.injEq, attr_ok, e1, e2, e3] at he
    obtain ⟨_, i1, _, i2, _, i3, rfl⟩ := he
    cases i1; cases i2; cases i3
    exact ⟨q, by simp [lookup_append, lookup_objSet, h2], h1⟩
  case pickup_position hrec =>
    have hm : m = .Inserter := by revert hk; cases m <;> decide
    subst hm
    simp only [mxRead, ho, bind_eq_ok, pure_eq_ok, Except.ok.injEq] at hr
    obtain ⟨o, -, p, hp, q, -, rfl⟩ := hr
    obtain ⟨h1, h2⟩ := readVector_new hrec hp
    have e1 := ha "override_stack_size" (by decide)
    have e2 := ha "pickup_position" (by decide)
    have e3 := ha "drop_position" (by decide)
    simp only [mxEmit, bind_eq_ok, pure_eq_ok, Except.ok.injEq, attr_ok, e1, e2, e3] at he
    obtain ⟨_, i1, _, i2, _, i3, rfl⟩ := he
    cases i1; cases i2; cases i3
    exact ⟨p, by simp [lookup_append, lookup_objSet, h2], h1⟩
  case filters hrec =>
    have hm : m = .FilterInserter := by revert hk; cases m <;> decide
    subst hm
    obtain ⟨l, rfl, hne, hl⟩ := hrec
    simp only [mxRead, ho, iterOrNone, Val.iter, ok_bind] at hr
    split at hr
    · cases hr
    simp only [bind_eq_ok, pure_eq_ok, Except.ok.injEq] at hr
    obtain ⟨l', hl', mode, -, rfl⟩ := hr
    have h2 := mapM_forall₂ (R := PyEq) (fun x hx y hy => readInsFilter_new (hl x hx) hy) hl'
    have e1 := ha "filters" (by decide)
    have e2 := ha "filter_mode" (by decide)
    simp only [mxEmit, bind_eq_ok, pure_eq_ok, Except.ok.injEq, attr_ok, e1, e2] at he
    obtain ⟨_, i1, _, i2, rfl⟩ := he
    cases i1; cases i2
    have ht : (Val.list l').truthy = true := by
      cases h2 with
      | nil => exact absurd rfl hne
      | cons => rfl
    rw [if_pos ht]
    exact ⟨_, by rw [lookup_append, lookup_objSet, if_neg (by decide)]; rfl, .list _ _ h2⟩
  case filter_mode hrec =>
    have hm : m = .FilterInserter := by revert hk; cases m <;> decide
    subst hm
    obtain ⟨s, rfl⟩ := hrec
    simp only [mxRead, ho, bind_eq_ok] at hr
    obtain ⟨fs, -, hr⟩ := hr
    split at hr
    · cases hr
    simp only [bind_eq_ok, pure_eq_ok, Except.ok.injEq] at hr
    obtain ⟨l', -, mode, hmode, rfl⟩ := hr
    cases readChoice_new hmode
    have e1 := ha "filters" (by decide)
    have e2 := ha "filter_mode" (by decide)
    simp only [mxEmit, bind_eq_ok, pure_eq_ok, Except.ok.injEq, attr_ok, e1, e2] at he
    obtain ⟨_, i1, _, i2, rfl⟩ := he
    cases i1; cases i2
    exact ⟨_, by rw [lookup_append]; rfl, .refl _⟩
  case infinity_settings hrec =>
    have hm : m = .InfinityContainer := by revert hk; cases m <;> decide
    subst hm
    obtain ⟨d, rfl, -⟩ := id hrec
    obtain ⟨_, h1, b, rfl⟩ := record_get hrec (k := "remove_unfiltered_items") (P := IsFlag) (by simp)
    obtain ⟨fv, h2, h3⟩ := record_get hrec (k := "filters") (P := Slots _) (List.mem_cons_of_mem _ (List.mem_cons_self ..))
    obtain ⟨fs, rfl, -⟩ := id h3
    simp only [mxRead, ho, readInfinity_eq, subscript_dict h1, subscript_dict h2, iterOrNone, Val.iter, ok_bind, bind_eq_ok,
      pure_eq_ok, Except.ok.injEq] at hr
    obtain ⟨l, hl, rfl⟩ := hr
    obtain ⟨h4, -⟩ := idxJson_slots h3 rfl (fun f hf p hp => infinityStep_new hf p hp) hl
    have e1 := ha "infinity_settings_remove_unfiltered_items" (by decide)
    have e2 := ha "infinity_settings_filters" (by decide)
    simp only [mxEmit, bind_eq_ok, pure_eq_ok, Except.ok.injEq, attr_ok, e1, e2] at he
    obtain ⟨_, i1, _, i2, rfl⟩ := he
    cases i1; cases i2
    refine ⟨_, rfl, pyEq_keys ["remove_unfiltered_items", "filters"] (record_keys hrec) (fun k => mem_keys_of_lookup) ?_⟩
    intro k hk
    simp only [List.mem_cons, List.not_mem_nil, or_false] at hk
    rcases hk with rfl | rfl
    · rw [h1]; exact .refl _
    · rw [h2]; exact .some h4
  case recipe hrec =>
    have hm : m = .Recipe := by revert hk; cases m <;> decide
    subst hm
    obtain ⟨s, rfl⟩ := hrec
    simp only [mxRead, ho, bind_eq_ok, pure_eq_ok, Except.ok.injEq] at hr
    obtain ⟨x, hx, rfl⟩ := hr
    have : x = .str s := by
      unfold recipeSet at hx
      split at hx
      · cases hx; rfl
      · simp only [bind_eq_ok] at hx
        obtain ⟨b, -, hx⟩ := hx
        split at hx
        · cases hx; rfl
        · cases hx
    subst this
    simp only [mxEmit, Kw.orNone, Except.ok.injEq, ha "recipe" (by decide), get_single, if_true, Option.getD_some] at he
    subst he
    exact ⟨_, rfl, .refl _⟩
  case request_from_buffers =>
    have hm : m = .Requester := by revert hk; cases m <;> decide
    subst hm
    simp only [mxRead, hv, bind_eq_ok, pure_eq_ok, Except.ok.injEq] at hr
    obtain ⟨l, -, rfl⟩ := hr
    have e1 := ha "request_from_buffers" (by decide)
    have e2 := ha "request_filters" (by decide)
    simp only [mxEmit, bind_eq_ok, pure_eq_ok, Except.ok.injEq, attr_ok, e1, e2] at he
    obtain ⟨_, i1, _, i2, rfl⟩ := he
    cases i1; cases i2
    exact ⟨_, rfl, .refl _⟩
  case request_filters hrec =>
    have hm : m = .Requester := by revert hk; cases m <;> decide
    subst hm
    obtain ⟨h1, h2⟩ := hrec
    obtain ⟨fs, rfl, -⟩ := id h1
    simp only [mxRead, ho, readRequestFilters_eq, iterOrNone, Val.iter, ok_bind, bind_eq_ok, pure_eq_ok, Except.ok.injEq] at hr
    obtain ⟨_, ⟨l, hl, rfl⟩, rfl⟩ := hr
    obtain ⟨h4, h5⟩ := idxJson_slots h1 rfl (fun f hf p hp => requestStep_new hf p hp) hl
    have e1 := ha "request_from_buffers" (by decide)
    have e2 := ha "request_filters" (by decide)
    simp only [mxEmit, bind_eq_ok, pure_eq_ok, Except.ok.injEq, attr_ok, e1, e2] at he
    obtain ⟨_, i1, _, i2, rfl⟩ := he
    cases i1; cases i2
    have ht : (idxJson l).truthy = true := by
      by_contra hc
      exact h2 (h5 (by simpa using hc))
    rw [if_pos ht, lookup_append]
    refine ⟨idxJson l, ?_, h4⟩
    split <;> rfl
  case auto_launch hrec =>
    have hm : m = .Silo := by revert hk; cases m <;> decide
    subst hm
    obtain ⟨b, rfl⟩ := hrec
    have hx : readAutoLaunch (.bool b) = .ok (.bool b) := by cases b <;> decide
    simp only [mxRead, ho, hx, ok_bind, pure_eq_ok, Except.ok.injEq] at hr
    subst hr
    simp only [mxEmit, bind_eq_ok, pure_eq_ok, Except.ok.injEq, attr_ok, ha "auto_launch" (by decide), get_single, if_true,
      Option.some.injEq, exists_eq_left'] at he
    subst he
    exact ⟨_, rfl, .refl _⟩
  case parameters hrec =>
    have hm : m = .Speaker := by revert hk; cases m <;> decide
    subst hm
    simp only [mxRead, ho, bind_eq_ok, pure_eq_ok, Except.ok.injEq] at hr
    obtain ⟨p, hp, al, -, rfl⟩ := hr
    obtain ⟨h1, h2⟩ := readParameters_new hrec hp
    have e1 := ha "parameters" (by decide)
    have e2 := ha "alert_parameters" (by decide)
    simp only [mxEmit, bind_eq_ok, pure_eq_ok, Except.ok.injEq, attr_ok, e1, e2] at he
    obtain ⟨_, i1, _, i2, o, -, rfl⟩ := he
    cases i1; cases i2
    exact ⟨p, by rw [lookup_append, lookup_objSet, if_pos rfl, if_neg h2]; rfl, h1⟩
  case alert_parameters hrec =>
    have hm : m = .Speaker := by revert hk; cases m <;> decide
    subst hm
    simp only [mxRead, ho, bind_eq_ok, pure_eq_ok, Except.ok.injEq] at hr
    obtain ⟨p, -, al, hal, rfl⟩ := hr
    have e1 := ha "parameters" (by decide)
    have e2 := ha "alert_parameters" (by decide)
    simp only [mxEmit, bind_eq_ok, pure_eq_ok, Except.ok.injEq, attr_ok, e1, e2] at he
    obtain ⟨_, i1, _, i2, o, hout, rfl⟩ := he
    cases i1; cases i2
    obtain ⟨v', rfl, h1⟩ := alert_new hrec hal hout
    exact ⟨v', by rw [lookup_append, lookup_objSet, if_neg (by decide)]; rfl, h1⟩
  case input_priority hrec =>
    have hm : m = .Splitter := by revert hk; cases m <;> decide
    subst hm
    obtain ⟨s, rfl⟩ := hrec
    simp only [mxRead, ho, bind_eq_ok, pure_eq_ok, Except.ok.injEq] at hr
    obtain ⟨i, hi, o, -, f, -, rfl⟩ := hr
    cases readChoice_new hi
    have e1 := ha "input_priority" (by decide)
    have e2 := ha "output_priority" (by decide)
    have e3 := ha "filter" (by decide)
    simp only [mxEmit, bind_eq_ok, pure_eq_ok, Except.ok.injEq, attr_ok, e1, e2, e3] at he
    obtain ⟨_, i1, _, i2, _, i3, rfl⟩ := he
    cases i1; cases i2; cases i3
    exact ⟨.str s, by simp [lookup_append, lookup_objSet], .refl _⟩
  case output_priority hrec =>
    have hm : m = .Splitter := by revert hk; cases m <;> decide
    subst hm
    obtain ⟨s, rfl⟩ := hrec
    simp only [mxRead, ho, bind_eq_ok, pure_eq_ok, Except.ok.injEq] at hr
    obtain ⟨i, -, o, hi, f, -, rfl⟩ := hr
    cases readChoice_new hi
    have e1 := ha "input_priority" (by decide)
    have e2 := ha "output_priority" (by decide)
    have e3 := ha "filter" (by decide)
    simp only [mxEmit, bind_eq_ok, pure_eq_ok, Except.ok.injEq, attr_ok, e1, e2, e3] at he
    obtain ⟨_, i1, _, i2, _, i3, rfl⟩ := he
    cases i1; cases i2; cases i3
    exact ⟨.str s, by simp [lookup_append, lookup_objSet], .refl _⟩
  case filter hrec =>
    have hm : m = .Splitter := by revert hk; cases m <;> decide
    subst hm
    obtain ⟨s, rfl⟩ := hrec
    simp only [mxRead, ho, bind_eq_ok, pure_eq_ok, Except.ok.injEq] at hr
    obtain ⟨i, -, o, -, f, hf, rfl⟩ := hr
    cases nameStr_text hf
    have e1 := ha "input_priority" (by decide)
    have e2 := ha "output_priority" (by decide)
    have e3 := ha "filter" (by decide)
    simp only [mxEmit, bind_eq_ok, pure_eq_ok, Except.ok.injEq, attr_ok, e1, e2, e3] at he
    obtain ⟨_, i1, _, i2, _, i3, rfl⟩ := he
    cases i1; cases i2; cases i3
    exact ⟨.str s, by simp [lookup_append, lookup_objSet], .refl _⟩
  case station hrec =>
    have hm : m = .Station := by revert hk; cases m <;> decide
    subst hm
    obtain ⟨s, rfl⟩ := hrec
    simp only [mxRead, ho, Except.ok.injEq] at hr
    subst hr
    simp only [mxEmit, bind_eq_ok, pure_eq_ok, Except.ok.injEq, attr_ok, ha "station" (by decide), get_single, if_true,
      Option.some.injEq, exists_eq_left'] at he
    subst he
    exact ⟨_, rfl, .refl _⟩
  case type hrec =>
    have hm : m = .Underground := by revert hk; cases m <;> decide
    subst hm
    obtain ⟨s, rfl⟩ := hrec
    simp only [mxRead, hv] at hr
    split at hr
    · cases hr
      simp only [mxEmit, bind_eq_ok, pure_eq_ok, Except.ok.injEq, attr_ok, ha "type" (by decide), get_single, if_true,
        Option.some.injEq, exists_eq_left'] at he
      subst he
      exact ⟨_, rfl, .refl _⟩
    · cases hr
  case variation hrec =>
    have hm : m = .Variation := by revert hk; cases m <;> decide
    subst hm
    obtain ⟨z, rfl⟩ := hrec
    simp only [mxRead, ho, bind_eq_ok, pure_eq_ok, Except.ok.injEq] at hr
    obtain ⟨x, hx, rfl⟩ := hr
    unfold readVariation at hx
    simp only [Val.num?] at hx
    split at hx
    · cases hx
    cases hx
    simp only [mxEmit, bind_eq_ok, pure_eq_ok, Except.ok.injEq, attr_ok, ha "variation" (by decide), get_single, if_true,
      Option.some.injEq, exists_eq_left'] at he
    subst he
    exact ⟨_, rfl, .refl _⟩

/-- A setting that is not given, or given as null, is not written. -/
theorem mx_absent {env : Env} {strict sh : Bool} {m : Mx} {g a : Kw} {w out : Dict} {dir : Direction} {k : String}
    (hr : mxRead env strict sh m g = .ok w) (hk : k ∈ settings m) (hv : g k = none ∨ g k = some .none)
    (ha : ∀ k ∈ mxAttrs m, a k = Dict.get? w k) (he : mxEmit env m a dir = .ok out) : List.lookup k out = none := by
  have ho : Kw.orNone g k = .none := by unfold Kw.orNone; rcases hv with hv | hv <;> rw [hv] <;> rfl
  cases m <;> simp only [settings, List.mem_cons, List.not_mem_nil, or_false] at hk
  case Items =>
    subst hk
    rcases hv with hv | hv
    · simp only [mxRead, hv, Option.getD_none] at hr
      cases readItems_new hr
      simp only [mxEmit, bind_eq_ok, pure_eq_ok, Except.ok.injEq, attr_ok, ha "items" (by decide), get_single, if_true,
        Option.some.injEq, exists_eq_left'] at he
      subst he
      rfl
    · simp only [mxRead, hv, Option.getD_some] at hr
      cases hr
  case Train =>
    subst hk
    simp only [mxRead, ho, orientationSet, ok_bind, pure_eq_ok, Except.ok.injEq] at hr
    subst hr
    simp only [mxEmit, bind_eq_ok, pure_eq_ok, Except.ok.injEq, attr_ok, ha "orientation" (by decide), get_single, if_true,
      Option.some.injEq, exists_eq_left'] at he
    subst he
    rfl
  case Cargo =>
    subst hk
    simp only [mxRead, ho, readCargo, Except.ok.injEq] at hr
    subst hr
    have e1 := ha "inventory_bar" (by decide)
    have e2 := ha "inventory_filters" (by decide)
    simp only [mxEmit, bind_eq_ok, pure_eq_ok, Except.ok.injEq, attr_ok, e1, e2] at he
    obtain ⟨_, i1, _, i2, rfl⟩ := he
    cases i1; cases i2
    rfl
  case Color =>
    subst hk
    simp only [mxRead, ho, readColor, ok_bind, pure_eq_ok, Except.ok.injEq] at hr
    subst hr
    simp only [mxEmit, Kw.orNone, Except.ok.injEq, ha "color" (by decide), get_single, if_true, Option.getD_some] at he
    subst he
    rfl
  case Container =>
    subst hk
    simp only [mxRead, ho, readIntOrNone, ok_bind, pure_eq_ok, Except.ok.injEq] at hr
    subst hr
    simp only [mxEmit, bind_eq_ok, pure_eq_ok, Except.ok.injEq, attr_ok, ha "bar" (by decide), get_single, if_true,
      Option.some.injEq, exists_eq_left'] at he
    subst he
    rfl
  case Inserter =>
    simp only [mxRead, bind_eq_ok, pure_eq_ok, Except.ok.injEq] at hr
    obtain ⟨o, h1, p, h2, q, h3, rfl⟩ := hr
    have e1 := ha "override_stack_size" (by decide)
    have e2 := ha "pickup_position" (by decide)
    have e3 := ha "drop_position" (by decide)
    simp only [mxEmit, bind_eq_ok, pure_eq_ok, Except.ok.injEq, attr_ok, e1, e2, e3] at he
    obtain ⟨_, i1, _, i2, _, i3, rfl⟩ := he
    cases i1; cases i2; cases i3
    rcases hk with rfl | rfl | rfl
    · rw [ho] at h1; cases h1; simp [lookup_append, lookup_objSet]
    · rw [ho] at h3; cases h3; simp [lookup_append, lookup_objSet]
    · rw [ho] at h2; cases h2; simp [lookup_append, lookup_objSet]
  case FilterInserter =>
    simp only [mxRead, bind_eq_ok] at hr
    obtain ⟨fs, h1, hr⟩ := hr
    split at hr
    · cases hr
    simp only [bind_eq_ok, pure_eq_ok, Except.ok.injEq] at hr
    obtain ⟨l', h2, mode, h3, rfl⟩ := hr
    have e1 := ha "filters" (by decide)
    have e2 := ha "filter_mode" (by decide)
    simp only [mxEmit, bind_eq_ok, pure_eq_ok, Except.ok.injEq, attr_ok, e1, e2] at he
    obtain ⟨_, i1, _, i2, rfl⟩ := he
    cases i1; cases i2
    rcases hk with rfl | rfl
    · rw [ho] at h1; cases h1; cases h2
      simp [lookup_append, lookup_objSet, Val.truthy]
    · rw [ho] at h3; cases h3
      rw [lookup_append, lookup_objSet, if_pos rfl, if_pos rfl]
      split <;> rfl
  case InfinityContainer =>
    subst hk
    simp only [mxRead, ho] at hr
    cases hr
  case Recipe =>
    subst hk
    simp only [mxRead, ho, bind_eq_ok, pure_eq_ok, Except.ok.injEq] at hr
    obtain ⟨x, hx, rfl⟩ := hr
    have : x = .none := by
      unfold recipeSet at hx
      split at hx <;> (cases hx; rfl)
    subst this
    simp only [mxEmit, Kw.orNone, Except.ok.injEq, ha "recipe" (by decide), get_single, if_true, Option.getD_some] at he
    subst he
    rfl
  case Requester =>
    simp only [mxRead, bind_eq_ok, pure_eq_ok, Except.ok.injEq] at hr
    obtain ⟨l, h1, rfl⟩ := hr
    have e1 := ha "request_from_buffers" (by decide)
    have e2 := ha "request_filters" (by decide)
    simp only [mxEmit, bind_eq_ok, pure_eq_ok, Except.ok.injEq, attr_ok, e1, e2] at he
    obtain ⟨_, i1, _, i2, rfl⟩ := he
    cases i1; cases i2
    rcases hk with rfl | rfl
    · have : ((g "request_from_buffers").getD (.bool false)).truthy = false := by
        rcases hv with hv | hv <;> rw [hv] <;> rfl
      rw [this]
      simp only [Bool.false_eq_true, if_false, List.nil_append]
      split <;> rfl
    · rw [ho] at h1
      have : l = .list [] := by
        rw [readRequestFilters_eq] at h1
        simp only [iterOrNone, ok_bind, bind_eq_ok, pure_eq_ok, Except.ok.injEq] at h1
        obtain ⟨l0, h1, rfl⟩ := h1
        cases h1
        rfl
      subst this
      rw [lookup_append]
      split <;> rfl
  case Silo =>
    subst hk
    simp only [mxRead, ho, readAutoLaunch, ok_bind, pure_eq_ok, Except.ok.injEq] at hr
    subst hr
    simp only [mxEmit, bind_eq_ok, pure_eq_ok, Except.ok.injEq, attr_ok, ha "auto_launch" (by decide), get_single, if_true,
      Option.some.injEq, exists_eq_left'] at he
    subst he
    rfl
  case Speaker =>
    simp only [mxRead, bind_eq_ok, pure_eq_ok, Except.ok.injEq] at hr
    obtain ⟨p, hp, al, hal, rfl⟩ := hr
    have e1 := ha "parameters" (by decide)
    have e2 := ha "alert_parameters" (by decide)
    simp only [mxEmit, bind_eq_ok, pure_eq_ok, Except.ok.injEq, attr_ok, e1, e2] at he
    obtain ⟨_, i1, _, i2, o, hout, rfl⟩ := he
    cases i1; cases i2
    rcases hk with rfl | rfl
    · rw [ho] at hp
      cases hp
      rw [lookup_append, lookup_objSet, if_pos rfl, if_pos rfl, Option.none_or]
      unfold alertJson at hout
      split at hout
      · cases hout; rfl
      · simp only [bind_eq_ok, pure_eq_ok, Except.ok.injEq] at hout
        obtain ⟨_, -, _, -, _, -, _, -, _, -, rfl⟩ := hout
        rfl
    · rw [ho] at hal
      cases hal
      cases hout
      rw [List.append_nil, lookup_objSet, if_neg (by decide)]
  case Splitter =>
    simp only [mxRead, bind_eq_ok, pure_eq_ok, Except.ok.injEq] at hr
    obtain ⟨i, h1, o, h2, f, h3, rfl⟩ := hr
    have e1 := ha "input_priority" (by decide)
    have e2 := ha "output_priority" (by decide)
    have e3 := ha "filter" (by decide)
    simp only [mxEmit, bind_eq_ok, pure_eq_ok, Except.ok.injEq, attr_ok, e1, e2, e3] at he
    obtain ⟨_, i1, _, i2, _, i3, rfl⟩ := he
    cases i1; cases i2; cases i3
    rcases hk with rfl | rfl | rfl
    · rw [ho] at h1; cases h1; simp [lookup_append, lookup_objSet]
    · rw [ho] at h2; cases h2; simp [lookup_append, lookup_objSet]
    · rw [ho] at h3; cases h3; simp [lookup_append, lookup_objSet]
  case Station =>
    subst hk
    simp only [mxRead, ho, Except.ok.injEq] at hr
    subst hr
    simp only [mxEmit, bind_eq_ok, pure_eq_ok, Except.ok.injEq, attr_ok, ha "station" (by decide), get_single, if_true,
      Option.some.injEq, exists_eq_left'] at he
    subst he
    rfl
  case Underground =>
    subst hk
    rcases hv with hv | hv <;> (simp only [mxRead, hv] at hr; cases hr)
  case Variation =>
    subst hk
    simp only [mxRead, ho] at hr
    cases hr

/-! ## The chain -/

/-- Every mixin of the chain reads keywords out of those given; it sees the given value of each of its settings, or, if
it comes behind `Items`, nothing. -/
theorem initChain_read {env : Env} {strict sh : Bool} {lo : Exc} {ms : List Mx} {args : Bool} {kw : Dict} {a a' : Attrs}
    (h : initChain env strict sh lo ms args kw a = .ok a') (hn : ms.Nodup)
    (ha : ∀ m ∈ ms, ∀ k ∈ mxAttrs m, Dict.get? a k = none) {m₀ : Mx} (hm₀ : m₀ ∈ ms) :
    ∃ g w, mxRead env strict sh m₀ g = .ok w ∧ (∀ k ∈ mxAttrs m₀, Dict.get? a' k = Dict.get? w k) ∧
      ∀ k ∈ mxKeys m₀, g k = Dict.get? kw k ∨ (g k = none ∧ [Mx.Items, m₀].Sublist ms) := by
  induction ms generalizing args kw a with
  | nil => cases hm₀
  | cons m ms ih =>
    rw [List.nodup_cons] at hn
    have disj : ∀ m' ∈ ms, ∀ k ∈ mxAttrs m, k ∉ mxAttrs m' := fun m' hm' k hk hk' =>
      hn.1 (by rw [mxAttrs_disjoint hk hk']; exact hm')
    unfold initChain at h
    split at h
    · cases h
    · rename_i w hw
      have hfree : ∀ m' ∈ ms, ∀ k ∈ mxAttrs m', Dict.get? (setAll a w) k = none := by
        intro m' hm' k hk
        rw [get_setAll_not, ha m' (List.mem_cons_of_mem _ hm') k hk]
        unfold Dict.get?
        rw [lookup_none_iff]
        intro hx
        obtain ⟨p, hp, rfl⟩ := List.mem_map.1 hx
        exact disj m' hm' _ (mxRead_keys hw p hp) hk
      rcases List.mem_cons.1 hm₀ with rfl | hm₁
      · refine ⟨_, w, hw, fun k hk => ?_, fun k _ => .inl rfl⟩
        have hst : ∀ {args kw}, initChain env strict sh lo ms args kw (setAll a w) = .ok a' →
            Dict.get? a' k = Dict.get? w k := fun h => by
          have := initChain_lookup h (k := k) (fun m' hm' => disj m' hm' k hk)
          unfold Dict.get? at this ⊢
          rw [this]
          exact get_setAll (mxRead_nodup hw) (ha _ (List.mem_cons_self ..) k hk)
        dsimp only at h
        split at h <;> exact hst h
      · dsimp only at h
        split at h
        · rename_i hI
          subst hI
          obtain ⟨g, w', h1, h2, h3⟩ := ih h hn.2 hfree hm₁
          refine ⟨g, w', h1, h2, fun k hk => .inr ⟨?_, ?_⟩⟩
          · rcases h3 k hk with h | ⟨h, -⟩
            · rw [h]; rfl
            · exact h
          · exact .cons_cons _ (List.singleton_sublist.2 hm₁)
        · obtain ⟨g, w', h1, h2, h3⟩ := ih h hn.2 hfree hm₁
          refine ⟨g, w', h1, h2, fun k hk => ?_⟩
          rcases h3 k hk with h | ⟨h, h'⟩
          · left
            rw [h, get_eraseKeys]
            intro hk'
            have := mxKeys_disjoint hk hk'
            subst this
            exact hn.1 hm₁
          · exact .inr ⟨h, h'.cons _⟩

end Verif
