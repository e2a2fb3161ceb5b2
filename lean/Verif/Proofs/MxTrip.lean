import Verif.Model.Assign
import Verif.Proofs.Attrs
import Verif.Proofs.Chain
import Verif.Proofs.Color
import Verif.Proofs.Export
/-!
# Helper lemmas: what a mixin writes, it reads again
-/
set_option autoImplicit false

namespace Verif

/-! ## Single values -/

@[simp] theorem getD_objSet (v : Val) : (if v = .none then none else some v : Option Val).getD .none = v := by
  split
  · next h => rw [h]; rfl
  · rfl

theorem orNone_objSet (k : String) (v : Val) : Kw.orNone (Dict.get? (objSet k v)) k = v := by
  unfold Kw.orNone Dict.get?
  rw [lookup_objSet, if_pos rfl, getD_objSet]

theorem orNone_sets {k k' : String} (v : Val) (l : Dict) : Kw.orNone (Dict.get? (objSet k' v ++ l)) k =
    if k = k' ∧ v ≠ .none then v else Kw.orNone (Dict.get? l) k := by
  unfold Kw.orNone Dict.get?
  rw [lookup_append, lookup_objSet]
  by_cases hk : k = k'
  · by_cases hv : v = .none
    · simp [hk, hv]
    · simp [hk, hv]
  · simp [hk]

theorem orNone_sets3 {k1 k2 k3 : String} {v1 v2 v3 : Val} (h12 : k1 ≠ k2) (h13 : k1 ≠ k3) (h23 : k2 ≠ k3) :
    Kw.orNone (Dict.get? (objSet k1 v1 ++ objSet k2 v2 ++ objSet k3 v3)) k1 = v1 ∧
    Kw.orNone (Dict.get? (objSet k1 v1 ++ objSet k2 v2 ++ objSet k3 v3)) k2 = v2 ∧
    Kw.orNone (Dict.get? (objSet k1 v1 ++ objSet k2 v2 ++ objSet k3 v3)) k3 = v3 := by
  have e : objSet k3 v3 = objSet k3 v3 ++ [] := (List.append_nil _).symm
  have n : ∀ k, Kw.orNone (Dict.get? []) k = .none := fun _ => rfl
  rw [List.append_assoc, e]
  simp only [orNone_sets, n]
  refine ⟨?_, ?_, ?_⟩
  · by_cases h : v1 = .none <;> simp [h, h12, h13]
  · by_cases h : v2 = .none <;> simp [h, h12.symm, h23]
  · by_cases h : v3 = .none <;> simp [h, h13.symm, h23.symm]

theorem orientationSet_again {v o : Val} (h : orientationSet v = .ok o) : orientationSet o = .ok o := by
  rcases orientationSet_ok h with rfl | ⟨n, -, rfl⟩
  · rfl
  · unfold orientationSet
    simp only [Val.num?, Num.mod_one, Num.val_flt, fract_of_range (fract_range _), ok_bind, pure_eq_ok]

theorem color_again {v : Val} {c : Color} (h : Color.ofVal v = .ok c) : Color.ofVal c.toJson = .ok c := by
  unfold Color.ofVal at h
  simp only [bind_eq_ok] at h
  obtain ⟨d, -, h⟩ := h
  unfold Color.ofKwargs at h
  split at h
  · simp at h
  · simp only [bind_eq_ok, pure_eq_ok, Except.ok.injEq] at h
    obtain ⟨_, -, _, -, _, -, _, -, rfl⟩ := h
    simp [Color.ofVal, Color.toJson, Val.kwargs, Color.ofKwargs, Dict.getD, Dict.get?, List.lookup,
      Color.component, Val.num?, Color.new, bind, Except.bind, pure, Except.pure, Color.clamp_clamp]

theorem readColor_again {v o : Val} (h : readColor v = .ok o) : readColor o = .ok o := by
  unfold readColor at h
  split at h
  · cases h; rfl
  · simp only [bind_eq_ok, pure_eq_ok, Except.ok.injEq] at h
    obtain ⟨c, hc, rfl⟩ := h
    have := color_again hc
    show (do return (← Color.ofVal c.toJson).toJson) = _
    rw [this]
    rfl

theorem readIntOrNone_again {v o : Val} (h : readIntOrNone v = .ok o) : readIntOrNone o = .ok o := by
  unfold readIntOrNone at h
  split at h
  · cases h; rfl
  · simp only [bind_eq_ok, pure_eq_ok, Except.ok.injEq] at h
    obtain ⟨c, hc, rfl⟩ := h
    rfl

theorem vec_again (p : Vec) : Vec.ofVal p.toJson = .ok (some p) := rfl

theorem readVector_again {v o : Val} (h : readVector v = .ok o) : readVector o = .ok o := by
  unfold readVector at h
  simp only [bind_eq_ok] at h
  obtain ⟨p, -, h⟩ := h
  cases p with
  | none => cases h; rfl
  | some p => cases h; rfl

theorem readChoice_again {os : List String} {v o : Val} (h : readChoice os v = .ok o) : readChoice os o = .ok o := by
  have h' := h
  unfold readChoice at h
  split at h
  · cases h; rfl
  · split at h
    · cases h; exact h'
    · cases h
  · cases h

theorem nameStr_again {env : Env} {v o : Val} (h : nameStr env v = .ok o) : nameStr env o = .ok o := by
  have h' := h
  unfold nameStr at h
  split at h
  · cases h; rfl
  · split at h
    · cases h; exact h'
    · cases h
  · split at h <;> cases h

theorem recipeSet_again {env : Env} {v o : Val} (h : recipeSet env true v = .ok o) : recipeSet env true o = .ok o := by
  have h' := h
  unfold recipeSet at h
  simp only [Bool.not_true, Bool.false_eq_true, if_false] at h
  split at h
  · cases h; rfl
  · simp only [bind_eq_ok] at h
    obtain ⟨b, -, h⟩ := h
    split at h
    · cases h; exact h'
    · cases h

theorem readAutoLaunch_again {v o : Val} (h : readAutoLaunch v = .ok o) : readAutoLaunch o = .ok o := by
  have h' := h
  unfold readAutoLaunch at h
  split at h
  · cases h; rfl
  · split at h
    · split at h
      · cases h; exact h'
      · cases h
    · cases h

theorem readVariation_again {v o : Val} (h : readVariation v = .ok o) : readVariation o = .ok o := by
  have h' := h
  unfold readVariation at h
  split at h
  · split at h
    · cases h
    · cases h; exact h'
  · cases h

theorem readParameters_again {v o : Val} (h : readParameters v = .ok o) : readParameters o = .ok o := by
  unfold readParameters at h
  split at h
  · cases h; rfl
  · simp only [bind_eq_ok, pure_eq_ok, Except.ok.injEq] at h
    obtain ⟨vol, -, _, -, _, -, _, -, rfl⟩ := h
    rfl

/-! ## Lists kept by index -/

/-- No two keys of the list are equal. -/
def IdxOk (l : List (Val × Dict)) : Prop := l.Pairwise (fun p q => p.1.keyEq q.1 = false)

theorem mem_setIdx {l : List (Val × Dict)} {k : Val} {f : Dict} {p : Val × Dict} (h : p ∈ setIdx l k f) :
    (p.1 = k ∨ ∃ q ∈ l, p.1 = q.1) ∧ (p.2 = f ∨ p ∈ l) := by
  induction l with
  | nil =>
    unfold setIdx at h
    cases List.mem_singleton.1 h
    exact ⟨.inl rfl, .inl rfl⟩
  | cons q l ih =>
    obtain ⟨k', f'⟩ := q
    unfold setIdx at h
    split at h
    · rcases List.mem_cons.1 h with rfl | h
      · exact ⟨.inr ⟨_, List.mem_cons_self .., rfl⟩, .inl rfl⟩
      · exact ⟨.inr ⟨_, List.mem_cons_of_mem _ h, rfl⟩, .inr (List.mem_cons_of_mem _ h)⟩
    · rcases List.mem_cons.1 h with rfl | h
      · exact ⟨.inr ⟨_, List.mem_cons_self .., rfl⟩, .inr (List.mem_cons_self ..)⟩
      · obtain ⟨h1, h2⟩ := ih h
        refine ⟨?_, ?_⟩
        · rcases h1 with h1 | ⟨q, hq, h1⟩
          · exact .inl h1
          · exact .inr ⟨q, List.mem_cons_of_mem _ hq, h1⟩
        · rcases h2 with h2 | h2
          · exact .inl h2
          · exact .inr (List.mem_cons_of_mem _ h2)

theorem setIdx_ok {l : List (Val × Dict)} (hl : IdxOk l) (k : Val) (f : Dict) : IdxOk (setIdx l k f) := by
  unfold IdxOk at *
  induction l with
  | nil => unfold setIdx; exact List.pairwise_singleton _ _
  | cons q l ih =>
    obtain ⟨k', f'⟩ := q
    rw [List.pairwise_cons] at hl
    unfold setIdx
    split
    · rw [List.pairwise_cons]
      exact hl
    · next hne =>
      rw [List.pairwise_cons]
      refine ⟨?_, ih hl.2⟩
      intro p hp
      rcases (mem_setIdx hp).1 with h | ⟨q, hq, h⟩
      · rw [h]; exact Bool.eq_false_iff.2 hne
      · rw [h]; exact hl.1 q hq

theorem setIdx_append {l : List (Val × Dict)} {k : Val} {f : Dict} (h : ∀ p ∈ l, p.1.keyEq k = false) :
    setIdx l k f = l ++ [(k, f)] := by
  induction l with
  | nil => rfl
  | cons q l ih =>
    obtain ⟨k', f'⟩ := q
    unfold setIdx
    rw [if_neg (by rw [h (k', f') (List.mem_cons_self ..)]; decide), ih (fun p hp => h p (List.mem_cons_of_mem _ hp))]
    rfl

/-- Reading a list by index: what is stored is a list with distinct keys, made of accepted entries. -/
theorem foldIdx_ok {step : Val → Except Exc (Val × Dict)} {fs : List Val} {acc l : List (Val × Dict)}
    {K : Val → Prop} {Q : Dict → Prop} (hP : ∀ f p, step f = .ok p → K p.1 ∧ Q p.2)
    (h : fs.foldlM (fun acc f => do let p ← step f; return setIdx acc p.1 p.2) acc = .ok l)
    (ha : IdxOk acc ∧ ∀ p ∈ acc, K p.1 ∧ Q p.2) : IdxOk l ∧ ∀ p ∈ l, K p.1 ∧ Q p.2 := by
  induction fs generalizing acc with
  | nil => cases h; exact ha
  | cons f fs ih =>
    rw [List.foldlM_cons, bind_eq_ok] at h
    obtain ⟨acc', h', h⟩ := h
    simp only [bind_eq_ok, pure_eq_ok, Except.ok.injEq] at h'
    obtain ⟨p, hp, rfl⟩ := h'
    refine ih h ⟨setIdx_ok ha.1 _ _, ?_⟩
    intro q hq
    obtain ⟨h1, h2⟩ := mem_setIdx hq
    refine ⟨?_, ?_⟩
    · rcases h1 with h1 | ⟨u, hu, h1⟩
      · rw [h1]; exact (hP f p hp).1
      · rw [h1]; exact (ha.2 u hu).1
    · rcases h2 with h2 | h2
      · rw [h2]; exact (hP f p hp).2
      · exact (ha.2 q h2).2

/-- Reading such a list again gives it back. -/
theorem foldIdx_again {step : Val → Except Exc (Val × Dict)} {l acc : List (Val × Dict)}
    (hs : ∀ p ∈ l, step (.dict (("index", p.1) :: p.2)) = .ok p) (hl : IdxOk (acc ++ l)) :
    (l.map (fun p => Val.dict (("index", p.1) :: p.2))).foldlM
      (fun acc f => do let p ← step f; return setIdx acc p.1 p.2) acc = .ok (acc ++ l) := by
  induction l generalizing acc with
  | nil => rw [List.append_nil]; rfl
  | cons p l ih =>
    have hsplit := List.pairwise_append.1 hl
    have hset : setIdx acc p.1 p.2 = acc ++ [p] :=
      setIdx_append (fun q hq => hsplit.2.2 q hq p (List.mem_cons_self ..))
    have := ih (acc := acc ++ [p]) (fun q hq => hs q (List.mem_cons_of_mem _ hq))
      (by rw [List.append_assoc]; exact hl)
    rw [List.map_cons, List.foldlM_cons, hs p (List.mem_cons_self ..), ok_bind, hset]
    rw [List.append_assoc] at this
    exact this

theorem readCargo_eq {env : Env} {v : Val} (hv : v ≠ .none) : readCargo env v = (do
    let d ← v.asDict
    let fs ← (Dict.getD d "filters" (.list [])).iter
    let l ← fs.foldlM (fun acc f => do let p ← cargoStep env f; return setIdx acc p.1 p.2) []
    return [("inventory_bar", Dict.getD d "bar" .none), ("inventory_filters", idxJson l)]) := by
  unfold readCargo
  split
  · exact absurd rfl hv
  · congr 1
    funext d
    congr 1
    funext fs
    congr 2
    funext acc f
    unfold cargoStep
    cases f.subscript "name" with
    | error e => rfl
    | ok nm =>
      simp only [ok_bind]
      cases nameStr env nm with
      | error e => rfl
      | ok n =>
        cases f.subscript "index" with
        | error e => rfl
        | ok i => cases h : i.hashable <;> simp [h]

theorem readInfinity_eq (env : Env) (v : Val) : readInfinity env v = (do
    let r ← v.subscript "remove_unfiltered_items"
    let fs ← iterOrNone (← v.subscript "filters")
    let l ← fs.foldlM (fun acc f => do let p ← infinityStep env f; return setIdx acc p.1 p.2) []
    return [("infinity_settings_remove_unfiltered_items", .bool r.truthy),
            ("infinity_settings_filters", idxJson l)]) := by
  unfold readInfinity
  congr 1
  funext r
  congr 1
  funext fv
  congr 1
  funext fs
  congr 2
  funext acc f
  unfold infinityStep
  cases f.subscript "mode" with
  | error e => rfl
  | ok m =>
    simp only [ok_bind]
    cases hm : (m == .str "at-least" || m == .str "at-most" || m == .str "exactly") with
    | false => simp
    | true =>
      simp only [Bool.not_true, Bool.false_eq_true, if_false]
      cases f.subscript "count" with
      | error e => rfl
      | ok c =>
        cases f.subscript "name" with
        | error e => rfl
        | ok nm =>
          simp only [ok_bind]
          cases nameStr env nm with
          | error e => rfl
          | ok n =>
            cases f.subscript "index" with
            | error e => rfl
            | ok i => cases h : i.hashable <;> simp [h]

theorem readRequestFilters_eq (env : Env) (v : Val) : readRequestFilters env v = (do
    let fs ← iterOrNone v
    let l ← fs.foldlM (fun acc f => do let p ← requestStep env f; return setIdx acc p.1 p.2) []
    return idxJson l) := by
  unfold readRequestFilters
  congr 1
  funext fs
  congr 2
  funext acc f
  unfold requestStep
  cases f.subscript "name" with
  | error e => rfl
  | ok nm =>
    simp only [ok_bind]
    cases nameStr env nm with
    | error e => rfl
    | ok n =>
      cases f.subscript "count" with
      | error e => rfl
      | ok cv =>
        simp only [ok_bind]
        cases pyInt cv with
        | error e => rfl
        | ok c =>
          cases f.subscript "index" with
          | error e => rfl
          | ok i => cases h : i.hashable <;> simp [h]

theorem cargoStep_ok {env : Env} {f : Val} {p : Val × Dict} (h : cargoStep env f = .ok p) :
    p.1.hashable = true ∧ ∃ n, nameStr env n = .ok n ∧ p.2 = [("name", n)] := by
  unfold cargoStep at h
  simp only [bind_eq_ok] at h
  obtain ⟨nm, -, n, hn, i, -, h⟩ := h
  split at h
  · cases h
  · next hi =>
    cases h
    exact ⟨by simpa using hi, n, nameStr_again hn, rfl⟩

theorem infinityStep_ok {env : Env} {f : Val} {p : Val × Dict} (h : infinityStep env f = .ok p) :
    p.1.hashable = true ∧ ∃ c m n, (m == .str "at-least" || m == .str "at-most" || m == .str "exactly") = true ∧
      nameStr env n = .ok n ∧ p.2 = [("count", c), ("mode", m), ("name", n)] := by
  unfold infinityStep at h
  simp only [bind_eq_ok] at h
  obtain ⟨m, -, h⟩ := h
  split at h
  · cases h
  · next hm =>
    simp only [bind_eq_ok] at h
    obtain ⟨c, -, nm, -, n, hn, i, -, h⟩ := h
    split at h
    · cases h
    · next hi =>
      cases h
      exact ⟨by simpa using hi, c, m, n, by simpa only [Bool.not_eq_true', Bool.not_eq_false] using hm, nameStr_again hn, rfl⟩

theorem requestStep_ok {env : Env} {f : Val} {p : Val × Dict} (h : requestStep env f = .ok p) :
    p.1.hashable = true ∧ ∃ n c, nameStr env n = .ok n ∧ p.2 = [("name", n), ("count", .int c)] := by
  unfold requestStep at h
  simp only [bind_eq_ok] at h
  obtain ⟨nm, -, n, hn, cv, -, c, -, i, -, h⟩ := h
  split at h
  · cases h
  · next hi =>
    cases h
    exact ⟨by simpa using hi, n, c, nameStr_again hn, rfl⟩

theorem cargoStep_again {env : Env} {p : Val × Dict}
    (h : p.1.hashable = true ∧ ∃ n, nameStr env n = .ok n ∧ p.2 = [("name", n)]) :
    cargoStep env (.dict (("index", p.1) :: p.2)) = .ok p := by
  obtain ⟨i, d⟩ := p
  obtain ⟨hi, n, hn, rfl⟩ := h
  dsimp only at hi
  unfold cargoStep
  rw [show (Val.dict [("index", i), ("name", n)]).subscript "name" = .ok n from rfl,
    show (Val.dict [("index", i), ("name", n)]).subscript "index" = .ok i from rfl]
  simp only [ok_bind, hn, hi]
  rfl

theorem infinityStep_again {env : Env} {p : Val × Dict}
    (h : p.1.hashable = true ∧ ∃ c m n, (m == .str "at-least" || m == .str "at-most" || m == .str "exactly") = true ∧
      nameStr env n = .ok n ∧ p.2 = [("count", c), ("mode", m), ("name", n)]) :
    infinityStep env (.dict (("index", p.1) :: p.2)) = .ok p := by
  obtain ⟨i, d⟩ := p
  obtain ⟨hi, c, m, n, hm, hn, rfl⟩ := h
  dsimp only at hi
  unfold infinityStep
  dsimp only
  have e : ∀ k, (Val.dict [("index", i), ("count", c), ("mode", m), ("name", n)]).subscript k =
    Dict.getItem [("index", i), ("count", c), ("mode", m), ("name", n)] k := fun _ => rfl
  rw [e, e, e, e, show Dict.getItem [("index", i), ("count", c), ("mode", m), ("name", n)] "mode" = .ok m from rfl,
    show Dict.getItem [("index", i), ("count", c), ("mode", m), ("name", n)] "count" = .ok c from rfl,
    show Dict.getItem [("index", i), ("count", c), ("mode", m), ("name", n)] "name" = .ok n from rfl,
    show Dict.getItem [("index", i), ("count", c), ("mode", m), ("name", n)] "index" = .ok i from rfl]
  simp only [ok_bind, hn, hi, hm]
  rfl

theorem requestStep_again {env : Env} {p : Val × Dict}
    (h : p.1.hashable = true ∧ ∃ n c, nameStr env n = .ok n ∧ p.2 = [("name", n), ("count", .int c)]) :
    requestStep env (.dict (("index", p.1) :: p.2)) = .ok p := by
  obtain ⟨i, d⟩ := p
  obtain ⟨hi, n, c, hn, rfl⟩ := h
  dsimp only at hi
  unfold requestStep
  dsimp only
  have e : ∀ k, (Val.dict [("index", i), ("name", n), ("count", .int c)]).subscript k =
    Dict.getItem [("index", i), ("name", n), ("count", .int c)] k := fun _ => rfl
  rw [e, e, e, show Dict.getItem [("index", i), ("name", n), ("count", .int c)] "count" = .ok (.int c) from rfl,
    show Dict.getItem [("index", i), ("name", n), ("count", .int c)] "name" = .ok n from rfl,
    show Dict.getItem [("index", i), ("name", n), ("count", .int c)] "index" = .ok i from rfl]
  simp only [ok_bind, hn, hi]
  rfl

/-- A stored index list: reading it again gives it back. -/
theorem idxJson_again {step : Val → Except Exc (Val × Dict)} {fs : List Val} {l : List (Val × Dict)}
    {K : Val → Prop} {Q : Dict → Prop} (hP : ∀ f p, step f = .ok p → K p.1 ∧ Q p.2)
    (hA : ∀ p : Val × Dict, K p.1 ∧ Q p.2 → step (.dict (("index", p.1) :: p.2)) = .ok p)
    (h : fs.foldlM (fun acc f => do let p ← step f; return setIdx acc p.1 p.2) [] = .ok l) :
    (l.map (fun p => Val.dict (("index", p.1) :: p.2))).foldlM
      (fun acc f => do let p ← step f; return setIdx acc p.1 p.2) [] = .ok l := by
  obtain ⟨h1, h2⟩ := foldIdx_ok hP h ⟨List.Pairwise.nil, by intro p hp; cases hp⟩
  exact foldIdx_again (acc := []) (fun p hp => hA p (h2 p hp)) h1

/-! ## One mixin -/

theorem mxEmit_congr {env : Env} {m : Mx} {a a' : Kw} {dir dir' : Direction} (hm : m ≠ .Rotatable)
    (h : ∀ k ∈ mxAttrs m, a k = a' k) : mxEmit env m a dir = mxEmit env m a' dir' := by
  cases m <;> simp only [mxAttrs, mxKeys, List.mem_cons, List.not_mem_nil, or_false, forall_eq_or_imp,
    forall_eq] at h <;> first | (simp only [mxEmit, attr, Kw.orNone, h]; done) | exact absurd rfl hm

/-- The attributes `a` of mixin `m` are those some constructor call sets. -/
def Made (env : Env) (sh : Bool) (m : Mx) (a : Kw) : Prop :=
  ∃ g w, mxRead env true sh m g = .ok w ∧ ∀ k ∈ mxAttrs m, a k = Dict.get? w k

/-- The names of the exported filters of a filter inserter are in the table. -/
def KnownFilters (env : Env) (out : Dict) : Prop :=
  ∀ fs, Dict.get? out "filters" = some (.list fs) → ∀ f ∈ fs, ∀ s, f.subscript "name" = .ok (.str s) →
    s ≠ "" → Dict.mem env.signals s = true

/-- What the mixin wrote is accepted, and exported identically. -/
def Trips (env : Env) (sh : Bool) (m : Mx) (out : Dict) : Prop :=
  ∃ w, mxRead env true sh m (Dict.get? out) = .ok w ∧
    ∀ a dir, (∀ k ∈ mxAttrs m, a k = Dict.get? w k) → mxEmit env m a dir = .ok out

theorem attr_ok {a : Kw} {k : String} {v : Val} : attr a k = .ok v ↔ a k = some v := by
  unfold attr
  cases a k <;> simp

/-- Same attributes again. -/
theorem trips_same {env : Env} {sh : Bool} {m : Mx} {a : Kw} {w out : Dict} {dir : Direction} (hm : m ≠ .Rotatable)
    (ha : ∀ k ∈ mxAttrs m, a k = Dict.get? w k) (he : mxEmit env m a dir = .ok out)
    (hr : mxRead env true sh m (Dict.get? out) = .ok w) : Trips env sh m out :=
  ⟨w, hr, fun a' dir' h' => by
    rw [mxEmit_congr (a' := a) (dir' := dir) hm (fun k hk => (h' k hk).trans (ha k hk).symm)]; exact he⟩

theorem trips_items {env : Env} {sh : Bool} {a : Kw} {out : Dict} {dir : Direction} (h : Made env sh .Items a)
    (he : mxEmit env .Items a dir = .ok out) : Trips env sh .Items out := by
  obtain ⟨g, w, hr, ha⟩ := h
  refine trips_same (by decide) ha he ?_
  have h0 := ha "items" (by decide)
  simp only [mxRead, readItems, bind_eq_ok, pure_eq_ok, Except.ok.injEq] at hr
  obtain ⟨d, -, d', hd, rfl⟩ := hr
  have hd' : d'.mapM (fun p => do
    let s ← signalSet env (.str p.1)
    match signalGet s with
    | .str s => return (s, p.2)
    | _ => throw .unmodelled) = (.ok d' : Except Exc Dict) := by
    clear ha h0 he
    induction d generalizing d' with
    | nil => cases hd; rfl
    | cons q d ih =>
      rw [List.mapM_cons] at hd
      simp only [bind_eq_ok, pure_eq_ok, Except.ok.injEq] at hd
      obtain ⟨q', ⟨s, hs, hq⟩, d'', hd, rfl⟩ := hd
      rw [List.mapM_cons, ih _ hd]
      have key : ∃ t, s = .str t ∧ q' = (t, q.2) ∧ signalSet env (.str t) = .ok (.str t) := by
        have hs' := hs
        unfold signalSet at hs
        dsimp only at hs
        split at hs
        · rw [bind_eq_ok] at hs
          obtain ⟨b, -, hs⟩ := hs
          split at hs
          · cases hs
            cases hq
            exact ⟨_, rfl, rfl, hs'⟩
          · cases hs
        · cases hs
          cases hq
          exact ⟨_, rfl, rfl, hs'⟩
      obtain ⟨t, rfl, rfl, ht⟩ := key
      simp only [ht, ok_bind, signalGet, pure_eq_ok]
  simp only [mxEmit, bind_eq_ok, pure_eq_ok, Except.ok.injEq, attr_ok] at he
  obtain ⟨v, hv, rfl⟩ := he
  rw [hv] at h0
  cases h0
  show readItems env _ = _
  by_cases ht : (Val.dict d').truthy = true
  · rw [if_pos ht]
    show readItems env (.dict d') = _
    unfold readItems
    simp only [Val.asDict, ok_bind]
    exact congrArg (fun x : Except Exc Dict => x >>= fun d => pure [("items", Val.dict d)]) hd'
  · rw [if_neg ht]
    have : d' = [] := by simpa [Val.truthy] using ht
    subst this
    rfl

theorem trips_speaker {env : Env} {sh : Bool} {a : Kw} {out : Dict} {dir : Direction} (h : Made env sh .Speaker a)
    (he : mxEmit env .Speaker a dir = .ok out) : Trips env sh .Speaker out := by
  obtain ⟨g, w, hr, ha⟩ := h
  refine trips_same (by decide) ha he ?_
  simp only [mxRead, bind_eq_ok, pure_eq_ok, Except.ok.injEq] at hr
  obtain ⟨p, hp, al, hal, rfl⟩ := hr
  have h0 : a "parameters" = some p := (ha "parameters" (by decide)).trans rfl
  have h1 : a "alert_parameters" = some al := (ha "alert_parameters" (by decide)).trans rfl
  simp only [mxEmit, bind_eq_ok, pure_eq_ok, Except.ok.injEq, attr_ok, h0, h1, Option.some.injEq,
    exists_eq_left'] at he
  obtain ⟨aj, haj, rfl⟩ := he
  have hp' : Kw.orNone (Dict.get? (objSet "parameters" p ++ aj)) "parameters" = p := by
    unfold Kw.orNone Dict.get?
    rw [lookup_append, lookup_objSet, if_pos rfl]
    split
    · next hn =>
      subst hn
      have : List.lookup "parameters" aj = none := by
        unfold alertJson at haj
        split at haj
        · cases haj; rfl
        · simp only [bind_eq_ok, pure_eq_ok, Except.ok.injEq] at haj
          obtain ⟨_, -, _, -, _, -, _, -, _, -, rfl⟩ := haj
          rfl
      rw [this]; rfl
    · rfl
  have ha' : readAlert env (Kw.orNone (Dict.get? (objSet "parameters" p ++ aj)) "alert_parameters") = .ok al := by
    have hl : Kw.orNone (Dict.get? (objSet "parameters" p ++ aj)) "alert_parameters" =
        (List.lookup "alert_parameters" aj).getD .none := by
      unfold Kw.orNone Dict.get?
      rw [lookup_append, lookup_objSet, if_neg (by decide)]
      rfl
    rw [hl]
    unfold readAlert at hal
    split at hal
    · cases hal
      cases haj
      rfl
    · simp only [bind_eq_ok, pure_eq_ok, Except.ok.injEq] at hal
      obtain ⟨sa, -, sm, -, d, -, icon, -, n, hn, msg, -, rfl⟩ := hal
      have hn' := nameStr_again hn
      simp only [alertJson, bind_eq_ok, pure_eq_ok, Except.ok.injEq] at haj
      obtain ⟨sa', hsa, sm', hsm, msg', hmsg, icon', hicon, ex, hex, rfl⟩ := haj
      cases hsa; cases hsm; cases hmsg; cases hicon
      unfold alertIcon at hex
      split at hex
      · cases hex
        rfl
      · next s =>
        simp only [bind_eq_ok, pure_eq_ok, Except.ok.injEq] at hex
        obtain ⟨t, -, rfl⟩ := hex
        show (do
          let n ← nameStr env (.str s)
          return Val.dict [("show_alert", .bool sa.truthy), ("show_on_map", .bool sm.truthy),
            ("icon_signal_id", n), ("alert_message", msg)]) = _
        rw [hn']
        rfl
      · cases hex
  simp only [mxRead, hp', ha', readParameters_again hp, ok_bind, pure_eq_ok]

theorem mapM_length {α β : Type} {f : α → Except Exc β} {l : List α} {l' : List β} (h : l.mapM f = .ok l') :
    l'.length = l.length := by
  induction l generalizing l' with
  | nil => cases h; rfl
  | cons x l ih =>
    rw [List.mapM_cons] at h
    simp only [bind_eq_ok, pure_eq_ok, Except.ok.injEq] at h
    obtain ⟨_, -, l'', h, rfl⟩ := h
    rw [List.length_cons, List.length_cons, ih h]

theorem iter_list (l : List Val) : (Val.list l).iter = .ok l := rfl

theorem trips_cargo {env : Env} {sh : Bool} {a : Kw} {out : Dict} {dir : Direction} (h : Made env sh .Cargo a)
    (he : mxEmit env .Cargo a dir = .ok out) : Trips env sh .Cargo out := by
  obtain ⟨g, w, hr, ha⟩ := h
  refine trips_same (by decide) ha he ?_
  have key : ∃ bar l, w = [("inventory_bar", bar), ("inventory_filters", idxJson l)] ∧
      (l.map (fun p => Val.dict (("index", p.1) :: p.2))).foldlM
        (fun acc f => do let p ← cargoStep env f; return setIdx acc p.1 p.2) [] = .ok l := by
    change readCargo env _ = _ at hr
    by_cases hv : g.orNone "inventory" = .none
    · rw [hv] at hr
      cases hr
      exact ⟨.none, [], rfl, rfl⟩
    · rw [readCargo_eq hv] at hr
      simp only [bind_eq_ok, pure_eq_ok, Except.ok.injEq] at hr
      obtain ⟨d, -, fs, -, l, hl, rfl⟩ := hr
      exact ⟨_, l, rfl, idxJson_again (K := fun i => i.hashable = true)
        (Q := fun d => ∃ n, nameStr env n = .ok n ∧ d = [("name", n)])
        (fun f p h => cargoStep_ok h) (fun p h => cargoStep_again h) hl⟩
  obtain ⟨bar, l, rfl, hl⟩ := key
  have h0 : a "inventory_bar" = some bar := (ha "inventory_bar" (by decide)).trans rfl
  have h1 : a "inventory_filters" = some (idxJson l) := (ha "inventory_filters" (by decide)).trans rfl
  simp only [mxEmit, bind_eq_ok, pure_eq_ok, Except.ok.injEq, attr_ok, h0, h1, Option.some.injEq,
    exists_eq_left'] at he
  subst he
  show readCargo env (Kw.orNone (Dict.get? (objSet "inventory" (cargoInventory bar (idxJson l)))) "inventory") = _
  rw [orNone_objSet]
  unfold cargoInventory
  have ht : (idxJson l).truthy = !l.isEmpty := by cases l <;> rfl
  cases l with
  | nil =>
    by_cases hb : bar = .none
    · rw [if_pos ⟨hb, ht⟩, hb]; rfl
    · rw [if_neg (fun h => hb h.1), readCargo_eq (by intro h; cases h)]
      have : objSet "bar" bar = [("bar", bar)] := by
        cases bar <;> first | rfl | exact absurd rfl hb
      rw [this]
      rfl
  | cons q l =>
    rw [if_neg (fun h => by rw [ht] at h; simp at h), if_pos (show _ = true from ht), readCargo_eq (by intro h; cases h)]
    have e1 : Dict.getD (objSet "bar" bar ++ [("filters", idxJson (q :: l))]) "filters" (.list []) = idxJson (q :: l) := by
      unfold Dict.getD Dict.get?
      rw [lookup_append, lookup_objSet, if_neg (by decide)]
      rfl
    have e2 : Dict.getD (objSet "bar" bar ++ [("filters", idxJson (q :: l))]) "bar" .none = bar := by
      unfold Dict.getD Dict.get?
      rw [lookup_append, lookup_objSet, if_pos rfl]
      split
      · next hb => rw [hb]; rfl
      · rfl
    simp only [Val.asDict, ok_bind, e1, e2]
    rw [idxJson, iter_list, ok_bind, hl]
    rfl

theorem trips_infinity {env : Env} {sh : Bool} {a : Kw} {out : Dict} {dir : Direction}
    (h : Made env sh .InfinityContainer a) (he : mxEmit env .InfinityContainer a dir = .ok out) :
    Trips env sh .InfinityContainer out := by
  obtain ⟨g, w, hr, ha⟩ := h
  refine trips_same (by decide) ha he ?_
  change readInfinity env _ = _ at hr
  rw [readInfinity_eq] at hr
  simp only [bind_eq_ok, pure_eq_ok, Except.ok.injEq] at hr
  obtain ⟨r, -, fv, -, fs, -, l, hl, rfl⟩ := hr
  have hl' := idxJson_again (K := fun i => i.hashable = true)
    (Q := fun d => ∃ c m n, (m == Val.str "at-least" || m == .str "at-most" || m == .str "exactly") = true ∧
      nameStr env n = .ok n ∧ d = [("count", c), ("mode", m), ("name", n)])
    (fun f p h => infinityStep_ok h) (fun p h => infinityStep_again h) hl
  have h0 := (ha "infinity_settings_remove_unfiltered_items" (by decide)).trans
    (show _ = some (.bool r.truthy) from rfl)
  have h1 := (ha "infinity_settings_filters" (by decide)).trans (show _ = some (idxJson l) from rfl)
  simp only [mxEmit, bind_eq_ok, pure_eq_ok, Except.ok.injEq, attr_ok, h0, h1, Option.some.injEq,
    exists_eq_left'] at he
  subst he
  show readInfinity env (.dict [("remove_unfiltered_items", .bool r.truthy), ("filters", idxJson l)]) = _
  rw [readInfinity_eq]
  show (do
    let l ← (l.map (fun p : Val × Dict => Val.dict (("index", p.1) :: p.2))).foldlM
      (fun acc f => do let p ← infinityStep env f; return setIdx acc p.1 p.2) []
    return [("infinity_settings_remove_unfiltered_items", Val.bool (Val.bool r.truthy).truthy),
            ("infinity_settings_filters", idxJson l)]) = _
  rw [hl']
  rfl

theorem trips_requester {env : Env} {sh : Bool} {a : Kw} {out : Dict} {dir : Direction}
    (h : Made env sh .Requester a) (he : mxEmit env .Requester a dir = .ok out) :
    Trips env sh .Requester out := by
  obtain ⟨g, w, hr, ha⟩ := h
  simp only [mxRead, readRequestFilters_eq, bind_eq_ok, pure_eq_ok, Except.ok.injEq] at hr
  obtain ⟨li, ⟨fs, -, l, hl, rfl⟩, rfl⟩ := hr
  have hl' := idxJson_again (K := fun i => i.hashable = true)
    (Q := fun d => ∃ n c, nameStr env n = .ok n ∧ d = [("name", n), ("count", .int c)])
    (fun f p h => requestStep_ok h) (fun p h => requestStep_again h) hl
  generalize (g "request_from_buffers").getD (.bool false) = b at ha
  have h0 := (ha "request_from_buffers" (by decide)).trans (show _ = some b from rfl)
  have h1 := (ha "request_filters" (by decide)).trans (show _ = some (idxJson l) from rfl)
  simp only [mxEmit, bind_eq_ok, pure_eq_ok, Except.ok.injEq, attr_ok, h0, h1, Option.some.injEq,
    exists_eq_left'] at he
  have hf : readRequestFilters env (Kw.orNone (Dict.get? out) "request_filters") = .ok (idxJson l) := by
    have : Kw.orNone (Dict.get? out) "request_filters" =
        (List.lookup "request_filters" (if (idxJson l).truthy then [("request_filters", idxJson l)] else [])).getD .none := by
      rw [← he]
      unfold Kw.orNone Dict.get?
      rw [lookup_append]
      split <;> rfl
    rw [this, readRequestFilters_eq]
    cases l with
    | nil => rfl
    | cons q l =>
      show (do
        let l ← ((q :: l).map (fun p : Val × Dict => Val.dict (("index", p.1) :: p.2))).foldlM
          (fun acc f => do let p ← requestStep env f; return setIdx acc p.1 p.2) []
        return idxJson l) = _
      rw [hl']
      rfl
  have hb : (Dict.get? out "request_from_buffers").getD (.bool false) = if b.truthy then b else .bool false := by
    rw [← he]
    unfold Dict.get?
    rw [lookup_append]
    split
    · rfl
    · split <;> rfl
  refine ⟨[("request_from_buffers", if b.truthy then b else .bool false), ("request_filters", idxJson l)], ?_, ?_⟩
  · simp only [mxRead, hf, hb, ok_bind, pure_eq_ok]
  · intro a' dir' h'
    have h0' := (h' "request_from_buffers" (by decide)).trans
      (show _ = some (if b.truthy then b else .bool false) from rfl)
    have h1' := (h' "request_filters" (by decide)).trans (show _ = some (idxJson l) from rfl)
    simp only [mxEmit, attr, h0', h1', ok_bind, pure_eq_ok]
    rw [← he]
    by_cases hb : b.truthy = true
    · simp only [hb, if_true]
    · rw [if_neg hb, if_neg hb]; rfl

theorem trips_filters {env : Env} {sh : Bool} {a : Kw} {out : Dict} {dir : Direction}
    (h : Made env sh .FilterInserter a) (he : mxEmit env .FilterInserter a dir = .ok out)
    (hk : KnownFilters env out) : Trips env sh .FilterInserter out := by
  obtain ⟨g, w, hr, ha⟩ := h
  refine trips_same (by decide) ha he ?_
  simp only [mxRead, bind_eq_ok] at hr
  obtain ⟨fs, -, hr⟩ := hr
  split at hr
  · cases hr
  next hsh =>
  simp only [bind_eq_ok, pure_eq_ok, Except.ok.injEq] at hr
  obtain ⟨l, hl, mode, hmode, rfl⟩ := hr
  have h0 := (ha "filters" (by decide)).trans (show _ = some (.list l) from rfl)
  have h1 := (ha "filter_mode" (by decide)).trans (show _ = some mode from rfl)
  simp only [mxEmit, bind_eq_ok, pure_eq_ok, Except.ok.injEq, attr_ok, h0, h1, Option.some.injEq,
    exists_eq_left'] at he
  have hlen : l.length = fs.length := mapM_length hl
  have e1 : Kw.orNone (Dict.get? out) "filter_mode" = mode := by
    rw [← he]
    unfold Kw.orNone Dict.get?
    rw [lookup_append, lookup_objSet, if_pos rfl]
    split
    · next hb => subst hb; cases l <;> rfl
    · rfl
  have e2 : iterOrNone (Kw.orNone (Dict.get? out) "filters") = .ok l := by
    rw [← he]
    unfold Kw.orNone Dict.get?
    rw [lookup_append, lookup_objSet, if_neg (by decide)]
    cases l <;> rfl
  have e3 : l.mapM (readInsFilter env) = .ok l := by
    have hk' : ∀ f ∈ l, ∀ s, f.subscript "name" = .ok (.str s) → s ≠ "" → Dict.mem env.signals s = true := by
      intro f hf
      refine hk l ?_ f hf
      rw [← he]
      unfold Dict.get?
      rw [lookup_append, lookup_objSet, if_neg (by decide)]
      cases l with
      | nil => cases hf
      | cons => rfl
    clear h0 h1 he e1 e2 hlen ha hsh
    induction fs generalizing l with
    | nil => cases hl; rfl
    | cons f fs ih =>
      rw [List.mapM_cons] at hl
      simp only [bind_eq_ok, pure_eq_ok, Except.ok.injEq] at hl
      obtain ⟨x, hx, l', hl', rfl⟩ := hl
      rw [List.mapM_cons, ih l' hl' (fun f hf => hk' f (List.mem_cons_of_mem _ hf))]
      have : readInsFilter env x = .ok x := by
        have hkx := hk' x (List.mem_cons_self ..)
        unfold readInsFilter at hx
        simp only [bind_eq_ok] at hx
        obtain ⟨d, -, hx⟩ := hx
        split at hx
        · cases hx
        simp only [bind_eq_ok] at hx
        obtain ⟨s, hs, hx⟩ := hx
        split at hx
        · cases hx
        · cases hx
          have hn : ∃ s', signalSet env (signalGet s) = .ok s' ∧ signalGet s' = signalGet s := by
            cases hsg : signalGet s with
            | none => exact ⟨.none, rfl, rfl⟩
            | num n =>
              cases n with
              | int z => exact ⟨.int z, rfl, rfl⟩
              | flt q => cases s with
                | num n => cases n <;> cases hsg
                | _ => cases hsg
            | str t =>
              refine ⟨.str t, ?_, rfl⟩
              by_cases ht : t = ""
              · subst ht; rfl
              · have := hkx t (by show Except.ok _ = _; rw [hsg]) ht
                unfold signalSet
                simp [Val.truthy, ht, inTable, this]
            | bool b => cases s with
                | num n => cases n <;> cases hsg
                | _ => cases hsg
            | list b => cases s with
                | num n => cases n <;> cases hsg
                | _ => cases hsg
            | dict b => cases s with
                | num n => cases n <;> cases hsg
                | _ => cases hsg
          obtain ⟨s', hs', hg⟩ := hn
          show (do
            let s ← signalSet env (signalGet s)
            return Val.dict [("index", Dict.getD d "index" .none), ("name", signalGet s)]) = _
          rw [hs']
          show Except.ok (Val.dict [("index", Dict.getD d "index" .none), ("name", signalGet s')]) = _
          rw [hg]
      rw [this]
      rfl
  have hsh' : (sh && !l.isEmpty) = false := by
    cases sh with
    | false => rfl
    | true =>
      cases fs with
      | nil => cases l with
        | nil => rfl
        | cons => simp at hlen
      | cons => exact absurd rfl hsh
  simp only [mxRead, e1, e2, e3, ok_bind, hsh', readChoice_again hmode, pure_eq_ok]
  rfl

theorem trips {env : Env} {sh : Bool} {m : Mx} {a : Kw} {out : Dict} {dir : Direction} (hm : m ≠ .Rotatable)
    (h : Made env sh m a) (he : mxEmit env m a dir = .ok out)
    (hk : m = .FilterInserter → KnownFilters env out) : Trips env sh m out := by
  cases m
  case Items => exact trips_items h he
  case Cargo => exact trips_cargo h he
  case Speaker => exact trips_speaker h he
  case InfinityContainer => exact trips_infinity h he
  case Requester => exact trips_requester h he
  case FilterInserter => exact trips_filters h he (hk rfl)
  case Rotatable => exact absurd rfl hm
  case Train =>
    obtain ⟨g, w, hr, ha⟩ := h
    simp only [mxRead, bind_eq_ok, pure_eq_ok, Except.ok.injEq] at hr
    obtain ⟨v, hv, rfl⟩ := hr
    have h0 := (ha "orientation" (by decide)).trans (show _ = some v from rfl)
    refine trips_same hm ha he ?_
    simp only [mxEmit, bind_eq_ok, pure_eq_ok, Except.ok.injEq, attr_ok, h0, Option.some.injEq, exists_eq_left'] at he
    subst he
    simp only [mxRead, orNone_objSet, orientationSet_again hv, ok_bind, pure_eq_ok]
  case Color =>
    obtain ⟨g, w, hr, ha⟩ := h
    simp only [mxRead, bind_eq_ok, pure_eq_ok, Except.ok.injEq] at hr
    obtain ⟨v, hv, rfl⟩ := hr
    have h0 := (ha "color" (by decide)).trans (show _ = some v from rfl)
    refine trips_same hm ha he ?_
    simp only [mxEmit, Kw.orNone, h0, Option.getD_some, Except.ok.injEq] at he
    subst he
    simp only [mxRead, orNone_objSet, readColor_again hv, ok_bind, pure_eq_ok]
  case Container =>
    obtain ⟨g, w, hr, ha⟩ := h
    simp only [mxRead, bind_eq_ok, pure_eq_ok, Except.ok.injEq] at hr
    obtain ⟨v, hv, rfl⟩ := hr
    have h0 := (ha "bar" (by decide)).trans (show _ = some v from rfl)
    refine trips_same hm ha he ?_
    simp only [mxEmit, bind_eq_ok, pure_eq_ok, Except.ok.injEq, attr_ok, h0, Option.some.injEq, exists_eq_left'] at he
    subst he
    simp only [mxRead, orNone_objSet, readIntOrNone_again hv, ok_bind, pure_eq_ok]
  case Inserter =>
    obtain ⟨g, w, hr, ha⟩ := h
    simp only [mxRead, bind_eq_ok, pure_eq_ok, Except.ok.injEq] at hr
    obtain ⟨o, ho, p, hp, d, hd, rfl⟩ := hr
    have h0 := (ha "override_stack_size" (by decide)).trans (show _ = some o from rfl)
    have h1 := (ha "pickup_position" (by decide)).trans (show _ = some p from rfl)
    have h2 := (ha "drop_position" (by decide)).trans (show _ = some d from rfl)
    refine trips_same hm ha he ?_
    simp only [mxEmit, bind_eq_ok, pure_eq_ok, Except.ok.injEq, attr_ok, h0, h1, h2, Option.some.injEq,
      exists_eq_left'] at he
    subst he
    simp only [mxRead, orNone_sets3 (show "override_stack_size" ≠ "pickup_position" by decide)
      (show "override_stack_size" ≠ "drop_position" by decide) (show "pickup_position" ≠ "drop_position" by decide),
      readIntOrNone_again ho, readVector_again hp, readVector_again hd, ok_bind, pure_eq_ok]
  case Recipe =>
    obtain ⟨g, w, hr, ha⟩ := h
    simp only [mxRead, bind_eq_ok, pure_eq_ok, Except.ok.injEq] at hr
    obtain ⟨v, hv, rfl⟩ := hr
    have h0 := (ha "recipe" (by decide)).trans (show _ = some v from rfl)
    refine trips_same hm ha he ?_
    simp only [mxEmit, Kw.orNone, h0, Option.getD_some, Except.ok.injEq] at he
    subst he
    simp only [mxRead, orNone_objSet, recipeSet_again hv, ok_bind, pure_eq_ok]
  case Silo =>
    obtain ⟨g, w, hr, ha⟩ := h
    simp only [mxRead, bind_eq_ok, pure_eq_ok, Except.ok.injEq] at hr
    obtain ⟨v, hv, rfl⟩ := hr
    have h0 := (ha "auto_launch" (by decide)).trans (show _ = some v from rfl)
    refine trips_same hm ha he ?_
    simp only [mxEmit, bind_eq_ok, pure_eq_ok, Except.ok.injEq, attr_ok, h0, Option.some.injEq, exists_eq_left'] at he
    subst he
    simp only [mxRead, orNone_objSet, readAutoLaunch_again hv, ok_bind, pure_eq_ok]
  case Splitter =>
    obtain ⟨g, w, hr, ha⟩ := h
    simp only [mxRead, bind_eq_ok, pure_eq_ok, Except.ok.injEq] at hr
    obtain ⟨o, ho, p, hp, d, hd, rfl⟩ := hr
    have h0 := (ha "input_priority" (by decide)).trans (show _ = some o from rfl)
    have h1 := (ha "output_priority" (by decide)).trans (show _ = some p from rfl)
    have h2 := (ha "filter" (by decide)).trans (show _ = some d from rfl)
    refine trips_same hm ha he ?_
    simp only [mxEmit, bind_eq_ok, pure_eq_ok, Except.ok.injEq, attr_ok, h0, h1, h2, Option.some.injEq,
      exists_eq_left'] at he
    subst he
    simp only [mxRead, orNone_sets3 (show "input_priority" ≠ "output_priority" by decide)
      (show "input_priority" ≠ "filter" by decide) (show "output_priority" ≠ "filter" by decide),
      readChoice_again ho, readChoice_again hp, nameStr_again hd, ok_bind, pure_eq_ok]
  case Station =>
    obtain ⟨g, w, hr, ha⟩ := h
    simp only [mxRead, Except.ok.injEq] at hr
    subst hr
    have h0 := (ha "station" (by decide)).trans (show _ = some (g.orNone "station") from rfl)
    refine trips_same hm ha he ?_
    simp only [mxEmit, bind_eq_ok, pure_eq_ok, Except.ok.injEq, attr_ok, h0, Option.some.injEq, exists_eq_left'] at he
    subst he
    simp only [mxRead, orNone_objSet]
  case Underground =>
    obtain ⟨g, w, hr, ha⟩ := h
    have key : ∃ s, w = [("type", .str s)] ∧ (s == "input" || s == "output") = true := by
      unfold mxRead at hr
      dsimp only at hr
      split at hr
      · cases hr
      · split at hr
        · next hs => cases hr; exact ⟨_, rfl, hs⟩
        · cases hr
      · cases hr
    obtain ⟨s, rfl, hs⟩ := key
    have h0 := (ha "type" (by decide)).trans (show _ = some (.str s) from rfl)
    refine trips_same hm ha he ?_
    simp only [mxEmit, bind_eq_ok, pure_eq_ok, Except.ok.injEq, attr_ok, h0, Option.some.injEq, exists_eq_left'] at he
    subst he
    show (if s == "input" || s == "output" then Except.ok [("type", Val.str s)] else .error .valueError : Except Exc Dict) = _
    rw [if_pos hs]
  case Variation =>
    obtain ⟨g, w, hr, ha⟩ := h
    simp only [mxRead, bind_eq_ok, pure_eq_ok, Except.ok.injEq] at hr
    obtain ⟨v, hv, rfl⟩ := hr
    have h0 := (ha "variation" (by decide)).trans (show _ = some v from rfl)
    refine trips_same hm ha he ?_
    simp only [mxEmit, bind_eq_ok, pure_eq_ok, Except.ok.injEq, attr_ok, h0, Option.some.injEq, exists_eq_left'] at he
    subst he
    simp only [mxRead, orNone_objSet, readVariation_again hv, ok_bind, pure_eq_ok]
  all_goals
    cases he
    exact ⟨[], rfl, fun _ _ _ => rfl⟩

end Verif
