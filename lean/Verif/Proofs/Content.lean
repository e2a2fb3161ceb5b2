import Verif.Proofs.Data
import Verif.Proofs.Export
import Verif.Proofs.Color
/-!
# Helper lemmas: icons, schedules, label and the entities after loading
-/
set_option autoImplicit false

namespace Verif
open Spec

/-! ## Exported data -/

theorem export_content {b : BpId} {w w' : World} {v : Val} {o : Dict} (h : toJson b w = (.ok v, w'))
    (hc : Content v o) : ∃ ents icons, M.mapL entToJson (w.bp b).objs w = (.ok ents, w') ∧
      iconsJson w.env 0 (w.bp b).icons = .ok icons ∧
      o = exportDict (w.bp b) ents icons ((w.bp b).schedules.map (scheduleJson w.heap)) := by
  obtain ⟨ents, icons, h1, h2, rfl⟩ := toJson_ok.1 h
  refine ⟨ents, icons, h1, h2, ?_⟩
  cases hc with
  | wrapped _ _ h => simpa [List.lookup, eq_comm] using h
  | bare _ h => simp [List.lookup] at h

/-! ## Icons -/

theorem IsIcon.unique {v : Val} {k k' : Int} {n n' : String} (h : IsIcon v k n) (h' : IsIcon v k' n') :
    k = k' ∧ n = n' := by
  obtain ⟨e, s, rfl, h1, h2, h3⟩ := h
  obtain ⟨e', s', he, h1', h2', h3'⟩ := h'
  cases he
  rw [h1] at h1'; cases h1'
  rw [h2] at h2'; cases h2'
  rw [h3] at h3'; cases h3'
  exact ⟨rfl, rfl⟩

theorem lastIcon_cons {v : Val} {l : List Val} {k : Int} {n : String} :
    LastIcon (v :: l) k n ↔
      LastIcon l k n ∨ (IsIcon v k n ∧ ∀ u ∈ l, ∀ m, ¬ IsIcon u k m) := by
  constructor
  · rintro ⟨bs, u, as, h, hi, ha⟩
    cases bs with
    | nil => cases h; exact .inr ⟨hi, ha⟩
    | cons x bs => cases h; exact .inl ⟨bs, u, as, rfl, hi, ha⟩
  · rintro (⟨bs, u, as, rfl, hi, ha⟩ | ⟨hi, ha⟩)
    · exact ⟨v :: bs, u, as, rfl, hi, ha⟩
    · exact ⟨[], v, l, rfl, hi, ha⟩

theorem signalSet_name {env : Env} {s : Dict} {n : String} {x : Val}
    (hn : List.lookup "name" s = some (.str n)) (h : signalSet env (.dict s) = .ok x) : x = .str n := by
  unfold signalSet at h
  simp only [Dict.getD, Dict.get?, hn, Option.getD_some] at h
  split at h
  · simp only [inTable, bind, Except.bind] at h
    split at h
    · cases h; rfl
    · cases h
  · cases h; rfl

theorem iconsAll_cons_icon {env : Env} {v : Val} {l : List Val} {k : Int} {n : String}
    {acc ic : List (Option Val)} (hv : IsIcon v k n) (h : iconsAll env (v :: l) acc = .ok ic) :
    ∃ acc', setPy acc (k - 1) (some (.str n)) = .ok acc' ∧ iconsAll env l acc' = .ok ic := by
  obtain ⟨e, s, rfl, h1, h2, h3⟩ := hv
  unfold iconsAll at h
  simp only [bind_eq_ok, subscript_ok] at h
  obtain ⟨_, ⟨_, he, hs⟩, x, hx, _, ⟨_, he', hi⟩, z, hz, acc', ha, h⟩ := h
  cases he; cases he'
  rw [h2] at hs; cases hs
  rw [h1] at hi; cases hi
  cases signalSet_name h3 hx
  cases hz
  exact ⟨acc', ha, h⟩

theorem setPy_in {α} {l l' : List α} {k : Int} {x : α} (hk : 1 ≤ k) (hk' : k ≤ l.length)
    (h : setPy l (k - 1) x = .ok l') : l' = l.set (k - 1).toNat x := by
  unfold setPy at h
  rw [if_pos (by omega)] at h
  cases h; rfl

/-- The slots after reading a list of icons with indices in range. -/
theorem iconsAll_slots {env : Env} {l : List Val} {acc ic : List (Option Val)}
    (hl : ∀ v ∈ l, ∃ k n, IsIcon v k n ∧ 1 ≤ k ∧ k ≤ 4) (hacc : acc.length = 4)
    (h : iconsAll env l acc = .ok ic) :
    ic.length = 4 ∧ ∀ j : Int, 1 ≤ j → j ≤ 4 → ∀ x, ic[(j - 1).toNat]? = some (some x) ↔
      (∃ n, LastIcon l j n ∧ x = .str n) ∨
      ((∀ v ∈ l, ∀ m, ¬ IsIcon v j m) ∧ acc[(j - 1).toNat]? = some (some x)) := by
  induction l generalizing acc with
  | nil =>
    cases h
    refine ⟨hacc, fun j _ _ x => ?_⟩
    constructor
    · intro hx; exact .inr ⟨by simp, hx⟩
    · rintro (⟨n, ⟨bs, v, as, hb, -⟩, -⟩ | ⟨-, hx⟩)
      · exact absurd hb (by simp)
      · exact hx
  | cons v l ih =>
    obtain ⟨k, n, hv, hk, hk'⟩ := hl v (List.mem_cons_self ..)
    obtain ⟨acc', ha, h⟩ := iconsAll_cons_icon hv h
    have ha := setPy_in hk (by omega) ha
    subst ha
    obtain ⟨hlen, hsl⟩ := ih (fun u hu => hl u (List.mem_cons_of_mem _ hu)) (by simpa using hacc) h
    refine ⟨hlen, fun j hj hj' x => ?_⟩
    rw [hsl j hj hj' x]
    by_cases e : j = k
    · subst e
      constructor
      · rintro (⟨m, hm, rfl⟩ | ⟨hno, hx⟩)
        · exact .inl ⟨m, lastIcon_cons.2 (.inl hm), rfl⟩
        · rw [List.getElem?_set_self (by omega)] at hx
          cases hx
          exact .inl ⟨n, lastIcon_cons.2 (.inr ⟨hv, hno⟩), rfl⟩
      · rintro (⟨m, hm, rfl⟩ | ⟨hno, -⟩)
        · rcases lastIcon_cons.1 hm with hm | ⟨hm, hno⟩
          · exact .inl ⟨m, hm, rfl⟩
          · cases (IsIcon.unique hv hm).2
            exact .inr ⟨hno, by rw [List.getElem?_set_self (by omega)]⟩
        · exact absurd hv (hno v (List.mem_cons_self ..) n)
    · have hne : (j - 1).toNat ≠ (k - 1).toNat := by omega
      rw [List.getElem?_set_ne (Ne.symm hne)]
      constructor
      · rintro (⟨m, hm, rfl⟩ | ⟨hno, hx⟩)
        · exact .inl ⟨m, lastIcon_cons.2 (.inl hm), rfl⟩
        · refine .inr ⟨?_, hx⟩
          intro u hu m hm
          rcases List.mem_cons.1 hu with rfl | hu
          · exact e (IsIcon.unique hv hm).1.symm
          · exact hno u hu m hm
      · rintro (⟨m, hm, rfl⟩ | ⟨hno, hx⟩)
        · rcases lastIcon_cons.1 hm with hm | ⟨hm, -⟩
          · exact .inl ⟨m, hm, rfl⟩
          · exact absurd (IsIcon.unique hv hm).1.symm e
        · exact .inr ⟨fun u hu => hno u (List.mem_cons_of_mem _ hu), hx⟩

theorem signalToJson_str {env : Env} {n : String} {j : Val} :
    signalToJson env (signalGet (.str n)) = .ok j ↔
      ∃ t, SignalType env n t ∧ j = .dict [("name", .str n), ("type", t)] := by
  unfold signalGet signalToJson signalJson SignalType
  simp only [bind_eq_ok, lookup_getItem, subscript_ok, pure_eq_ok, Except.ok.injEq]
  constructor
  · rintro ⟨_, h1, t, ⟨d, rfl, h2⟩, rfl⟩; exact ⟨t, ⟨d, h1, h2⟩, rfl⟩
  · rintro ⟨t, ⟨d, h1, h2⟩, rfl⟩; exact ⟨_, h1, t, ⟨d, rfl, h2⟩, rfl⟩

theorem icon_eq {a b : Int} (j : Val) (h : a = b) :
    Val.dict [("index", .int a), ("signal", j)] = .dict [("index", .int b), ("signal", j)] := by rw [h]

theorem iconsJson_mem {env : Env} {i : Nat} {l : List (Option Val)} {out : List Val}
    (h : iconsJson env i l = .ok out) (v : Val) :
    v ∈ out ↔ ∃ (p : Nat) (s j : Val), l[p]? = some (some s) ∧ signalToJson env (signalGet s) = .ok j ∧
      v = .dict [("index", .int ((i : Int) + p + 1)), ("signal", j)] := by
  induction l generalizing i out with
  | nil => cases h; simp
  | cons a l ih =>
    cases a with
    | none =>
      rw [iconsJson] at h
      rw [ih h]
      constructor
      · rintro ⟨p, s, j, h1, h2, rfl⟩
        exact ⟨p + 1, s, j, h1, h2, icon_eq _ (by push_cast; omega)⟩
      · rintro ⟨p, s, j, h1, h2, rfl⟩
        cases p with
        | zero => cases h1
        | succ p => exact ⟨p, s, j, h1, h2, icon_eq _ (by push_cast; omega)⟩
    | some x =>
      rw [iconsJson] at h
      simp only [bind_eq_ok, pure_eq_ok, Except.ok.injEq] at h
      obtain ⟨j, hj, rest, hr, rfl⟩ := h
      rw [List.mem_cons, ih hr]
      constructor
      · rintro (rfl | ⟨p, s, j, h1, h2, rfl⟩)
        · exact ⟨0, x, j, rfl, hj, by simp⟩
        · exact ⟨p + 1, s, j, h1, h2, icon_eq _ (by push_cast; omega)⟩
      · rintro ⟨p, s, j', h1, h2, rfl⟩
        cases p with
        | zero => cases h1; rw [hj] at h2; cases h2; exact .inl (by simp)
        | succ p => exact .inr ⟨p, s, j', h1, h2, icon_eq _ (by push_cast; omega)⟩

theorem iconsJson_sorted {env : Env} {i : Nat} {l : List (Option Val)} {out : List Val}
    (h : iconsJson env i l = .ok out) :
    out.Pairwise (fun u v => ∃ a b x y, u = .dict [("index", .int a), ("signal", x)] ∧
      v = .dict [("index", .int b), ("signal", y)] ∧ a < b) := by
  induction l generalizing i out with
  | nil => cases h; exact .nil
  | cons a l ih =>
    cases a with
    | none => rw [iconsJson] at h; exact ih h
    | some x =>
      rw [iconsJson] at h
      simp only [bind_eq_ok, pure_eq_ok, Except.ok.injEq] at h
      obtain ⟨j, hj, rest, hr, rfl⟩ := h
      refine List.pairwise_cons.2 ⟨fun v hv => ?_, ih hr⟩
      obtain ⟨p, s, j', h1, h2, rfl⟩ := (iconsJson_mem hr v).1 hv
      exact ⟨_, _, _, _, rfl, rfl, by push_cast; omega⟩

theorem iconsAll_append {env : Env} {l l' : List Val} {acc ic : List (Option Val)} :
    iconsAll env (l ++ l') acc = .ok ic ↔
      ∃ acc', iconsAll env l acc = .ok acc' ∧ iconsAll env l' acc' = .ok ic := by
  induction l generalizing acc with
  | nil =>
    simp only [List.nil_append, iconsAll, Except.ok.injEq]
    exact ⟨fun h => ⟨acc, rfl, h⟩, fun ⟨_, rfl, h⟩ => h⟩
  | cons v l ih =>
    simp only [List.cons_append, iconsAll, bind_eq_ok, ih]
    constructor
    · rintro ⟨a, ha, b, hb, c, hc, d, hd, e, he, f, hf, h⟩
      exact ⟨f, ⟨a, ha, b, hb, c, hc, d, hd, e, he, hf⟩, h⟩
    · rintro ⟨f, ⟨a, ha, b, hb, c, hc, d, hd, e, he, hf⟩, h⟩
      exact ⟨a, ha, b, hb, c, hc, d, hd, e, he, f, hf, h⟩

theorem iconsAll_length {env : Env} {l : List Val} {acc ic : List (Option Val)}
    (h : iconsAll env l acc = .ok ic) : ic.length = acc.length := by
  induction l generalizing acc with
  | nil => cases h; rfl
  | cons v l ih =>
    simp only [iconsAll, bind_eq_ok] at h
    obtain ⟨_, _, _, _, _, _, _, _, acc', ha, h⟩ := h
    rw [ih h, setPy_length ha]

theorem setPy_out {α} {l : List α} {k : Int} {x : α} (h : (l.length : Int) ≤ k ∨ k < -(l.length : Int)) :
    setPy l k x = .error .indexError := by
  unfold setPy
  rw [if_neg (by omega), if_neg (by omega)]

/-! ## Schedules -/

theorem scheduleNew_ok {w : World} {b : BpId} {v : Val} {x : List Ref × Val}
    (h : scheduleNew w b v = .ok x) : ∃ kw s l ids, v = .dict kw ∧
      List.lookup "schedule" kw = some s ∧ List.lookup "locomotives" kw = some l ∧ l.iter = .ok ids ∧
      x = (ids.filterMap (getById w b), s) := by
  unfold scheduleNew at h
  rw [bind_eq_ok] at h
  obtain ⟨kw, hk, h⟩ := h
  split at h
  · cases h
  · split at h
    · rename_i s l hs hl
      simp only [bind_eq_ok, pure_eq_ok, Except.ok.injEq] at h
      obtain ⟨ids, hi, rfl⟩ := h
      exact ⟨kw, s, l, ids, kwargs_ok.1 hk, hs, hl, hi, rfl⟩
    · cases h

theorem renumber_filterMap {w : World} {b : BpId} (hn : ∀ r ∈ (w.bp b).objs, ∃ n, (w.heap r).auto = some n)
    (ids : List Val) : Renumber w (w.bp b).objs ids
      ((ids.filterMap (getById w b)).map (fun r => autoVal (w.heap r).auto)) := by
  induction ids with
  | nil => exact .nil
  | cons id ids ih =>
    cases hg : getById w b id with
    | none =>
      rw [List.filterMap_cons_none hg]
      exact .dropped (getById_none.1 hg) ih
    | some r =>
      rw [List.filterMap_cons_some hg, List.map_cons]
      obtain ⟨n, ha⟩ := hn r (getById_mem hg)
      rw [ha]
      exact .found (getById_some.1 hg) ha ih

theorem mapM_get {α β} {f : α → Except Exc β} {l : List α} {bs : List β} (h : l.mapM f = .ok bs) :
    bs.length = l.length ∧ ∀ i (hi : i < l.length) (hi' : i < bs.length), f l[i] = .ok bs[i] := by
  induction l generalizing bs with
  | nil => cases h; exact ⟨rfl, fun i hi => absurd hi (by simp)⟩
  | cons a l ih =>
    rw [List.mapM_cons] at h
    simp only [bind_eq_ok, pure_eq_ok, Except.ok.injEq] at h
    obtain ⟨b, hb, bs', hbs, rfl⟩ := h
    obtain ⟨h1, h2⟩ := ih hbs
    refine ⟨by simp [h1], fun i hi hi' => ?_⟩
    cases i with
    | zero => exact hb
    | succ i => exact h2 i (Nat.lt_of_succ_lt_succ hi) (Nat.lt_of_succ_lt_succ hi')

/-! ## Label colour -/

theorem component_of {d : Dict} {k : String} {x : Rat} (h : Component d k x) :
    ∃ n, Color.component (Dict.getD d k (.int 1)) = .ok n ∧ n.val = x := by
  unfold Dict.getD Dict.get?
  rcases h with ⟨n, h, rfl⟩ | ⟨h, rfl⟩
  · rw [h]; exact ⟨n, rfl, rfl⟩
  · rw [h]; exact ⟨.int 1, rfl, by simp [Num.val]⟩

theorem color_of {c : Dict} {r g b a : Rat} (hr : Component c "r" r) (hg : Component c "g" g)
    (hb : Component c "b" b) (ha : Component c "a" a) {x : Color} (h : Color.ofVal (.dict c) = .ok x) :
    IsColorOf x.toJson r g b a := by
  unfold Color.ofVal Val.kwargs Color.ofKwargs at h
  simp only [bind_eq_ok, pure_eq_ok, Except.ok.injEq] at h
  obtain ⟨_, rfl, h⟩ := h
  split at h
  · simp only [bind_eq_ok] at h
    obtain ⟨_, h, -⟩ := h
    cases h
  · simp only [bind_eq_ok, pure_eq_ok, Except.ok.injEq] at h
    obtain ⟨r', hr', g', hg', b', hb', a', ha', rfl⟩ := h
    obtain ⟨n, h1, rfl⟩ := component_of hr
    rw [hr'] at h1; cases h1
    obtain ⟨n, h1, rfl⟩ := component_of hg
    rw [hg'] at h1; cases h1
    obtain ⟨n, h1, rfl⟩ := component_of hb
    rw [hb'] at h1; cases h1
    obtain ⟨n, h1, rfl⟩ := component_of ha
    rw [ha'] at h1; cases h1
    exact ⟨_, _, _, _, rfl, Color.clamp_val _, Color.clamp_val _, Color.clamp_val _, Color.clamp_val _⟩

/-! ## The entities after loading, as a function -/

/-- Number a list of entities from one. -/
def renumber (l : List Entity) : List Entity :=
  l.mapIdx (fun i e => { e with auto := some ((i : Int) + 1) })

theorem insertBy_map {α β} (f : α → β) (le : β → β → Bool) (x : α) (l : List α) :
    (insertBy (fun a b => le (f a) (f b)) x l).map f = insertBy le (f x) (l.map f) := by
  induction l with
  | nil => rfl
  | cons y l ih =>
    unfold insertBy
    rw [List.map_cons]
    dsimp only
    split
    · rfl
    · rw [List.map_cons, ih]

theorem sortBy_map {α β} (f : α → β) (le : β → β → Bool) (l : List α) :
    (sortBy (fun a b => le (f a) (f b)) l).map f = sortBy le (l.map f) := by
  induction l with
  | nil => rfl
  | cons y l ih =>
    show (insertBy (fun a b => le (f a) (f b)) y (sortBy (fun a b => le (f a) (f b)) l)).map f = _
    rw [insertBy_map, ih]
    rfl

/-- The entities of a blueprint after sorting its layer. -/
theorem sort_vals (w : World) (b : BpId) (hn : (w.bp b).objs.Nodup) :
    (w.sort b).vals b = renumber (sortBy (fun a b => posLe a.pos b.pos) ((w.bp b).objs.map w.heap)) := by
  rw [← sortBy_map w.heap (fun a b => posLe a.pos b.pos)]
  have hs := sort_inOrder w b hn
  unfold World.vals renumber
  refine List.ext_getElem (by simp [sort_bp_self]) (fun i h1 h2 => ?_)
  have hi : i < ((w.sort b).bp b).objs.length := by simpa using h1
  rw [List.getElem_map, List.getElem_mapIdx, List.getElem_map]
  have ha := hs.numbered i hi
  have hsame := sort_same w b (((w.sort b).bp b).objs[i])
  have he : ((w.sort b).bp b).objs[i] =
      (sortBy (fun r s => posLe (w.heap r).pos (w.heap s).pos) (w.bp b).objs)[i]'(by
        simpa [sort_bp_self] using hi) := by
    simp [sort_bp_self]
  rw [← he]
  generalize ((w.sort b).bp b).objs[i] = r at *
  cases h' : (w.sort b).heap r
  cases h'' : w.heap r
  rw [h'] at ha hsame
  rw [h''] at hsame
  simp only [SameButNumber, Entity.mk.injEq] at hsame
  simp only at ha
  subst ha
  simp only [Entity.mk.injEq, true_and]
  obtain ⟨e1, e2, e3, e4, e5, e6, e7, e8, e9, e10, e11, e12⟩ := hsame
  exact ⟨e1, e2, e3, e5, e6, e7, e8, e9, e10, e11, e12⟩

theorem base_vals {w : World} (ho : Owned w) (b : BpId) (d : Dict) (col : Option Color)
    (ic : List (Option Val)) (es : List Entity) :
    (w.base b d col ic es).vals b =
      renumber (sortBy (fun a b => posLe a.pos b.pos) ((w.bp b).objs.map w.heap ++ es)) := by
  have h : (((w.setBp b ((w.bp b).withHead d col ic)).pushAll b es).bp b).objs =
      (w.bp b).objs ++ List.range' w.next es.length := by
    rw [pushAll_bp_self, setBp_bp_self]
    rfl
  have hn : ((w.bp b).objs ++ List.range' w.next es.length).Nodup := by
    rw [List.nodup_append]
    refine ⟨ho.nodup b, List.nodup_range', ?_⟩
    intro r hr s hs e
    subst e
    have := ho.exist b r hr
    rw [List.mem_range'_1] at hs
    exact absurd hs.1 (Nat.not_le.2 this)
  unfold World.base
  rw [sort_vals _ _ (by rw [h]; exact hn), h, List.map_append]
  congr 3
  · refine List.map_congr_left (fun r hr => ?_)
    exact pushAll_heap_old _ b es (ho.exist b r hr)
  · refine List.ext_getElem (by simp) (fun i h1 h2 => ?_)
    simp only [List.length_map, List.length_range'] at h1
    simp only [List.getElem_map, List.getElem_range', Nat.one_mul]
    exact pushAll_heap_new (w.setBp b ((w.bp b).withHead d col ic)) b es h1

end Verif
