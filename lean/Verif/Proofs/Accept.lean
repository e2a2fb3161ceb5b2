import Verif.Proofs.Reload
import Verif.Proofs.DataWires
import Verif.Proofs.Make
import Verif.Proofs.Content
import Verif.Spec.Accept
/-!
# Helper lemmas: the data that can be imported
-/
set_option autoImplicit false

namespace Verif
open Spec

theorem nothing_iff {v : Val} : v.truthy = false ↔ Nothing v := by
  constructor
  · intro h
    cases v with
    | none => exact .none
    | bool b => cases b with
      | false => exact .false
      | true => cases h
    | num n => exact .zero n (by simpa [Val.truthy] using h)
    | str s =>
      have : s = "" := by simpa [Val.truthy] using h
      subst this; exact .text
    | list l =>
      have : l = [] := by simpa [Val.truthy] using h
      subst this; exact .list
    | dict d =>
      have : d = [] := by simpa [Val.truthy] using h
      subst this; exact .object
  · intro h
    cases h with
    | zero n h => simp [Val.truthy, h]
    | _ => rfl

/-- Where the elements have to be objects, a text or an object has to be empty. -/
theorem series_iff {v : Val} {l : List Val} (hl : ∀ u ∈ l, ∃ d, u = .dict d) : v.iter = .ok l ↔ Series v l := by
  unfold Series
  constructor
  · intro h
    cases v with
    | list l' => cases h; exact .inl rfl
    | str s =>
      right
      cases h
      have : s.toList = [] := by
        cases hs : s.toList with
        | nil => rfl
        | cons c cs =>
          obtain ⟨d, hd⟩ := hl (Val.str (String.singleton c)) (by rw [hs]; exact List.mem_cons_self ..)
          cases hd
      refine ⟨by rw [this]; rfl, .inl ?_⟩
      rw [String.toList_eq_nil_iff.1 this]
    | dict d =>
      right
      cases h
      cases d with
      | nil => exact ⟨rfl, .inr rfl⟩
      | cons p d =>
        obtain ⟨d, hd⟩ := hl (Val.str p.1) (by simp)
        cases hd
    | _ => cases h
  · rintro (rfl | ⟨rfl, rfl | rfl⟩)
    · rfl
    · rfl
    · rfl

theorem seriesAt_iff {d : Dict} {k : String} {l : List Val} (hl : ∀ u ∈ l, ∃ d, u = .dict d) :
    (Dict.getD d k (.list [])).iter = .ok l ↔ SeriesAt d k l := by
  unfold SeriesAt Dict.getD Dict.get?
  cases h : List.lookup k d with
  | none =>
    constructor
    · intro h; cases h; exact .inl ⟨rfl, rfl⟩
    · rintro (⟨-, rfl⟩ | ⟨v, h, -⟩)
      · rfl
      · cases h
  | some v =>
    rw [Option.getD_some, series_iff hl]
    constructor
    · intro h; exact .inr ⟨v, rfl, h⟩
    · rintro (⟨h, -⟩ | ⟨v, h, hs⟩)
      · cases h
      · cases h; exact hs

theorem component_iff {v : Val} : (∃ n, Color.component v = .ok n) ↔ Countable v := by
  unfold Color.component Countable
  cases v with
  | num n => simp [Val.num?]
  | bool t => cases t <;> simp [Val.num?]
  | _ => simp [Val.num?]

theorem colorOk_iff {v : Val} : (∃ c, Color.ofVal v = .ok c) ↔ ColorOk v := by
  have hg : ∀ (d : Dict) (k : String), (∃ n, Color.component (Dict.getD d k (.int 1)) = .ok n) ↔
      ∀ x, List.lookup k d = some x → Countable x := by
    intro d k
    rw [component_iff]
    unfold Dict.getD Dict.get?
    cases List.lookup k d with
    | none => simp [Countable]
    | some x => simp
  unfold Color.ofVal Color.ofKwargs ColorOk
  simp only [bind_eq_ok, kwargs_ok]
  constructor
  · rintro ⟨c, d, rfl, h⟩
    split at h
    · simp [bind_eq_ok] at h
    · rename_i hk
      simp only [bind_eq_ok, pure_eq_ok, Except.ok.injEq] at h
      obtain ⟨r, hr, g, hg', b, hb, a, ha, -⟩ := h
      refine ⟨d, rfl, fun k x hx => ?_, ?_⟩
      · by_contra hn
        apply hk
        rw [List.any_eq_true]
        refine ⟨(k, x), hx, ?_⟩
        simpa [and_assoc] using hn
      · intro k hk'
        simp only [List.mem_cons, List.not_mem_nil, or_false] at hk'
        rcases hk' with rfl | rfl | rfl | rfl
        · exact (hg d _).1 ⟨_, hr⟩
        · exact (hg d _).1 ⟨_, hg'⟩
        · exact (hg d _).1 ⟨_, hb⟩
        · exact (hg d _).1 ⟨_, ha⟩
  · rintro ⟨d, rfl, h1, h2⟩
    obtain ⟨r, hr⟩ := (hg d "r").2 (h2 _ (by simp))
    obtain ⟨g, hg'⟩ := (hg d "g").2 (h2 _ (by simp))
    obtain ⟨b, hb⟩ := (hg d "b").2 (h2 _ (by simp))
    obtain ⟨a, ha⟩ := (hg d "a").2 (h2 _ (by simp))
    refine ⟨Color.new r g b a, d, rfl, ?_⟩
    rw [if_neg]
    · rw [hr, hg', hb, ha]; rfl
    · rw [List.any_eq_true]
      rintro ⟨⟨k, x⟩, hx, hk⟩
      have := h1 k x hx
      simp only [List.mem_cons, List.not_mem_nil, or_false] at this
      rcases this with rfl | rfl | rfl | rfl <;> simp at hk

theorem colorAfter_iff {old : Option Color} {d : Dict} :
    (∃ c, colorAfter old (Dict.getD d "label_color" .none) = .ok c) ↔
      ∀ c, List.lookup "label_color" d = some c → c ≠ .none → ColorOk c := by
  unfold Dict.getD Dict.get?
  cases h : List.lookup "label_color" d with
  | none => simp [colorAfter]
  | some c =>
    simp only [Option.getD_some, Option.some.injEq, forall_eq']
    unfold colorAfter
    split
    · simp
    · rename_i hn
      rw [← colorOk_iff]
      simp only [bind_eq_ok, pure_eq_ok, Except.ok.injEq]
      constructor
      · rintro ⟨_, c, hc, -⟩ -
        exact ⟨c, hc⟩
      · intro h
        obtain ⟨c, hc⟩ := h hn
        exact ⟨_, c, hc, rfl⟩

theorem inTable_iff {t : Dict} {v : Val} : inTable t v = .ok true ↔ ∃ n, v = .str n ∧ List.lookup n t ≠ none := by
  unfold inTable
  split
  · rename_i s
    simp [Dict.mem, Dict.get?, Option.isSome_iff_ne_none]
  · rename_i hn
    split <;> simp
    · intro n h; exact absurd h (hn n)
    · intro n h; exact absurd h (hn n)

theorem signalOk_iff {env : Env} {v : Val} : (∃ s, signalSet env v = .ok s) ↔ SignalOk env v := by
  have key : ∀ u : Val, (∃ s, (if u.truthy then do
        if ← inTable env.signals u then .ok u else .error .unknownSignal
      else .ok u : Except Exc Val) = .ok s) ↔ (Nothing u ∨ ∃ n, u = .str n ∧ List.lookup n env.signals ≠ none) := by
    intro u
    rw [← nothing_iff, ← inTable_iff]
    cases hu : u.truthy with
    | false => simp
    | true =>
      simp only [if_true, bind_eq_ok, Bool.true_eq_false, false_or]
      constructor
      · rintro ⟨s, t, ht, h⟩
        cases t with
        | true => exact ht
        | false => cases h
      · intro h
        exact ⟨u, true, h, rfl⟩
  unfold SignalOk
  cases v with
  | num n =>
    cases n with
    | int z => exact ⟨fun _ => .inl ⟨z, rfl⟩, fun _ => ⟨_, rfl⟩⟩
    | flt q =>
      refine (key (.num (.flt q))).trans ?_
      constructor
      · intro h; exact .inr ⟨_, .inr ⟨fun d h => by (cases h), rfl⟩, h⟩
      · rintro (⟨z, h⟩ | ⟨u, ⟨d, h, -⟩ | ⟨-, rfl⟩, h'⟩)
        · cases h
        · cases h
        · exact h'
  | dict d =>
    refine (key (Dict.getD d "name" .none)).trans ?_
    constructor
    · intro h; exact .inr ⟨_, .inl ⟨d, rfl, rfl⟩, h⟩
    · rintro (⟨z, h⟩ | ⟨u, ⟨d, h, rfl⟩ | ⟨h, -⟩, h'⟩)
      · cases h
      · cases h; exact h'
      · exact absurd rfl (h d)
  | none =>
    refine (key .none).trans ?_
    constructor
    · intro h; exact .inr ⟨_, .inr ⟨fun d h => by (cases h), rfl⟩, h⟩
    · rintro (⟨z, h⟩ | ⟨u, ⟨d, h, -⟩ | ⟨-, rfl⟩, h'⟩)
      · cases h
      · cases h
      · exact h'
  | bool t =>
    refine (key (.bool t)).trans ?_
    constructor
    · intro h; exact .inr ⟨_, .inr ⟨fun d h => by (cases h), rfl⟩, h⟩
    · rintro (⟨z, h⟩ | ⟨u, ⟨d, h, -⟩ | ⟨-, rfl⟩, h'⟩)
      · cases h
      · cases h
      · exact h'
  | str s =>
    refine (key (.str s)).trans ?_
    constructor
    · intro h; exact .inr ⟨_, .inr ⟨fun d h => by (cases h), rfl⟩, h⟩
    · rintro (⟨z, h⟩ | ⟨u, ⟨d, h, -⟩ | ⟨-, rfl⟩, h'⟩)
      · cases h
      · cases h
      · exact h'
  | list l =>
    refine (key (.list l)).trans ?_
    constructor
    · intro h; exact .inr ⟨_, .inr ⟨fun d h => by (cases h), rfl⟩, h⟩
    · rintro (⟨z, h⟩ | ⟨u, ⟨d, h, -⟩ | ⟨-, rfl⟩, h'⟩)
      · cases h
      · cases h
      · exact h'

theorem setPy_ok {α} {l : List α} {i : Int} {x : α} :
    (∃ l', setPy l i x = .ok l') ↔ -(l.length : Int) ≤ i ∧ i < l.length := by
  unfold setPy
  split
  · simp; omega
  · split
    · simp; omega
    · simp; omega

theorem iconIndex_iff {v : Val} : (∃ i, iconIndex v = .ok i ∧ -4 ≤ i ∧ i < 4) ↔
    (∃ z : Int, v = .int z ∧ -3 ≤ z ∧ z ≤ 4) ∨ ∃ t, v = .bool t := by
  unfold iconIndex
  constructor
  · rintro ⟨i, h, h1, h2⟩
    split at h
    · rename_i z
      cases h
      exact .inl ⟨z, rfl, by omega, by omega⟩
    · rename_i t
      exact .inr ⟨t, rfl⟩
    · cases h
  · rintro (⟨z, rfl, h1, h2⟩ | ⟨t, rfl⟩)
    · exact ⟨z - 1, rfl, by omega, by omega⟩
    · cases t
      · exact ⟨-1, rfl, by decide, by decide⟩
      · exact ⟨0, rfl, by decide, by decide⟩

theorem iconsAll_iff {env : Env} {l : List Val} {acc : List (Option Val)} (ha : acc.length = 4) :
    (∃ ic, iconsAll env l acc = .ok ic) ↔ ∀ v ∈ l, IconOk env v := by
  induction l generalizing acc with
  | nil => simp [iconsAll]
  | cons v l ih =>
    rw [List.forall_mem_cons]
    simp only [iconsAll, bind_eq_ok, subscript_ok]
    constructor
    · rintro ⟨ic, s, ⟨d, rfl, hs⟩, s', hs', i, ⟨_, hd, hi⟩, z, hz, acc', ha', h⟩
      cases hd
      have hr := setPy_ok.1 ⟨_, ha'⟩
      rw [ha] at hr
      exact ⟨⟨d, s, i, rfl, hs, signalOk_iff.1 ⟨_, hs'⟩, hi, iconIndex_iff.1 ⟨z, hz, by omega, by omega⟩⟩,
        (ih (by rw [setPy_length ha', ha])).1 ⟨_, h⟩⟩
    · rintro ⟨⟨d, s, i, rfl, hs, hs', hi, hi'⟩, h⟩
      obtain ⟨s', hs'⟩ := signalOk_iff.2 hs'
      obtain ⟨z, hz, h1, h2⟩ := iconIndex_iff.2 hi'
      obtain ⟨acc', ha'⟩ := (setPy_ok (l := acc) (i := z) (x := some s')).2 (by omega)
      obtain ⟨ic, hic⟩ := (ih (by rw [setPy_length ha', ha])).2 h
      exact ⟨ic, s, ⟨d, rfl, hs⟩, s', hs', i, ⟨d, rfl, hi⟩, z, hz, acc', ha', hic⟩

theorem scheduleOk_iff {w : World} {b : BpId} {v : Val} : (∃ x, scheduleNew w b v = .ok x) ↔ ScheduleOk v := by
  unfold scheduleNew ScheduleOk
  simp only [bind_eq_ok, kwargs_ok]
  have hit : ∀ l : Val, (∃ ids, l.iter = .ok ids) ↔ ((∃ x, l = .list x) ∨ (∃ t, l = .str t) ∨ ∃ d, l = .dict d) := by
    intro l
    cases l <;> simp [Val.iter]
  constructor
  · rintro ⟨x, kw, rfl, h⟩
    split at h
    · cases h
    · rename_i hk
      split at h
      · rename_i s l hs hl
        simp only [bind_eq_ok] at h
        obtain ⟨ids, hi, -⟩ := h
        refine ⟨kw, s, l, rfl, fun k y hy => ?_, hs, hl, (hit l).1 ⟨_, hi⟩⟩
        by_contra hn
        apply hk
        rw [List.any_eq_true]
        refine ⟨(k, y), hy, ?_⟩
        simpa using hn
      · cases h
  · rintro ⟨kw, s, l, rfl, hk, hs, hl, hi⟩
    obtain ⟨ids, hids⟩ := (hit l).2 hi
    refine ⟨(ids.filterMap (getById w b), s), kw, rfl, ?_⟩
    rw [if_neg]
    · unfold Dict.get?
      rw [hs, hl]
      dsimp only
      rw [hids]
      rfl
    · rw [List.any_eq_true]
      rintro ⟨⟨k, x⟩, hx, hb⟩
      rcases hk k x hx with rfl | rfl <;> simp at hb

theorem mapM_iff {α β} {f : α → Except Exc β} {l : List α} : (∃ bs, l.mapM f = .ok bs) ↔ ∀ a ∈ l, ∃ b, f a = .ok b := by
  constructor
  · rintro ⟨bs, h⟩
    exact mapM_total h
  · intro h
    induction l with
    | nil => exact ⟨[], rfl⟩
    | cons a l ih =>
      obtain ⟨b, hb⟩ := h a (List.mem_cons_self ..)
      obtain ⟨bs, hbs⟩ := ih (fun x hx => h x (List.mem_cons_of_mem _ hx))
      refine ⟨b :: bs, ?_⟩
      rw [List.mapM_cons, hb, hbs]
      rfl

/-- A reference is read, and has its other end, if it names an entity. -/
theorem refConn_joined {w : World} {b : BpId} {r : Ref} {side color : String} {v : Val} :
    (∃ c, refConn w b r side color v = .ok c ∧ c.joined) ↔
      ∃ c id sa sb, v = .dict c ∧ List.lookup "entity_id" c = some id ∧ Whole (.str side) sa ∧ Whole (refSide c) sb ∧
        ∃ s ∈ (w.bp b).objs, IdIs (w.heap s).number id := by
  have hg : ∀ id, getById w b id ≠ none ↔ ∃ s ∈ (w.bp b).objs, IdIs (w.heap s).number id := by
    intro id
    rw [ne_eq, getById_none]
    push Not
    rfl
  constructor
  · rintro ⟨cn, h, hj⟩
    obtain ⟨c, id, sa, sb, h1, h2, h3, h4, rfl⟩ := refConn_iff.1 h
    exact ⟨c, id, sa, sb, h1, h2, h3, h4, (hg id).1 hj.2⟩
  · rintro ⟨c, id, sa, sb, h1, h2, h3, h4, h5⟩
    exact ⟨_, refConn_iff.2 ⟨c, id, sa, sb, h1, h2, h3, h4, rfl⟩, (by simp), (hg id).2 h5⟩

/-- The `connections` value of one entity is read and all its wires have both ends. -/
theorem rawRefs_joined {w : World} {b : BpId} {r : Ref} {raw : Val} :
    (∃ cs, rawRefs w b r raw = .ok cs ∧ ∀ c ∈ cs, c.joined) ↔
      (raw ≠ .none → ∃ sides, raw = .dict sides ∧ ∀ side p, (side, p) ∈ sides →
        ∃ colors, p = .dict colors ∧ ∀ color q, (color, q) ∈ colors →
          ∃ refs, Series q refs ∧ ∀ v ∈ refs, ∃ c, refConn w b r side color v = .ok c ∧ c.joined) := by
  by_cases hn : raw = .none
  · subst hn
    simp [rawRefs]
  have hraw : rawRefs w b r raw = (do
    let sides ← raw.asDict
    let l ← sides.mapM (fun p => do
      let colors ← Val.asDict p.2
      let l ← colors.mapM (fun q => do
        let cs ← Val.iter q.2
        cs.mapM (refConn w b r p.1 q.1))
      return l.flatten)
    return l.flatten) := by
    unfold rawRefs
    split
    · exact absurd rfl hn
    · rfl
  rw [hraw]
  simp only [bind_eq_ok, asDict_ok, pure_eq_ok, Except.ok.injEq, ne_eq, hn, not_false_eq_true, forall_const]
  constructor
  · rintro ⟨cs, ⟨sides, rfl, l, hl, rfl⟩, hj⟩
    refine ⟨sides, rfl, fun side p hp => ?_⟩
    obtain ⟨x, hx⟩ := mapM_total hl _ hp
    have hxl := (mem_mapM_except hl x).2 ⟨_, hp, hx⟩
    simp only [bind_eq_ok, asDict_ok, Except.ok.injEq] at hx
    obtain ⟨colors, rfl, l', hl', rfl⟩ := hx
    refine ⟨colors, rfl, fun color q hq => ?_⟩
    obtain ⟨y, hy⟩ := mapM_total hl' _ hq
    have hyl := (mem_mapM_except hl' y).2 ⟨_, hq, hy⟩
    simp only [bind_eq_ok] at hy
    obtain ⟨vs, hvs, hy⟩ := hy
    have hgood : ∀ v ∈ vs, ∃ c, refConn w b r side color v = .ok c ∧ c.joined := by
      intro v hv
      obtain ⟨c, hc⟩ := mapM_total hy v hv
      refine ⟨c, hc, hj c ?_⟩
      exact List.mem_flatten.2 ⟨_, hxl, List.mem_flatten.2 ⟨_, hyl, (mem_mapM_except hy c).2 ⟨v, hv, hc⟩⟩⟩
    refine ⟨vs, (series_iff fun u hu => ?_).1 hvs, hgood⟩
    obtain ⟨c, hc, -⟩ := hgood u hu
    obtain ⟨c, -, -, -, h, -⟩ := refConn_iff.1 hc
    exact ⟨c, h⟩
  · rintro ⟨sides, rfl, h⟩
    have hin : ∀ side colors, (side, Val.dict colors) ∈ sides → ∀ q ∈ colors, ∃ y,
        (do let cs ← Val.iter q.2; cs.mapM (refConn w b r side q.1) : Except Exc (List Conn)) = .ok y ∧
          ∀ c ∈ y, c.joined := by
      rintro side colors hs ⟨color, q⟩ hq
      obtain ⟨_, e, hcol⟩ := h side _ hs
      cases e
      obtain ⟨refs, hr, hg⟩ := hcol color q hq
      have hit := (series_iff fun u hu => by
        obtain ⟨c, hc, -⟩ := hg u hu
        obtain ⟨c, -, -, -, h, -⟩ := refConn_iff.1 hc
        exact ⟨c, h⟩).2 hr
      obtain ⟨y, hy⟩ := mapM_iff.2 (fun v hv => (hg v hv).imp fun _ h => h.1)
      refine ⟨y, by simp only [bind_eq_ok]; exact ⟨refs, hit, hy⟩, fun c hc => ?_⟩
      obtain ⟨v, hv, hc'⟩ := (mem_mapM_except hy c).1 hc
      obtain ⟨c', h1, h2⟩ := hg v hv
      rw [hc'] at h1
      cases h1
      exact h2
    have hside : ∀ p ∈ sides, ∃ x, (do
        let colors ← Val.asDict p.2
        let l ← colors.mapM (fun q => do
          let cs ← Val.iter q.2
          cs.mapM (refConn w b r p.1 q.1))
        return l.flatten : Except Exc (List Conn)) = .ok x ∧ ∀ c ∈ x, c.joined := by
      rintro ⟨side, p⟩ hp
      obtain ⟨colors, rfl, -⟩ := h side p hp
      obtain ⟨l, hl⟩ := mapM_iff.2 (fun q hq => (hin side colors hp q hq).imp fun _ h => h.1)
      refine ⟨l.flatten, by simp only [bind_eq_ok, asDict_ok, pure_eq_ok]; exact ⟨colors, rfl, l, hl, rfl⟩, fun c hc => ?_⟩
      obtain ⟨y, hy, hcy⟩ := List.mem_flatten.1 hc
      obtain ⟨q, hq, hy'⟩ := (mem_mapM_except hl y).1 hy
      obtain ⟨y', h1, h2⟩ := hin side colors hp q hq
      rw [hy'] at h1
      cases h1
      exact h2 c hcy
    obtain ⟨l, hl⟩ := mapM_iff.2 (fun p hp => (hside p hp).imp fun _ h => h.1)
    refine ⟨l.flatten, ⟨sides, rfl, l, hl, rfl⟩, fun c hc => ?_⟩
    obtain ⟨x, hx, hcx⟩ := List.mem_flatten.1 hc
    obtain ⟨p, hp, hx'⟩ := (mem_mapM_except hl x).1 hx
    obtain ⟨x', h1, h2⟩ := hside p hp
    rw [hx'] at h1
    cases h1
    exact h2 c hcx

theorem rawWires_joined {w : World} {b : BpId} :
    (∃ cs, w.rawWires b = .ok cs ∧ ∀ c ∈ cs, c.joined) ↔
      ∀ r ∈ (w.bp b).objs, ∃ cs, rawRefs w b r (w.heap r).raw = .ok cs ∧ ∀ c ∈ cs, c.joined := by
  unfold World.rawWires
  simp only [bind_eq_ok, pure_eq_ok, Except.ok.injEq]
  constructor
  · rintro ⟨_, ⟨css, h, rfl⟩, hj⟩ r hr
    obtain ⟨x, hx⟩ := mapM_total h r hr
    exact ⟨x, hx, fun c hc => hj c (List.mem_flatten.2 ⟨x, (mem_mapM_except h x).2 ⟨r, hr, hx⟩, hc⟩)⟩
  · intro h
    obtain ⟨css, hcss⟩ := mapM_iff.2 (fun r hr => (h r hr).imp fun _ h => h.1)
    refine ⟨_, ⟨css, hcss, rfl⟩, fun c hc => ?_⟩
    obtain ⟨x, hx, hcx⟩ := List.mem_flatten.1 hc
    obtain ⟨r, hr, hx'⟩ := (mem_mapM_except hcss x).1 hx
    obtain ⟨x', h1, h2⟩ := h r hr
    rw [hx'] at h1
    cases h1
    exact h2 c hcx

/-- An entity can be made exactly if its constructor accepts the data. -/
theorem layerMake_iff {b : BpId} {kw : Dict} {w : World} :
    (∃ r, (layerMake b kw w).1 = .ok r) ↔ ∃ e, Entity.new w.env (w.customOf (some b)) (some b) kw = .ok e := by
  constructor
  · rintro ⟨r, h⟩
    obtain ⟨e, -, he, -⟩ := layerMake_new (w' := (layerMake b kw w).2) (Prod.ext h rfl)
    exact ⟨e, he⟩
  · rintro ⟨e, he⟩
    obtain ⟨w', n, ha', hh⟩ := layerAdd_attached (w := { w.setEnt w.next e with next := w.next + 1 })
      (b := b) (r := w.next) (by simp [World.setEnt, Entity.new_layer he])
    refine ⟨w.next, ?_⟩
    have hn : newEntity (some b) kw w = (.ok w.next, { w.setEnt w.next e with next := w.next + 1 }) := by
      unfold newEntity
      rw [he]
      rfl
    have : layerMake b kw w = (.ok w.next, w') := by
      unfold layerMake
      exact M.bind_eq_ok.2 ⟨_, _, hn, M.bind_eq_ok.2 ⟨_, _, ha', rfl⟩⟩
    rw [this]

theorem buildAll_iff {env : Env} {custom : Option Custom} {b : BpId} {l : List Val} :
    (∃ es, buildAll env custom b l = .ok es) ↔
      ∀ v ∈ l, ∃ kw, v = .dict kw ∧ ∃ e, Entity.new env custom (some b) kw = .ok e := by
  unfold buildAll
  rw [mapM_iff]
  simp only [bind_eq_ok, kwargs_ok]
  refine forall₂_congr fun v _ => ⟨?_, ?_⟩
  · rintro ⟨e, kw, h, he⟩; exact ⟨kw, h, e, he⟩
  · rintro ⟨kw, h, e, he⟩; exact ⟨e, kw, h, he⟩

end Verif
