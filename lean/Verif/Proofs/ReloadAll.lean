import Verif.Proofs.Tidy
import Verif.Proofs.Color
import Verif.Proofs.Reload
/-!
# Helper lemmas: importing an exported blueprint, all parts together
-/
set_option autoImplicit false

namespace Verif
open Spec

theorem joins_congr {c d : Conn} (h : SameWire c d) {a b : Ref} {sa sb : Int} {k : String} :
    Joins c a sa b sb k ↔ Joins d a sa b sb k := by
  rcases h with rfl | rfl
  · exact Iff.rfl
  · constructor
    · rintro ⟨h, ⟨h1, h2, h3, h4⟩ | ⟨h1, h2, h3, h4⟩⟩
      · exact ⟨h, .inr ⟨h3, h4, h1, h2⟩⟩
      · exact ⟨h, .inl ⟨h3, h4, h1, h2⟩⟩
    · rintro ⟨h, ⟨h1, h2, h3, h4⟩ | ⟨h1, h2, h3, h4⟩⟩
      · exact ⟨h, .inr ⟨h3, h4, h1, h2⟩⟩
      · exact ⟨h, .inl ⟨h3, h4, h1, h2⟩⟩

theorem joins_symm {c : Conn} {a b : Ref} {sa sb : Int} {k : String} (h : Joins c a sa b sb k) :
    Joins c b sb a sa k := ⟨h.1, h.2.symm⟩

theorem Spec.SteadyRun.reachable {env : Env} {w : World} (h : SteadyRun env w) : Reachable env w := by
  induction h with
  | init => exact .init
  | step op _ hr _ ih => exact .step op ih hr

/-! ## Wires through their places -/

theorem idxOf_some {l : List Ref} {o : Option Ref} {i : Nat} (h : o.map (List.idxOf · l) = some i)
    (hi : i < l.length) : ∃ r, o = some r ∧ l[i]? = some r := by
  cases o with
  | none => cases h
  | some r =>
    refine ⟨r, rfl, ?_⟩
    have h' : List.idxOf r l = i := Option.some.inj h
    subst h'
    have hm : r ∈ l := List.idxOf_lt_length_iff.1 hi
    rw [List.getElem?_eq_getElem hi, List.getElem_idxOf]

theorem idxOf_getElem? {l : List Ref} (hn : l.Nodup) {i : Nat} {r : Ref} (h : l[i]? = some r) :
    List.idxOf r l = i := by
  obtain ⟨hi, rfl⟩ := List.getElem?_eq_some_iff.1 h
  exact hn.idxOf_getElem i hi

theorem wired_view {w : World} {b : BpId} (hn : (w.bp b).objs.Nodup) {i j : Nat} {sa sb : Int} {k : String} :
    Wired w b i sa j sb k ↔ i < (w.bp b).objs.length ∧ j < (w.bp b).objs.length ∧
      ∃ p ∈ (view w b).wires, Joins p i sa j sb k := by
  constructor
  · rintro ⟨c, hc, r, s, hi, hj, h⟩
    refine ⟨(List.getElem?_eq_some_iff.1 hi).1, (List.getElem?_eq_some_iff.1 hj).1, _,
      List.mem_map.2 ⟨c, hc, rfl⟩, h.1, ?_⟩
    have e1 := idxOf_getElem? hn hi
    have e2 := idxOf_getElem? hn hj
    rcases h.2 with ⟨h1, h2, h3, h4⟩ | ⟨h1, h2, h3, h4⟩
    · exact .inl ⟨by simp [place, h1, e1], h2, by simp [place, h3, e2], h4⟩
    · exact .inr ⟨by simp [place, h1, e2], h2, by simp [place, h3, e1], h4⟩
  · rintro ⟨hi, hj, p, hp, h⟩
    obtain ⟨c, hc, rfl⟩ := List.mem_map.1 hp
    rcases h.2 with ⟨h1, h2, h3, h4⟩ | ⟨h1, h2, h3, h4⟩
    · obtain ⟨r, hr1, hr2⟩ := idxOf_some h1 hi
      obtain ⟨s, hs1, hs2⟩ := idxOf_some h3 hj
      exact ⟨c, hc, r, s, hr2, hs2, h.1, .inl ⟨hr1, h2, hs1, h4⟩⟩
    · obtain ⟨r, hr1, hr2⟩ := idxOf_some h3 hi
      obtain ⟨s, hs1, hs2⟩ := idxOf_some h1 hj
      exact ⟨c, hc, r, s, hr2, hs2, h.1, .inr ⟨hs1, h2, hr1, h4⟩⟩

/-- Looking up an exported number gives the place of the entity. -/
theorem findIdx_place {w : World} (ho : Owned w) {b : BpId} (hr : Reloadable w b) {vals : List Entity}
    (hv : vals.map (·.number) = (w.bp b).objs.map (fun r => (w.heap r).auto)) {j : Nat} {t : Ref}
    (hj : (w.bp b).objs[j]? = some t) : findIdx vals (autoVal (w.heap t).auto) = some j := by
  obtain ⟨hj', rfl⟩ := List.getElem?_eq_some_iff.1 hj
  have hnum : ∀ r ∈ (w.bp b).objs, (w.heap r).auto = some ((w.heap r).auto.getD 0) := by
    intro r hm
    obtain ⟨n, hn⟩ := hr.numbered r hm
    rw [hn]; rfl
  have hns : ((w.bp b).objs.map (fun r => (w.heap r).auto.getD 0)).Nodup := by
    rw [List.Nodup, List.pairwise_map]
    refine List.Pairwise.imp_of_mem ?_ (ho.nodup b)
    intro r s hr1 hs1 hne e
    exact hne (hr.distinct r hr1 s hs1 (by rw [hnum r hr1, hnum s hs1, e]))
  have h := findIdx_auto (vals := vals) (ns := (w.bp b).objs.map (fun r => (w.heap r).auto.getD 0))
    (by rw [hv, List.map_map]; exact List.map_congr_left hnum) hns (j := j) (by simpa using hj')
  rw [hnum _ (List.getElem_mem hj')]
  simpa using h

theorem wires_again {w : World} (ho : Owned w) {b : BpId} (hr : Reloadable w b) {vals : List Entity}
    (hv : vals.map (·.number) = (w.bp b).objs.map (fun r => (w.heap r).auto))
    (hraw : ∀ i (hi : i < (w.bp b).objs.length), ∃ (o : WireObj) (cs : List Conn),
        o.Distinct ∧ (∀ c ∈ cs, c.fromE = some (w.bp b).objs[i] ∧ ∃ t, c.toE = some t) ∧
        (∀ c ∈ cs, ∃ d ∈ (w.bp b).conns, SameWire c d) ∧
        (∀ s k, under o s k = contribs w.heap (w.bp b).objs[i] cs s k) ∧
        (∀ s k, (farEnds cs (w.bp b).objs[i] s k).Perm (farEnds (w.bp b).conns (w.bp b).objs[i] s k)) ∧
        (vals.getD i default).raw = (if o.isEmpty then none else some (wireJson o)).getD .none) :
    ∃ cs, pureWires vals = .ok cs ∧ ∀ c, c ∈ cs ↔ ∃ (i j : Nat) (r t : Ref) (s : Int) (k : String),
      (w.bp b).objs[i]? = some r ∧ (w.bp b).objs[j]? = some t ∧
      (∃ c ∈ (w.bp b).conns, Joins c r s t s k) ∧ c = ⟨some i, some j, s, s, k⟩ := by
  have hlen : vals.length = (w.bp b).objs.length := by simpa using congrArg List.length hv
  have hone : ∀ i (hi : i < (w.bp b).objs.length),
      ∃ cs, rawRefsG (findIdx vals) i (vals.getD i default).raw = .ok cs ∧
        ∀ c, c ∈ cs ↔ ∃ (j : Nat) (t : Ref) (s : Int) (k : String), (w.bp b).objs[j]? = some t ∧
          (∃ c ∈ (w.bp b).conns, Joins c (w.bp b).objs[i] s t s k) ∧ c = ⟨some i, some j, s, s, k⟩ := by
    intro i hi
    obtain ⟨o, cs0, hd, h1, h2, h3, h4, h5⟩ := hraw i hi
    have href : ∀ s k u (j : Nat) (t : Ref), (w.bp b).objs[j]? = some t →
        (∃ c ∈ (w.bp b).conns, Joins c (w.bp b).objs[i] s t s k) → u = wireRef (w.heap t) s →
        refConnG (findIdx vals) i s.repr k u = .ok ⟨some i, some j, s, s, k⟩ := by
      rintro s k u j t hj ⟨c, hc, hJ⟩ rfl
      rw [refConnG_wireRef, findIdx_place ho hr hv hj]
      split
      · rfl
      · rename_i hne
        obtain ⟨x, -, y, -, hf, ht, hs, hw⟩ := hr.wires c hc
        have : s = 1 := by
          rcases hJ.2 with ⟨g1, g2, g3, g4⟩ | ⟨g1, g2, g3, g4⟩
          · rcases hw with hw | ⟨-, hw⟩
            · rw [← g2]; exact hw
            · rw [ht] at g3; cases g3; exact absurd hw hne
          · rcases hw with hw | ⟨hw, -⟩
            · rw [← g2]; exact hw
            · rw [hf] at g1; cases g1; exact absurd hw hne
        rw [this]
    have hg : ∀ s k, ∀ u ∈ under o s k, refConnG (findIdx vals) i s.repr k u =
        .ok ((refConnG (findIdx vals) i s.repr k u).toOption.getD ⟨none, none, 0, 0, ""⟩) := by
      intro s k u hu
      obtain ⟨t, ht, hc, hu⟩ := (refs_joins hr h1 h2 h3 h4 s k u).1 hu
      obtain ⟨j, hj⟩ := List.mem_iff_getElem?.1 ht
      rw [href s k u j t hj hc hu]
      rfl
    obtain ⟨cs, hcs, hmem⟩ := rawRefsG_wireJson hd
      (g := fun s k u => (refConnG (findIdx vals) i s.repr k u).toOption.getD ⟨none, none, 0, 0, ""⟩) hg
    refine ⟨cs, by rw [h5]; exact hcs, fun c => (hmem c).trans ?_⟩
    constructor
    · rintro ⟨s, k, u, hu, rfl⟩
      obtain ⟨t, ht, hc, hu⟩ := (refs_joins hr h1 h2 h3 h4 s k u).1 hu
      obtain ⟨j, hj⟩ := List.mem_iff_getElem?.1 ht
      refine ⟨j, t, s, k, hj, hc, ?_⟩
      rw [href s k u j t hj hc hu]
      rfl
    · rintro ⟨j, t, s, k, hj, hc, rfl⟩
      refine ⟨s, k, _, (refs_joins hr h1 h2 h3 h4 s k _).2 ⟨t, List.mem_of_getElem? hj, hc, rfl⟩, ?_⟩
      rw [href s k _ j t hj hc rfl]
      rfl
  obtain ⟨css, hcss⟩ := mapM_except_ok (l := List.range vals.length)
    (f := fun i => rawRefsG (findIdx vals) i (vals.getD i default).raw) (fun i hi => by
      rw [List.mem_range] at hi
      obtain ⟨cs, hcs, -⟩ := hone i (by omega)
      exact ⟨cs, hcs⟩)
  refine ⟨css.flatten, ?_, fun c => ?_⟩
  · unfold pureWires
    rw [hcss]
    rfl
  · rw [List.mem_flatten]
    constructor
    · rintro ⟨l, hl, hc⟩
      obtain ⟨i, hi, h⟩ := (mem_mapM_except hcss l).1 hl
      rw [List.mem_range] at hi
      obtain ⟨cs, hcs, hm⟩ := hone i (by omega)
      have : cs = l := Except.ok.inj (hcs.symm.trans h)
      subst this
      obtain ⟨j, t, s, k, hj, hJ, rfl⟩ := (hm c).1 hc
      exact ⟨i, j, _, t, s, k, List.getElem?_eq_getElem (by omega), hj, hJ, rfl⟩
    · rintro ⟨i, j, r, t, s, k, hi, hj, hc, rfl⟩
      obtain ⟨hi', rfl⟩ := List.getElem?_eq_some_iff.1 hi
      obtain ⟨cs, hcs, hm⟩ := hone i hi'
      exact ⟨cs, (mem_mapM_except hcss cs).2 ⟨i, List.mem_range.2 (by omega), hcs⟩,
        (hm _).2 ⟨j, t, s, k, hj, hc, rfl⟩⟩

/-- Reading exported schedules. -/
theorem schedules_again {w : World} (ho : Owned w) {b : BpId} (hr : Reloadable w b) {vals : List Entity}
    (hv : vals.map (·.number) = (w.bp b).objs.map (fun r => (w.heap r).auto)) :
    ((w.bp b).schedules.map (scheduleJson w.heap)).mapM (pureSched vals) =
      .ok ((w.bp b).schedules.map (fun s => (s.1.map (List.idxOf · (w.bp b).objs), s.2))) := by
  rw [mapM_map']
  refine mapM_ok_of (fun s hs => ?_)
  have hids : ∀ l : List Ref, (∀ r ∈ l, r ∈ (w.bp b).objs) →
      (l.map (fun r => autoVal (w.heap r).auto)).filterMap (findIdx vals) =
        l.map (List.idxOf · (w.bp b).objs) := by
    intro l
    induction l with
    | nil => intro _; rfl
    | cons r l ih =>
      intro h
      obtain ⟨j, hj⟩ := List.mem_iff_getElem?.1 (h r (List.mem_cons_self ..))
      rw [List.map_cons, List.filterMap_cons_some (findIdx_place ho hr hv hj),
        ih (fun x hx => h x (List.mem_cons_of_mem _ hx)), List.map_cons, idxOf_getElem? (ho.nodup b) hj]
  have h : pureSched vals (scheduleJson w.heap s) =
      .ok ((s.1.map (fun r => autoVal (w.heap r).auto)).filterMap (findIdx vals), s.2) := rfl
  rw [h, hids s.1 (hr.schedules s hs)]

/-! ## The whole import -/

theorem getD_eq_lookup (d : Dict) (k : String) (x : Val) : Dict.getD d k x = (List.lookup k d).getD x := rfl

theorem reload_in {C : Custom} {env : Env} {w : World} (hre : Reachable env w) {b : BpId} (hfit : Fitting C w b)
    (hr : Reloadable w b) {v : Val} {w1 : World}
    (he : toJson b w = (.ok v, w1)) {w2 : World} (ho2 : Owned w2) (henv : w2.env = w.env) {b2 : BpId}
    (hb : BlankWith C (w2.bp b2)) :
    ∃ w3, load b2 v w2 = (.ok (), w3) ∧ (Owned w3 → SameBlueprint w b w3 b2) := by
  have ho := hre.owned
  obtain ⟨ents, icons, hic, rfl, hlen, hparts⟩ := export_parts ho he
  obtain ⟨hobjs, htiles, hcol, hcustom⟩ := hb
  have htl : (w.bp b).tiles = [] := hre.noTiles b
  obtain ⟨L1, L2, L3, L4, L5, L6, L7, L8, -⟩ := export_lookup (w.bp b) ents icons
    ((w.bp b).schedules.map (scheduleJson w.heap))
  generalize hd : exportDict (w.bp b) ents icons ((w.bp b).schedules.map (scheduleJson w.heap)) = d at *
  obtain ⟨ic, hic1, hic2⟩ := icons_trip hic (hre.fourIcons b)
  obtain ⟨col, hcol1, hcol2⟩ : ∃ col, colorAfter (w2.bp b2).labelColor (Dict.getD d "label_color" .none) = .ok col ∧
      Option.Rel SameColor (w.bp b).labelColor col := by
    rw [hcol, getD_eq_lookup, L3]
    cases hc : (w.bp b).labelColor with
    | none => exact ⟨none, rfl, .none⟩
    | some c =>
      obtain ⟨c', h1, h2⟩ := color_trip (Color.Made.range (hre.colors b c hc))
      refine ⟨some c', ?_, .some h2⟩
      show (do return some (← Color.ofVal c.toJson) : Except Exc (Option Color)) = _
      rw [h1]
      rfl
  have hcus : w2.customOf (some b2) = some C := by
    show some (w2.bp b2).custom = _
    rw [hcustom]
  obtain ⟨es, hes, heslen, hagain⟩ := entities_again hfit ho hr hlen
    (fun i hi => by obtain ⟨d, o, cs, h1, h2, -⟩ := hparts i hi; exact ⟨d, _, h1, h2⟩) b2 hcus
  have hsorted : sortBy (fun a b => posLe a.pos b.pos) es = es := by
    refine sortBy_of_sorted (le := fun a b : Entity => posLe a.pos b.pos) ⟨?_, ?_⟩ ?_
    · intro a b; simp only [posLe_iff, Before]; grind
    · intro a b c; simp only [posLe_iff, Before]; grind
    · rw [List.pairwise_iff_getElem]
      intro i j hi hj hij
      have e1 : ∀ i (hi : i < es.length), es[i].pos = (w.heap ((w.bp b).objs[i]'(by omega))).pos := by
        intro i hi
        obtain ⟨d, o, cs, h1, h2, -⟩ := hparts i (by omega)
        exact (hagain i (by omega) hi _ _ h1 h2).pos
      rw [posLe_iff, e1 i hi, e1 j hj]
      exact (List.pairwise_iff_getElem.1 hr.sorted) i j _ _ hij
  have hvals : (w2.base b2 d col ic es).vals b2 = renumber es := by
    rw [base_vals ho2, hobjs, List.map_nil, List.nil_append, hsorted]
  have hnumber : (renumber es).map (·.number) = (w.bp b).objs.map (fun r => (w.heap r).auto) := by
    refine List.ext_getElem (by simp [renumber, heslen]) (fun i h1 h2 => ?_)
    simp only [List.length_map] at h2
    obtain ⟨d, o, cs, g1, g2, -⟩ := hparts i h2
    have := (hagain i h2 (by omega) _ _ g1 g2).number
    simpa [renumber] using this
  obtain ⟨cs, hcs, hmem⟩ := wires_again ho hr hnumber (fun i hi => by
    obtain ⟨d, o, cs, g1, g2, g3, g4, g5, g6, g7⟩ := hparts i hi
    refine ⟨o, cs, g3, g4, g5, g6, g7, ?_⟩
    have := (hagain i hi (by omega) _ _ g1 g2).raw
    rw [List.getD_eq_getElem?_getD, List.getElem?_eq_getElem (by simp [renumber]; omega)]
    simpa [renumber] using this)
  have hscheds := schedules_again ho hr hnumber
  have hlistD : ∀ l : List Val, (Option.getD (if l = [] then none else some (Val.list l)) (.list [])).iter = .ok l := by
    intro l
    split
    · rename_i e; subst e; rfl
    · rfl
  obtain ⟨w3, hload, hview⟩ := (load_view (b := b2) (data := .dict [("blueprint", .dict d)]) ho2 _).2
    ⟨d, col, icons, ic, ents, es, cs, (w.bp b).schedules.map (scheduleJson w.heap), _, rfl, hcol1,
      by rw [getD_eq_lookup, L6]; rfl, by rw [henv]; exact hic1, by rw [getD_eq_lookup, L4]; exact hlistD ents,
      by rw [henv]; exact hes, by rw [hvals]; exact hcs,
      fun c hc => by
        obtain ⟨i, j, r, t, s, k, -, -, -, rfl⟩ := (hmem c).1 hc
        exact ⟨by simp, by simp⟩,
      by rw [getD_eq_lookup, L5, htl]; rfl, by rw [getD_eq_lookup, L8]; exact hlistD _,
      by rw [hvals]; exact hscheds, rfl⟩
  refine ⟨w3, hload, fun ho3 => ?_⟩
  have henv3 : w3.env = w.env := by
    obtain ⟨_, _, _, _, _, _, _, _, _, -, -, -, -, -, -, -, -, -, -, -, rfl⟩ := (load_ok ho2).1 hload
    rw [setBp_env, base_env, henv]
  rw [hvals] at hview
  have hV1 : (w3.bp b2).objs.map w3.heap = renumber es := congrArg View.entities hview
  have hV2 := congrArg View.wires hview
  have hV3 : (w3.bp b2).schedules.map (fun s => (s.1.map (List.idxOf · (w3.bp b2).objs), s.2)) =
    (w.bp b).schedules.map (fun s => (s.1.map (List.idxOf · (w.bp b).objs), s.2)) := congrArg View.schedules hview
  have hV4 : (w3.bp b2).tiles = _ := congrArg View.tiles hview
  have hV5 : (w3.bp b2).item = _ := congrArg View.item hview
  have hV6 : (w3.bp b2).label = _ := congrArg View.label hview
  have hV7 : (w3.bp b2).labelColor = _ := congrArg View.labelColor hview
  have hV8 : (w3.bp b2).icons = _ := congrArg View.icons hview
  have hV9 : (w3.bp b2).version = _ := congrArg View.version hview
  have hcount : (w3.bp b2).objs.length = (w.bp b).objs.length := by
    have := congrArg List.length hV1
    simpa [renumber, heslen] using this
  have hrl : (renumber es).length = (w.bp b).objs.length := by simp [renumber, heslen]
  have hwires : ∀ c ∈ (w3.bp b2).conns, ∃ (i j : Nat) (r t r' t' : Ref) (s : Int) (k : String),
      (w.bp b).objs[i]? = some r ∧ (w.bp b).objs[j]? = some t ∧
      (w3.bp b2).objs[i]? = some r' ∧ (w3.bp b2).objs[j]? = some t' ∧
      (∃ c ∈ (w.bp b).conns, Joins c r s t s k) ∧ Joins c r' s t' s k := by
    intro c hc
    have hp : place (w3.bp b2).objs c ∈ (view w3 b2).wires := List.mem_map.2 ⟨c, hc, rfl⟩
    rw [hV2] at hp
    obtain ⟨c1, hc1, hc2⟩ := List.mem_map.1 hp
    rcases mem_foldl_addConn hc1 with h | h
    · cases h
    · obtain ⟨i, j, r, t, s, k, hi, hj, hJ, rfl⟩ := (hmem c1).1 h
      have hJ' : Joins (place (w3.bp b2).objs c) i s j s k := by
        rw [← hc2]
        exact joins_of_sameWire (SameWire.orientTo _ _)
      have hi' : i < (w3.bp b2).objs.length := by have := (List.getElem?_eq_some_iff.1 hi).1; omega
      have hj' : j < (w3.bp b2).objs.length := by have := (List.getElem?_eq_some_iff.1 hj).1; omega
      rcases hJ'.2 with ⟨h1, h2, h3, h4⟩ | ⟨h1, h2, h3, h4⟩
      · obtain ⟨r', hr1, hr2⟩ := idxOf_some h1 hi'
        obtain ⟨t', ht1, ht2⟩ := idxOf_some h3 hj'
        exact ⟨i, j, r, t, r', t', s, k, hi, hj, hr2, ht2, hJ, hJ'.1, .inl ⟨hr1, h2, ht1, h4⟩⟩
      · obtain ⟨r', hr1, hr2⟩ := idxOf_some h3 hi'
        obtain ⟨t', ht1, ht2⟩ := idxOf_some h1 hj'
        exact ⟨i, j, r, t, r', t', s, k, hi, hj, hr2, ht2, hJ, hJ'.1, .inr ⟨ht1, h2, hr1, h4⟩⟩
  have hnoOther : ∀ c ∈ (w3.bp b2).conns, ∃ r ∈ (w3.bp b2).objs, ∃ s ∈ (w3.bp b2).objs,
      c.fromE = some r ∧ c.toE = some s := by
    intro c hc
    obtain ⟨i, j, r, t, r', t', s, k, -, -, hi, hj, -, hJ⟩ := hwires c hc
    rcases hJ.2 with ⟨h1, h2, h3, h4⟩ | ⟨h1, h2, h3, h4⟩
    · exact ⟨r', List.mem_of_getElem? hi, t', List.mem_of_getElem? hj, h1, h3⟩
    · exact ⟨t', List.mem_of_getElem? hj, r', List.mem_of_getElem? hi, h1, h3⟩
  have hheap : ∀ (i : Nat) (r' : Ref), (w3.bp b2).objs[i]? = some r' → ∃ hi : i < es.length,
      w3.heap r' = { es[i] with auto := some ((i : Int) + 1) } := by
    intro i r' h
    obtain ⟨hi, rfl⟩ := List.getElem?_eq_some_iff.1 h
    refine ⟨by omega, ?_⟩
    have := List.getElem_of_eq hV1 (i := i) (by simpa using hi)
    simpa [renumber] using this
  have hauto : ∀ r' ∈ (w3.bp b2).objs, ∃ n, (w3.heap r').auto = some n := by
    intro r' h
    obtain ⟨i, hi⟩ := List.mem_iff_getElem?.1 h
    obtain ⟨_, e⟩ := hheap i r' hi
    rw [e]
    exact ⟨_, rfl⟩
  constructor
  · exact hcount
  · intro i r r' hi hi'
    obtain ⟨hlt, rfl⟩ := List.getElem?_eq_some_iff.1 hi
    obtain ⟨he', hh⟩ := hheap i r' hi'
    obtain ⟨d, o, cs, g1, g2, -⟩ := hparts i hlt
    have ha := hagain i hlt he' _ _ g1 g2
    have hs := settings_of_base g2
    refine ⟨by rw [hh]; exact ha.name, by rw [hh]; exact ha.pos, _,
      hasSettings (ho.layer b _ (List.getElem_mem hlt)) hr.joined hr.ends hs, ?_⟩
    refine hasSettings (ho3.layer b2 _ (List.mem_of_getElem? hi')) ?_ ?_ ?_
    · intro c hc
      obtain ⟨_, -, _, -, h1, h2⟩ := hnoOther c hc
      exact ⟨by rw [h1]; simp, by rw [h2]; simp⟩
    · intro c hc s hs
      obtain ⟨x, hx, y, hy, h1, h2⟩ := hnoOther c hc
      rcases hs with hs | hs
      · rw [h1] at hs; cases hs; exact hauto _ hx
      · rw [h2] at hs; cases hs; exact hauto _ hy
    · rw [hh, henv3]
      have : Entity.settings w.env { es[i] with auto := some ((i : Int) + 1) } = es[i].settings w.env := rfl
      rw [this]
      unfold Entity.settings
      rw [ha.rest, ha.name, ha.pos]
      exact hs
  · intro i sa j sb k
    constructor
    · rintro ⟨c, hc, r1, r2, h1, h2, hJ⟩
      obtain ⟨i', j', r, t, r', t', s, k', hi, hj, hi2, hj2, ⟨c0, hc0, hJ0⟩, hJ'⟩ := hwires c hc
      have hinj : ∀ {x y : Nat} {r : Ref}, (w3.bp b2).objs[x]? = some r → (w3.bp b2).objs[y]? = some r → x = y :=
        fun hx hy => (idxOf_getElem? (ho3.nodup b2) hx).symm.trans (idxOf_getElem? (ho3.nodup b2) hy)
      obtain rfl : k' = k := hJ'.1.symm.trans hJ.1
      have key : (r1 = r' ∧ sa = s ∧ r2 = t' ∧ sb = s) ∨ (r1 = t' ∧ sa = s ∧ r2 = r' ∧ sb = s) := by
        rcases hJ.2 with ⟨a1, a2, a3, a4⟩ | ⟨a1, a2, a3, a4⟩ <;>
        rcases hJ'.2 with ⟨b1, b2, b3, b4⟩ | ⟨b1, b2, b3, b4⟩
        · exact .inl ⟨Option.some.inj (a1.symm.trans b1), a2.symm.trans b2, Option.some.inj (a3.symm.trans b3), a4.symm.trans b4⟩
        · exact .inr ⟨Option.some.inj (a1.symm.trans b1), a2.symm.trans b2, Option.some.inj (a3.symm.trans b3), a4.symm.trans b4⟩
        · exact .inr ⟨Option.some.inj (a3.symm.trans b3), a4.symm.trans b4, Option.some.inj (a1.symm.trans b1), a2.symm.trans b2⟩
        · exact .inl ⟨Option.some.inj (a3.symm.trans b3), a4.symm.trans b4, Option.some.inj (a1.symm.trans b1), a2.symm.trans b2⟩
      rcases key with ⟨rfl, rfl, rfl, rfl⟩ | ⟨rfl, rfl, rfl, rfl⟩
      · obtain rfl := hinj h1 hi2
        obtain rfl := hinj h2 hj2
        exact ⟨c0, hc0, r, t, hi, hj, hJ0⟩
      · obtain rfl := hinj h1 hj2
        obtain rfl := hinj h2 hi2
        exact ⟨c0, hc0, t, r, hj, hi, joins_symm hJ0⟩
    · rintro ⟨c0, hc0, r, t, hi, hj, hJ0⟩
      have hside : sa = sb := by
        obtain ⟨_, -, _, -, -, -, h, -⟩ := hr.wires c0 hc0
        rcases hJ0.2 with ⟨a1, a2, a3, a4⟩ | ⟨a1, a2, a3, a4⟩
        · rw [← a2, ← a4, h]
        · rw [← a2, ← a4, h]
      subst hside
      refine (wired_view (ho3.nodup b2)).2 ⟨by have := (List.getElem?_eq_some_iff.1 hi).1; omega,
        by have := (List.getElem?_eq_some_iff.1 hj).1; omega, ?_⟩
      obtain ⟨d, hd1, hd2⟩ := foldl_addConn_has cs [] _ ((hmem _).2 ⟨i, j, r, t, sa, k, hi, hj, ⟨c0, hc0, hJ0⟩, rfl⟩)
      rw [hV2]
      refine ⟨_, List.mem_map.2 ⟨d, hd1, rfl⟩, ?_⟩
      exact joins_of_sameWire ((SameWire.orientTo _ _).trans hd2)
  · exact hnoOther
  · refine List.forall₂_iff_get.2 ⟨by simpa using (congrArg List.length hV3).symm, fun i h1 h2 => ?_⟩
    have hg := List.getElem_of_eq hV3 (i := i) (by simpa using h2)
    simp only [List.getElem_map, Prod.mk.injEq] at hg
    refine ⟨hg.2, ?_⟩
    refine List.forall₂_iff_get.2 ⟨by simpa using (congrArg List.length hg.1).symm, fun j h3 h4 => ?_⟩
    have hj := List.getElem_of_eq hg.1 (i := j) (by simpa using h4)
    simp only [List.getElem_map] at hj
    have hm : (w.bp b).schedules[i].1[j] ∈ (w.bp b).objs :=
      hr.schedules _ (List.getElem_mem _) _ (List.getElem_mem _)
    have hlt := List.idxOf_lt_length_iff.2 hm
    obtain ⟨x, hx1, hx2⟩ := idxOf_some (o := some (w.bp b).schedules[i].1[j]) rfl hlt
    obtain ⟨y, hy1, hy2⟩ := idxOf_some (l := (w3.bp b2).objs) (o := some (w3.bp b2).schedules[i].1[j])
      (i := List.idxOf (w.bp b).schedules[i].1[j] (w.bp b).objs) (congrArg some hj) (by omega)
    cases hx1
    cases hy1
    exact ⟨_, hx2, hy2⟩
  · intro k
    unfold iconAt
    rw [hV8]
    exact hic2 k
  · rw [hV5]; show Dict.getD d _ _ = _; rw [getD_eq_lookup, L1]; rfl
  · rw [hV6]; show Dict.getD d _ _ = _; rw [getD_eq_lookup, L2]
    split
    · rename_i h; rw [h]; rfl
    · rfl
  · rw [hV9]; show Dict.getD d _ _ = _; rw [getD_eq_lookup, L7]; rfl
  · rw [hV4, htl]; show sortBy _ (w2.bp b2).tiles = _; rw [htiles]; rfl
  · rw [hV7]; exact hcol2

theorem reload {env : Env} {w : World} (hw : SteadyRun env w) {b : BpId} (hr : Reloadable w b) {v : Val} {w1 : World}
    (he : toJson b w = (.ok v, w1)) {w2 : World} (ho2 : Owned w2) (henv : w2.env = w.env) {b2 : BpId}
    (hb : Blank (w2.bp b2)) :
    ∃ w3, load b2 v w2 = (.ok (), w3) ∧ (Owned w3 → SameBlueprint w b w3 b2) :=
  reload_in hw.reachable (hw.fitting hw.reachable.owned hr.strict) hr he ho2 henv hb

end Verif
