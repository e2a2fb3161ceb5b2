import Verif.Proofs.DataWires
import Verif.Props.Load
import Verif.Props.Content
import Verif.Props.Wires
import Verif.Props.Shown
import Verif.Props.Construct
import Verif.Props.FloatText
/-!
# The wiring of the exported data is the wiring of the imported data (C84)
-/
set_option autoImplicit false

namespace Verif
open Spec

/-- After importing entries with different numbers into a blueprint without entities, a reference stands in the
connection data of the `i`-th new entity exactly if it stands in the `i`-th entry. -/
theorem refers_iff {env : Env} {w w1 : World} (h : Reachable env w) {b : BpId} {data : Val} {d : Dict} {l : List Val}
    (hd : Content data d) (hl : ListAt d "entities" l) (hn : DistinctIds l) (hb : (w.bp b).objs = [])
    (hw : load b data w = (.ok (), w1)) {i j : Nat} (hi : i < l.length) (hj : j < l.length) {sa sb : Int} {color : String} :
    Refers w1 b (w.next + i) sa (w.next + j) sb color ↔
      ∃ kw kw' m, l[i]? = some (.dict kw) ∧ l[j]? = some (.dict kw') ∧ NumberOf kw' m ∧ Lists kw sa color m sb := by
  obtain ⟨-, hord⟩ := C13_load h hd hl hw
  rw [hb, List.nil_append] at hord
  have hmem : ∀ s, s ∈ (w1.bp b).objs ↔ ∃ k, k < l.length ∧ s = w.next + k := fun s => by
    rw [hord.same.mem_iff, List.mem_range']
    simp
  have hnd : (w1.bp b).objs.Nodup := hord.same.nodup_iff.2 List.nodup_range'
  have hinj : ∀ r ∈ (w1.bp b).objs, ∀ s ∈ (w1.bp b).objs, (w1.heap r).number = (w1.heap s).number → r = s := by
    intro r hr s hs e
    obtain ⟨k, hk, rfl⟩ := (hmem r).1 hr
    obtain ⟨k', hk', rfl⟩ := (hmem s).1 hs
    obtain ⟨kw, q1, -, q3⟩ := load_entry h hd hl hw hk
    obtain ⟨kw', r1, -, r3⟩ := load_entry h hd hl hw hk'
    rw [hn k k' kw kw' _ q1 r1 q3 (e ▸ r3)]
  obtain ⟨kw, q1, q2, q3⟩ := load_entry h hd hl hw hi
  obtain ⟨kw', r1, r2, r3⟩ := load_entry h hd hl hw hj
  unfold Refers
  constructor
  · rintro ⟨side, c, id, g1, g2, g3, g4, g5⟩
    rw [q2] at g1
    cases hc : List.lookup "connections" kw with
    | none => rw [hc] at g1; obtain ⟨_, _, _, g1, -⟩ := g1; cases g1
    | some raw =>
      rw [hc] at g1
      exact ⟨kw, kw', _, q1, r1, r3, raw, side, c, id, hc, g1, g2, ((firstWithId_iff hinj hnd).1 g3).2, g4, g5⟩
  · rintro ⟨kx, ky, m, g1, g2, g3, raw, side, c, id, g4, g5, g6, g7, g8, g9⟩
    rw [q1] at g1
    rw [r1] at g2
    cases g1; cases g2
    cases NumberOf.inj g3 r3
    refine ⟨side, c, id, ?_, g6, (firstWithId_iff hinj hnd).2 ⟨(hmem _).2 ⟨j, hj, rfl⟩, g7⟩, g8, g9⟩
    rw [q2, g4]
    exact g5

/-- The wires of a blueprint that was imported into an empty one are those that the data describe. -/
theorem C84_import {env : Env} {w w1 : World} (h : Reachable env w) {b : BpId} {data : Val} {d : Dict} {l : List Val}
    (hd : Content data d) (hl : ListAt d "entities" l) (hn : DistinctIds l) (hb : (w.bp b).objs = [])
    (hw : load b data w = (.ok (), w1)) {i j : Nat} (hi : i < l.length) (hj : j < l.length) (sa sb : Int) (color : String) :
    (∃ c ∈ (w1.bp b).conns, Joins c (w.next + i) sa (w.next + j) sb color) ↔ DataWire l i sa j sb color := by
  obtain ⟨k1, k2, -⟩ := C29_wires h hw
  obtain ⟨-, hord⟩ := C13_load h hd hl hw
  rw [hb, List.nil_append] at hord
  have hmem : ∀ s, s ∈ (w1.bp b).objs ↔ ∃ k, k < l.length ∧ s = w.next + k := fun s => by
    rw [hord.same.mem_iff, List.mem_range']
    simp
  have href := fun {i j : Nat} (hi : i < l.length) (hj : j < l.length) {sa sb : Int} =>
    refers_iff h hd hl hn hb hw hi hj (sa := sa) (sb := sb) (color := color)
  constructor
  · rintro ⟨c, hc, hjn⟩
    obtain ⟨a, ha, ta, s, tb, color', hr, hjn'⟩ := k2 c hc
    have e : color' = color := hjn'.1.symm.trans hjn.1
    subst e
    have hends : (a = w.next + i ∧ ta = sa ∧ s = w.next + j ∧ tb = sb) ∨
        (a = w.next + j ∧ ta = sb ∧ s = w.next + i ∧ tb = sa) := by
      obtain ⟨-, hjn⟩ := hjn
      obtain ⟨-, hjn'⟩ := hjn'
      rcases hjn with ⟨p1, p2, p3, p4⟩ | ⟨p1, p2, p3, p4⟩ <;> rcases hjn' with ⟨q1, q2, q3, q4⟩ | ⟨q1, q2, q3, q4⟩ <;>
        rw [p1] at q1 <;> rw [p3] at q3 <;> cases q1 <;> cases q3 <;> subst p2 p4 q2 q4 <;> simp
    obtain ⟨kw, g1, -, g3⟩ := load_entry h hd hl hw hi
    obtain ⟨kw', g1', -, g3'⟩ := load_entry h hd hl hw hj
    rcases hends with ⟨rfl, rfl, rfl, rfl⟩ | ⟨rfl, rfl, rfl, rfl⟩
    · obtain ⟨kx, ky, m, f1, f2, f3, f4⟩ := (href hi hj).1 hr
      rw [g1] at f1
      cases f1
      exact ⟨_, ky, _, m, g1, f2, g3, f3, .inl f4⟩
    · obtain ⟨kx, ky, m, f1, f2, f3, f4⟩ := (href hj hi).1 hr
      rw [g1'] at f1
      cases f1
      exact ⟨ky, _, m, _, f2, g1', f3, g3', .inr f4⟩
  · rintro ⟨kw, kw', n, m, f1, f2, f3, f4, f5 | f5⟩
    · exact k1 _ ((hmem _).2 ⟨i, hi, rfl⟩) sa _ sb color ((href hi hj).2 ⟨kw, kw', m, f1, f2, f4, f5⟩)
    · obtain ⟨c, hc, hcol, hjn⟩ := k1 _ ((hmem _).2 ⟨j, hj, rfl⟩) sb _ sa color
        ((href hj hi).2 ⟨kw', kw, n, f2, f1, f3, f5⟩)
      exact ⟨c, hc, hcol, hjn.symm⟩

/-- The export of a blueprint that was imported into an empty one describes what the imported data describe. (The
connector numbers inside exported references are left out, see C27.) -/
theorem C84_export {env : Env} {w w1 w2 : World} (h : Reachable env w) {b : BpId} {data v : Val} {d : Dict} {l : List Val}
    (hd : Content data d) (hl : ListAt d "entities" l) (hn : DistinctIds l) (hb : (w.bp b).objs = [])
    (hw : load b data w = (.ok (), w1)) (he : toJson b w1 = (.ok v, w2)) :
    Redrawn w.env (w.bp b) (fun i => w1.heap (w.next + i)) d l v := by
  obtain ⟨o, out, ho, hout, hlen, place, hinj, hall⟩ := C83_import h hd hl hw he
  rw [hb, List.length_nil, Nat.zero_add] at hlen
  have h1 : Reachable env w1 := by
    have := Reachable.step (.load b data) h trivial
    have e : ((Op.load b data).run w).2 = w1 := by
      show (load b data w).2 = w1
      rw [hw]
    rwa [e] at this
  obtain ⟨-, hord⟩ := C13_load h hd hl hw
  rw [hb, List.nil_append] at hord
  have hmem : ∀ s, s ∈ (w1.bp b).objs ↔ ∃ k, k < l.length ∧ s = w.next + k := fun s => by
    rw [hord.same.mem_iff, List.mem_range']
    simp
  obtain ⟨-, hex⟩ := C26_export h1 he ho hout
  have hauto : ∀ k < l.length, (w1.heap (w.next + k)).auto = some ((place k : Int) + 1) := fun k hk => by
    obtain ⟨-, -, _, -, -, rfl, q, -⟩ := hall k hk
    obtain ⟨hp, hq⟩ := List.getElem?_eq_some_iff.1 q
    rw [← hq]
    exact hord.numbered _ hp
  have hends : ∀ c ∈ (w1.bp b).conns, ∃ k < l.length, ∃ k' < l.length,
      c.fromE = some (w.next + k) ∧ c.toE = some (w.next + k') := by
    intro c hc
    obtain ⟨a, ha, sa, s, sb, color, ⟨side, c', id, -, -, hf, -⟩, -, hj⟩ := (C29_wires h hw).2.1 c hc
    obtain ⟨p, q, hpq, -⟩ := hf
    obtain ⟨k, hk, rfl⟩ := (hmem a).1 ha
    obtain ⟨k', hk', rfl⟩ := (hmem s).1 (by rw [hpq]; simp)
    rcases hj with hj | hj
    · exact ⟨k, hk, k', hk', hj.1, hj.2.2.1⟩
    · exact ⟨k', hk', k, hk, hj.1, hj.2.2.1⟩
  refine ⟨o, out, ho, hout, hlen, place, hinj, fun ls outs hls houts => ?_, fun i hi => ?_⟩
  · obtain ⟨s1, s2⟩ := C41_schedules h hd hls hw he ho houts
    rw [List.forall₂_iff_get]
    refine ⟨s1.symm, fun k hk hk' => ?_⟩
    obtain ⟨s, content, locos, nums, t1, t2, t3, t4, t5⟩ := s2 k hk hk'
    refine ⟨s, content, locos, nums, t1, t2, t3, t4, fun ids hids => ?_⟩
    have hr := t5 ids hids
    clear t1 t2 t3 t4 t5 hids
    induction hr with
    | nil => exact .nil
    | @found id ids nums r n hf ha _ ih =>
      obtain ⟨p, q, hpq, hid, -⟩ := hf
      obtain ⟨k', hk', rfl⟩ := (hmem r).1 (by rw [hpq]; simp)
      rw [hauto k' hk'] at ha
      cases ha
      obtain ⟨kw, g1, -, g3⟩ := load_entry h hd hl hw hk'
      exact .found g1 g3 hid ih
    | dropped hno _ ih =>
      refine .dropped (fun i kw n f1 f2 hid => ?_) ih
      have hi := (List.getElem?_eq_some_iff.1 f1).1
      obtain ⟨kw', g1, -, g3⟩ := load_entry h hd hl hw hi
      rw [f1] at g1
      cases g1
      cases NumberOf.inj f2 g3
      exact hno _ ((hmem _).2 ⟨i, hi, rfl⟩) hid
  obtain ⟨kw, x, _, q1, q2, rfl, q3, q4, q5, q6⟩ := hall i hi
  obtain ⟨hp, hq⟩ := List.getElem?_eq_some_iff.1 q3
  obtain ⟨x', r1, r2, r3, -⟩ := hex _ hp
  rw [q2] at r1
  cases r1
  rw [hq] at r2 r3
  rw [hauto i hi] at r2
  refine ⟨kw, x, q1, q2, r2, q4, q5, q6, fun j hj sa color => ?_, fun j hj hji sa color => ?_, fun sa color u hu => ?_⟩
  · rw [show (∃ sb, DataWire l i sa j sb color) ↔ ∃ sb, ∃ c ∈ (w1.bp b).conns, Joins c (w.next + i) sa (w.next + j) sb color from
      exists_congr fun sb => (C84_import h hd hl hn hb hw hi hj sa sb color).symm]
    constructor
    · rintro ⟨u, hu, hid⟩
      have := (r3 sa color).mem_iff.1 (List.mem_map.2 ⟨u, hu, rfl⟩)
      obtain ⟨⟨f, sb⟩, hpm, hnu⟩ := List.mem_map.1 this
      rw [hid] at hnu
      obtain ⟨c, hc, hcol, hfar⟩ := mem_farEnds.1 hpm
      obtain ⟨k, hk, k', hk', e1, e2⟩ := hends c hc
      have far : ∀ m < l.length, f = some (w.next + m) → m = j := by
        rintro m hm rfl
        refine hinj m hm j hj ?_
        have hnu : some (autoVal (w1.heap (w.next + m)).auto) = some (.int (place j + 1)) := hnu
        rw [hauto m hm] at hnu
        have hnu : some (Val.int ((place m : Int) + 1)) = some (.int (place j + 1)) := hnu
        simp only [Option.some.injEq, Val.num.injEq, Num.int.injEq] at hnu
        omega
      refine ⟨sb, c, hc, hcol, ?_⟩
      rcases hfar with ⟨f1, f2, f3, f4⟩ | ⟨f1, f2, f3, f4⟩
      · have := far k' hk' (f3.symm.trans e2)
        subst this
        exact .inl ⟨f1, f2, e2, f4⟩
      · have := far k hk (f3.symm.trans e1)
        subst this
        exact .inr ⟨e1, f4, f1, f2⟩
    · rintro ⟨sb, c, hc, hcol, hjn⟩
      have hm : (some (w.next + j), sb) ∈ farEnds (w1.bp b).conns (w.next + i) sa color := by
        refine mem_farEnds.2 ⟨c, hc, hcol, ?_⟩
        rcases hjn with ⟨h1, h2, h3, h4⟩ | ⟨h1, h2, h3, h4⟩
        · exact .inl ⟨h1, h2, h3, h4⟩
        · exact .inr ⟨h3, h4, h1, h2⟩
      obtain ⟨u, hu, hid⟩ := List.mem_map.1 ((r3 sa color).mem_iff.2 (List.mem_map.2 ⟨_, hm, rfl⟩))
      refine ⟨u, hu, hid.trans ?_⟩
      show some (autoVal (w1.heap (w.next + j)).auto) = _
      rw [hauto j hj]
      rfl
  · refine ⟨((farEnds (w1.bp b).conns (w.next + i) sa color).filter (fun p => decide (p.1 = some (w.next + j)))).map Prod.snd,
      ?_, fun sb => ?_, ?_⟩
    · refine List.Nodup.map_on ?_ (farEnds_nodup (fun e => hji (Nat.add_left_cancel e)) (C29_wires h hw).2.2)
      rintro ⟨f, z⟩ hp ⟨f', z'⟩ hp' (rfl : z = z')
      rw [List.mem_filter, decide_eq_true_eq] at hp hp'
      rw [Prod.mk.injEq]
      exact ⟨hp.2.trans hp'.2.symm, rfl⟩
    · rw [← C84_import h hd hl hn hb hw hi hj sa sb color, ← mem_farEnds_joins, List.mem_map]
      constructor
      · rintro ⟨⟨f, z⟩, hp, rfl⟩
        rw [List.mem_filter, decide_eq_true_eq] at hp
        obtain ⟨hp, rfl⟩ := hp
        exact hp
      · intro hp
        exact ⟨_, List.mem_filter.2 ⟨hp, by simp⟩, rfl⟩
    · rw [(r3 sa color).count_eq, List.length_map, List.count, List.countP_map, List.countP_eq_length_filter]
      congr 1
      refine List.filter_congr fun p hpm => ?_
      obtain ⟨f, sb⟩ := p
      obtain ⟨c, hc, hcol, hfar⟩ := mem_farEnds.1 hpm
      obtain ⟨k, hk, k', hk', e1, e2⟩ := hends c hc
      have far : ∀ m < l.length, f = some (w.next + m) →
          ((fun y => y == some (.int (place j + 1))) ∘ farNumber w1) (f, sb) = decide ((f, sb).1 = some (w.next + j)) := by
        rintro m hm rfl
        show (some (autoVal (w1.heap (w.next + m)).auto) == some (Val.int (place j + 1))) = _
        rw [hauto m hm, Bool.eq_iff_iff, beq_iff_eq, decide_eq_true_eq]
        show some (Val.int ((place m : Int) + 1)) = some (.int (place j + 1)) ↔ _
        simp only [Option.some.injEq, Val.num.injEq, Num.int.injEq]
        constructor
        · intro e
          rw [hinj m hm j hj (by omega)]
        · intro e
          rw [Nat.add_left_cancel e]
      rcases hfar with ⟨f1, f2, f3, f4⟩ | ⟨f1, f2, f3, f4⟩
      · exact far k' hk' (f3.symm.trans e2)
      · exact far k hk (f3.symm.trans e1)
  · have := (r3 sa color).mem_iff.1 (List.mem_map.2 ⟨u, hu, rfl⟩)
    obtain ⟨⟨f, sb⟩, hpm, hnu⟩ := List.mem_map.1 this
    obtain ⟨c, hc, hcol, hfar⟩ := mem_farEnds.1 hpm
    obtain ⟨k, hk, k', hk', e1, e2⟩ := hends c hc
    have far : ∀ m < l.length, f = some (w.next + m) →
        ∃ j < l.length, entry "entity_id" u = some (.int (place j + 1)) := by
      rintro m hm rfl
      refine ⟨m, hm, hnu.symm.trans ?_⟩
      show some (autoVal (w1.heap (w.next + m)).auto) = _
      rw [hauto m hm]
      rfl
    rcases hfar with ⟨f1, f2, f3, f4⟩ | ⟨f1, f2, f3, f4⟩
    · exact far k' hk' (f3.symm.trans e2)
    · exact far k hk (f3.symm.trans e1)

theorem Sample.distinctIds : DistinctIds [decData, ariData, locoData] := by
  intro i j kw kw' n hi hj h h'
  have num : ∀ {i : Nat} {kw : Dict} {n : Option Int}, [decData, ariData, locoData][i]? = some (.dict kw) → NumberOf kw n →
      (i = 0 ∧ n = some 7) ∨ (i = 1 ∧ n = some 9) ∨ (i = 2 ∧ n = some 12) := by
    intro i kw n hi h
    rcases i with _ | _ | _ | i
    · cases hi; exact .inl ⟨rfl, NumberOf.inj h (.given _ 7 rfl)⟩
    · cases hi; exact .inr (.inl ⟨rfl, NumberOf.inj h (.given _ 9 rfl)⟩)
    · cases hi; exact .inr (.inr ⟨rfl, NumberOf.inj h (.given _ 12 rfl)⟩)
    · cases hi
  have a := num hi h
  have b := num hj h'
  rcases a with ⟨rfl, rfl⟩ | ⟨rfl, rfl⟩ | ⟨rfl, rfl⟩ <;> rcases b with ⟨rfl, e⟩ | ⟨rfl, e⟩ | ⟨rfl, e⟩ <;> first | rfl | cases e

/-- C84 for exchange strings: a string that is given to the constructor and the string of the new blueprint. -/
theorem C84_string {rt : Runtime} (hz : Lossless rt.zlib) {env : Env} {w w1 w2 : World} (h : Reachable env w) {b : BpId}
    (hb : w.bp b = {}) {s s' : String} {data given v : Val} {custom : Option Custom} {strict : Bool} {d : Dict} {l : List Val}
    (hs : decode rt s = .ok data) (hd : Content data d) (hl : ListAt d "entities" l) (hn : DistinctIds l)
    (hc : construct rt b (some s) given custom strict w = (.ok (), w1)) (he : toStringBp rt b w1 = (.ok s', w2))
    (hv : (toJson b w1).1 = .ok v) (hp : Plain rt.float v) :
    decode rt s' = .ok v ∧
      Redrawn w.env { custom := custom.getD [], strict := strict } (fun i => w1.heap (w.next + i)) d l v := by
  unfold toStringBp at he
  simp only [M.bind_eq_ok] at he
  obtain ⟨v', w', h1, h2⟩ := he
  rw [h1] at hv
  cases hv
  cases h2
  refine ⟨decode_encode hz hp, ?_⟩
  have hr : Reachable env (w.setBp b { custom := custom.getD [], strict := strict }) := by
    have h := Reachable.step (.setCustom b (custom.getD [])) (Reachable.step (.setStrict b strict) h trivial) trivial
    have e : ((Op.setCustom b (custom.getD [])).run ((Op.setStrict b strict).run w).2).2 =
        (w.setBp b { w.bp b with strict := strict }).setBp b
          { (w.setBp b { w.bp b with strict := strict }).bp b with custom := custom.getD [] } := rfl
    rw [e, setBp_bp_self, hb, setBp_setBp] at h
    exact h
  have hl' : load b data (w.setBp b { custom := custom.getD [], strict := strict }) = (.ok (), w1) := by
    rw [← hc]
    unfold construct ctorData
    dsimp only
    rw [hs]
    cases hd <;> rfl
  have := C84_export hr hd hl hn (by rw [setBp_bp_self]) hl' h1
  rw [setBp_bp_self] at this
  exact this

/-- The data of the sample describe one wire; it is exported by both entities. -/
example : ∃ d, Content Sample.data d ∧ ListAt d "entities" [Sample.decData, Sample.ariData, Sample.locoData] ∧
    DistinctIds [Sample.decData, Sample.ariData, Sample.locoData] ∧ ((World.init Sample.env).bp 0).objs = [] ∧
    (load 0 Sample.data (World.init Sample.env)).1 = .ok () ∧ (∃ v, (toJson 0 Sample.loaded).1 = .ok v) ∧
    DataWire [Sample.decData, Sample.ariData, Sample.locoData] 0 1 1 2 "red" ∧
    (refsAt Sample.ariOut 2 "red").map (entry "entity_id") = [some (.int 2)] ∧
    (refsAt Sample.decOut 1 "red").map (entry "entity_id") = [some (.int 1)] :=
  ⟨_, .wrapped _ _ rfl, .inl rfl, Sample.distinctIds, rfl, by decide +kernel, ⟨_, Sample.loaded_out⟩,
    ⟨_, _, _, _, rfl, rfl, .given _ 7 rfl, .given _ 9 rfl, .inl ⟨_, "1", _, _, rfl,
      ⟨_, _, _, rfl, List.mem_singleton.2 rfl, List.mem_singleton.2 rfl, List.mem_singleton.2 rfl⟩, rfl, .num _ _ rfl,
      (pyInt_iff _ _).1 (by decide +kernel), (pyInt_iff _ _).1 (by decide +kernel)⟩⟩, by decide +kernel, by decide +kernel⟩

namespace Sample

/-- Two combinators and a wire. -/
def pair : Val := .dict [("blueprint", .dict [("entities", .list [decData, ariData])])]

def paired : World := (construct py 3 none pair none true (World.init env)).2

def pairOut : Val :=
  .dict [("blueprint", .dict [("item", .str "blueprint"), ("entities", .list [.dict ariOut, .dict decOut]),
    ("icons", .list []), ("version", .int 0)])]

theorem pair_python : PyJson pair := by
  simp only [pair, decData, ariData, PyJson, PyJsonDict, PyJsonList, pos, sig, Val.int, and_true]
  decide +kernel

end Sample

example : ∃ d v, Lossless Sample.py.zlib ∧ (World.init Sample.env).bp 3 = {} ∧
    decode Sample.py (encode Sample.py Sample.pair) = .ok Sample.pair ∧ Content Sample.pair d ∧
    ListAt d "entities" [Sample.decData, Sample.ariData] ∧
    construct Sample.py 3 (some (encode Sample.py Sample.pair)) .none none true (World.init Sample.env) =
      (.ok (), Sample.paired) ∧
    (toJson 3 Sample.paired).1 = .ok v ∧ PyJson v :=
  ⟨_, Sample.pairOut, fun _ => rfl, rfl, C09_python rfl (fun _ => rfl) Sample.pair_python, .wrapped _ _ rfl, .inl rfl,
    (C69_string (C09_python rfl (fun _ => rfl) Sample.pair_python) _ _ _ _ _).trans (Sample.run_eq (by decide +kernel)),
    by decide +kernel, by
      simp only [Sample.pairOut, Sample.ariOut, Sample.decOut, PyJson, PyJsonDict, PyJsonList, Sample.pos, Sample.sig, Val.int, and_true]
      decide +kernel⟩

end Verif
