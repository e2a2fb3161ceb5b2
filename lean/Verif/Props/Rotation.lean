import Verif.Spec.Rotation
import Verif.Proofs.RotateAll
import Verif.Proofs.Attrs
import Verif.Props.Sample
import Verif.Props.Extent
/-!
# Rotation (C19, C20, C21, C22, C23, C46)
-/
set_option autoImplicit false

namespace Verif
open Spec

/-! ## C19 -/

private theorem turnedPoint_moved {n : Int} (h : 0 ≤ n ∧ n < 4) (c p : Vec) :
    TurnedPoint n c.x.val c.y.val p (Entity.moved n c p) := by
  obtain ⟨h1, h2⟩ := Entity.quarters_val n.toNat (by omega) (p.subV c)
  unfold TurnedPoint Entity.moved
  simp only [Vec.addV, Num.val_add]
  rw [h1, h2]
  simp only [Vec.subV, Num.val_sub]
  have h' : n = 0 ∨ n = 1 ∨ n = 2 ∨ n = 3 := by omega
  rcases h' with rfl | rfl | rfl | rfl <;> simp <;> grind

private theorem turnedPoint_mod (k : Int) (cx cy : Rat) (p q : Vec) :
    TurnedPoint (k % 4) cx cy p q ↔ TurnedPoint k cx cy p q := by
  unfold TurnedPoint
  rw [Int.emod_emod_of_dvd k (by decide : (4 : Int) ∣ 4)]

private theorem turnedEntity_rotate {e : Entity} (hk : e.klass.Ok) {n : Int} {o : Operand} {c : Vec}
    (ho : o.parts = some (c.x, c.y)) (h : (e.rotate n o (.int Direction.CLOCKWISE)).1 = .ok ())
    (x : Option Int) :
    TurnedEntity n c.x.val c.y.val e { (e.rotate n o (.int Direction.CLOCKWISE)).2 with auto := x } := by
  have hs := Entity.rotate_snd h ho
  have hf := (Entity.rotate_fails.1 h).2
  rw [hs, Entity.turns_cw]
  have hcount : ∀ m : Mx, m ∈ e.klass.chain → e.klass.chain.count m = 1 :=
    fun m hm => List.count_eq_one_of_mem hk.1 hm
  refine ⟨?_, ⟨?_, ?_⟩, ?_, ?_, rfl⟩
  · rw [← turnedPoint_mod]
    exact turnedPoint_moved (by omega) c e.pos
  · intro hr
    show (e.turned (n % 4) e.klass.chain).dir.n = _
    simp only [Entity.turned, hr, if_true, hcount _ hr, Direction.new]
    omega
  · intro hr
    show (e.turned (n % 4) e.klass.chain).dir = _
    simp only [Entity.turned, hr, if_false]
  · intro hor
    have hori := hf hor
    cases hv : List.lookup "orientation" e.attrs with
    | none =>
      exfalso
      apply hori
      unfold Entity.ori Dict.get?
      rw [hv]
      rfl
    | some v =>
      cases hm : v.num? with
      | none =>
        exfalso
        apply hori
        unfold Entity.ori Dict.get?
        rw [hv]
        exact hm
      | some m =>
        have hoe : e.ori = some m := by
          unfold Entity.ori Dict.get?
          rw [hv]
          exact hm
        refine ⟨v, m, fract (m.val + ((n % 4 : Int) : Rat) / 4), rfl, hm, ?_, (fract_range _).1, (fract_range _).2, ?_⟩
        · show List.lookup "orientation" (e.turned (n % 4) e.klass.chain).attrs = _
          simp only [Entity.turned, hor, if_true, hcount _ hor, hoe, Option.getD_some]
          rw [lookup_set, if_pos rfl]
          simp
        · obtain ⟨z, hz⟩ := fract_shift (m.val + ((n % 4 : Int) : Rat) / 4)
          refine ⟨z - n / 4, ?_⟩
          rw [hz]
          have : n = 4 * (n / 4) + n % 4 := by omega
          have hq : (n : Rat) = 4 * ((n / 4 : Int) : Rat) + ((n % 4 : Int) : Rat) := by exact_mod_cast this
          push_cast
          grind
  · intro key hkey
    show List.lookup key (e.turned (n % 4) e.klass.chain).attrs = _
    by_cases hor : Mx.Orientation ∈ e.klass.chain
    · simp only [Entity.turned, hor, if_true]
      rw [lookup_set, if_neg]
      rcases hkey with hkey | hkey
      · exact hkey
      · exact absurd hor hkey
    · simp only [Entity.turned, hor, if_false]

/-- What `blueprint.rotate(k, around=…)` does: every entity of the blueprint is turned around the given
point, the list is brought in order again (entities at the same point keep their order), nothing else
changes.  `around` is the origin if it is not given. -/
theorem C19_meaning {env : Env} {w w' : World} (h : Reachable env w) {b : BpId} {k : Int} {a : Option Operand}
    {c : Vec} (ha : a = none ∧ c = ⟨.int 0, .int 0⟩ ∨ ∃ o, a = some o ∧ o.parts = some (c.x, c.y))
    {d : Option DirArg} (hd : d = none ∨ d = some (.int Direction.CLOCKWISE))
    (hr : bpRotate b k a d w = (.ok (), w')) :
    InOrder w' b (w.bp b).objs ∧
    (∀ r ∈ (w.bp b).objs, TurnedEntity k c.x.val c.y.val (w.heap r) (w'.heap r)) ∧
    (∀ r, r ∉ (w.bp b).objs → w'.heap r = w.heap r) ∧
    (∀ b', b' ≠ b → w'.bp b' = w.bp b') ∧ { w'.bp b with objs := (w.bp b).objs } = w.bp b ∧
    w'.env = w.env ∧ w'.next = w.next := by
  have hn := h.owned.nodup b
  rw [bpRotate_noTiles (h.noTiles b)] at hr
  obtain ⟨h1, rfl⟩ := (layerRotate_iff hn).1 hr
  have hd' : d.getD (.int Direction.CLOCKWISE) = .int Direction.CLOCKWISE := by
    rcases hd with rfl | rfl <;> rfl
  have ha' : (a.getD (.vec ⟨.int 0, .int 0⟩)).parts = some (c.x, c.y) := by
    rcases ha with ⟨rfl, rfl⟩ | ⟨o, rfl, ho⟩
    · rfl
    · exact ho
  rw [hd'] at h1 ⊢
  refine ⟨?_, ?_, ?_, ?_, ?_, rfl, rfl⟩
  · exact sort_inOrder (w.each _ (w.bp b).objs) b hn
  · intro r hr
    obtain ⟨x, hx⟩ := sort_heap (w.each (fun e => e.rotate k (a.getD (.vec ⟨.int 0, .int 0⟩))
      (.int Direction.CLOCKWISE)) (w.bp b).objs) b r
    rw [hx, each_heap, if_pos hr]
    exact turnedEntity_rotate (h.klass r) ha' (h1 r hr) x
  · intro r hr
    show reindexFrom _ 0 _ r = _
    rw [each_objs, reindexFrom_not_mem (fun h => hr ((mem_sortBy _).1 h)), each_heap, if_neg hr]
  · intro b' hb
    rw [sort_bp_other hb]
    rfl
  · rw [sort_bp_self]
    rfl

/-- `rotate(j)` followed by `rotate(k)` gives exactly the same state as `rotate(j + k)`; if the first one
works, so do the other two. -/
theorem C19_compose {env : Env} {w w1 : World} (h : Reachable env w) {b : BpId} {j k : Int}
    (hr : bpRotate b j none none w = (.ok (), w1)) :
    ∃ w2, bpRotate b k none none w1 = (.ok (), w2) ∧ bpRotate b (j + k) none none w = (.ok (), w2) := by
  have hn := h.owned.nodup b
  have h1 : Reachable env w1 := by
    have := Reachable.step (.rotate b j none none) h trivial
    rwa [show ((Op.rotate b j none none).run w).2 = w1 from congrArg Prod.snd hr] at this
  rw [bpRotate_noTiles (h.noTiles b)] at hr ⊢
  rw [bpRotate_noTiles (h1.noTiles b)]
  obtain ⟨w2, w3, h2, h3, hu⟩ := layerRotate_twice (Q := (· = ·)) (k := k) (c := ⟨.int 0, .int 0⟩)
    (fun p q e => by rw [e]; exact ⟨rfl, rfl⟩) (fun _ => rfl) rfl rfl
    (fun p => Entity.moved_moved_int (by omega) (by omega) (by omega) (by omega) _ _ ⟨rfl, rfl⟩) hn hr
  rw [wupto_eq hu] at h2
  exact ⟨w3, h2, h3⟩

/-- The same with a centre of rotation, whatever it is, and the direction given or not: the resulting
states agree except that coordinates of the same value may be represented differently. -/
theorem C19_compose_around {env : Env} {w w1 : World} (h : Reachable env w) {b : BpId} {j k : Int} {a : Operand}
    {d : Option DirArg} (hd : d = none ∨ d = some (.int Direction.CLOCKWISE)) (ha : a.parts ≠ none)
    (hr : bpRotate b j (some a) d w = (.ok (), w1)) :
    ∃ w2 w3, bpRotate b k (some a) d w1 = (.ok (), w2) ∧ bpRotate b (j + k) (some a) d w = (.ok (), w3) ∧
      SameWorldUpToRepr w2 w3 := by
  have hn := h.owned.nodup b
  have h1 : Reachable env w1 := by
    have := Reachable.step (.rotate b j (some a) d) h trivial
    rwa [show ((Op.rotate b j (some a) d).run w).2 = w1 from congrArg Prod.snd hr] at this
  rw [bpRotate_noTiles (h.noTiles b)] at hr ⊢
  rw [bpRotate_noTiles (h1.noTiles b)]
  have hd' : d.getD (.int Direction.CLOCKWISE) = .int Direction.CLOCKWISE := by
    rcases hd with rfl | rfl <;> rfl
  cases hp : a.parts with
  | none => exact absurd hp ha
  | some c =>
    obtain ⟨w2, w3, h2, h3, hu⟩ := layerRotate_twice (Q := SamePos) (k := k) (a := some a) (c := ⟨c.1, c.2⟩)
      (fun p q e => e) (fun _ => ⟨rfl, rfl⟩) hd' hp
      (fun p => Entity.moved_moved (by omega) (by omega) (by omega) (by omega) _ _) hn hr
    exact ⟨w2, w3, h2, h3, hu.env, hu.next, hu.bp, hu.heap⟩

/-- Whether a rotation works does not depend on the amount. -/
theorem C19_works {env : Env} {w : World} (h : Reachable env w) {b : BpId} {j k : Int} {a : Option Operand}
    {d : Option DirArg} (hr : (bpRotate b j a d w).1 = .ok ()) : (bpRotate b k a d w).1 = .ok () := by
  have hn := h.owned.nodup b
  rw [bpRotate_noTiles (h.noTiles b)] at hr ⊢
  obtain ⟨h1, -⟩ := (layerRotate_iff hn).1
    (show layerRotate b j a d w = (.ok (), (layerRotate b j a d w).2) by rw [← hr])
  rw [(layerRotate_iff hn).2 ⟨fun r hr => Entity.rotate_fails.2 (Entity.rotate_fails.1 (h1 r hr)), rfl⟩]

/-- Whole turns of a blueprint whose entity list is in order and numbered are the identity. -/
theorem C19_whole_turns {env : Env} {w w' : World} (h : Reachable env w) {b : BpId} {z : Int}
    (ho : InOrder w b (w.bp b).objs) (hr : bpRotate b (4 * z) none none w = (.ok (), w')) : w' = w := by
  have hn := h.owned.nodup b
  rw [bpRotate_noTiles (h.noTiles b)] at hr
  obtain ⟨h1, rfl⟩ := (layerRotate_iff hn).1 hr
  have hz : (4 * z) % 4 = 0 := by omega
  have hstep : ∀ r ∈ (w.bp b).objs, ((w.heap r).rotate (4 * z) (.vec ⟨.int 0, .int 0⟩)
      (.int Direction.CLOCKWISE)).2 = w.heap r := by
    intro r hr
    have h1r : ((w.heap r).rotate (4 * z) (.vec ⟨.int 0, .int 0⟩) (.int Direction.CLOCKWISE)).1 = .ok () := h1 r hr
    rw [Entity.rotate_snd h1r (a := ⟨.int 0, .int 0⟩) rfl, Entity.turns_cw, hz, Entity.moved_zero_int _ _ ⟨rfl, rfl⟩]
    have hdir := h.dir_range r
    have hori := h.oriOk r
    have hf := (Entity.rotate_fails.1 h1r).2
    generalize w.heap r = e at hdir hori hf
    unfold Entity.turned
    dsimp only
    have e1 : (if Mx.Rotatable ∈ e.klass.chain then
        Direction.new (e.dir.n + 2 * 0 * (e.klass.chain.count .Rotatable : Int)) else e.dir) = e.dir := by
      split
      · have : e.dir = ⟨e.dir.n⟩ := rfl
        rw [this]
        simp only [Direction.new, Direction.mk.injEq]
        have : (2 : Int) * 0 * (e.klass.chain.count .Rotatable : Int) = 0 := by simp
        omega
      · rfl
    have e2 : (if Mx.Orientation ∈ e.klass.chain then Dict.set e.attrs "orientation"
        (.flt (fract ((e.ori.getD (.int 0)).val +
          ((0 : Int) : Rat) * ((e.klass.chain.count .Orientation : Nat) : Rat) / 4))) else e.attrs) = e.attrs := by
      split
      · rename_i hm
        have hne := hf hm
        unfold Entity.ori Dict.get? at hne ⊢
        cases hl : List.lookup "orientation" e.attrs with
        | none => rw [hl] at hne; exact absurd rfl hne
        | some v =>
          rcases hori v hl with rfl | ⟨q, rfl, h0, h1⟩
          · rw [hl] at hne; exact absurd rfl hne
          · have : (((some (Val.flt q)).bind Val.num?).getD (.int 0)).val +
                ((0 : Int) : Rat) * ((e.klass.chain.count .Orientation : Nat) : Rat) / 4 = q := by
              show (Num.flt q).val + _ = q
              rw [Num.val_flt]
              have : ((0 : Int) : Rat) = 0 := rfl
              rw [this]
              grind
            rw [this, fract_of_range ⟨h0, h1⟩]
            exact Entity.set_self hl
      · rfl
    rw [e1, e2]
  have heach : w.each (fun e => e.rotate (4 * z) ((none : Option Operand).getD (.vec ⟨.int 0, .int 0⟩))
      ((none : Option DirArg).getD (.int Direction.CLOCKWISE))) (w.bp b).objs = w := by
    refine World.ext rfl ?_ rfl rfl
    funext r
    rw [each_heap]
    split
    · exact hstep r ‹_›
    · rfl
  rw [heach]
  exact sort_of_inOrder hn ho

/-- In particular four quarter turns one after the other. -/
theorem C19_four_times {env : Env} {w w1 w2 w3 w4 : World} (h : Reachable env w) {b : BpId}
    (ho : InOrder w b (w.bp b).objs)
    (h1 : bpRotate b 1 none none w = (.ok (), w1)) (h2 : bpRotate b 1 none none w1 = (.ok (), w2))
    (h3 : bpRotate b 1 none none w2 = (.ok (), w3)) (h4 : bpRotate b 1 none none w3 = (.ok (), w4)) : w4 = w := by
  obtain ⟨v2, e2, g2⟩ := C19_compose h h1 (k := 1)
  rw [h2] at e2
  cases e2
  obtain ⟨v3, e3, g3⟩ := C19_compose h g2 (k := 1)
  rw [h3] at e3
  cases e3
  obtain ⟨v4, e4, g4⟩ := C19_compose h g3 (k := 1)
  rw [h4] at e4
  cases e4
  exact C19_whole_turns h ho (z := 1) g4

/-- After a rotation the state is normalised, so whole turns following any rotation do nothing. -/
theorem C19_after_rotation {env : Env} {w w1 w2 : World} (h : Reachable env w) {b : BpId} {j z : Int}
    (h1 : bpRotate b j none none w = (.ok (), w1)) (h2 : bpRotate b (4 * z) none none w1 = (.ok (), w2)) :
    w2 = w1 := by
  have hr : Reachable env w1 := by
    have := Reachable.step (.rotate b j none none) h trivial
    rwa [show ((Op.rotate b j none none).run w).2 = w1 from congrArg Prod.snd h1] at this
  obtain ⟨ho, -⟩ := C19_meaning h (c := ⟨.int 0, .int 0⟩) (.inl ⟨rfl, rfl⟩) (.inl rfl) h1
  exact C19_whole_turns hr ⟨.refl _, ho.sorted, fun _ => rfl, ho.numbered⟩ h2

example : Reachable Sample.env Sample.loaded ∧ (bpRotate 0 1 none none Sample.loaded).1 = .ok () ∧
    ((bpRotate 0 1 none none Sample.loaded).2.bp 0).objs = [2, 1, 0] ∧
    (Sample.loaded.bp 0).objs = [1, 0, 2] :=
  ⟨Sample.loaded_reachable, by decide +kernel, by decide +kernel, by decide +kernel⟩

/-! ## C20 -/

private theorem turns_ccw {d : DirArg} (hd : d ≠ .int Direction.CLOCKWISE) (k : Int) :
    Entity.turns k d = if k % 4 = 1 then 1 else 0 := by
  unfold Entity.turns
  simp only [ne_eq, hd, not_false_eq_true, if_true]
  have h : k % 4 = 0 ∨ k % 4 = 1 ∨ k % 4 = 2 ∨ k % 4 = 3 := by omega
  rcases h with h | h | h | h <;> rw [h] <;> decide

/-- A point turned by less than a whole turn is where it was only if it is the centre. -/
private theorem moved_fixed {n : Int} (h : 0 ≤ n ∧ n < 4) (c p : Vec) :
    SamePos (Entity.moved n c p) p ↔ n = 0 ∨ SamePos p c := by
  have ht := turnedPoint_moved h c p
  unfold TurnedPoint at ht
  unfold SamePos
  have h' : n = 0 ∨ n = 1 ∨ n = 2 ∨ n = 3 := by omega
  rcases h' with rfl | rfl | rfl | rfl <;> simp at ht <;> simp <;> grind

/-- What `entity.rotate(k)` followed by `entity.rotate(k, direction=COUNTER_CLOCKWISE)` does (any centre, any
direction other than `CLOCKWISE`): the position is restored only if the amount is a multiple of four or the
entity stands at the centre. -/
theorem C20_position_partial {e e1 e2 : Entity} {k : Int} {a : Operand} {c : Vec} {d : DirArg}
    (ha : a.parts = some (c.x, c.y)) (hd : d ≠ .int Direction.CLOCKWISE)
    (h1 : e.rotate k a (.int Direction.CLOCKWISE) = (.ok (), e1)) (h2 : e1.rotate k a d = (.ok (), e2)) :
    SamePos e2.pos e.pos ↔ k % 4 = 0 ∨ SamePos e.pos c := by
  have s1 := Entity.rotate_snd (by rw [h1]) ha (e := e) (n := k) (d := .int Direction.CLOCKWISE)
  have s2 := Entity.rotate_snd (by rw [h2]) ha (e := e1) (n := k) (d := d)
  rw [h1] at s1
  rw [h2] at s2
  have p1 : e1.pos = Entity.moved (k % 4) c e.pos := by
    rw [show e1 = _ from s1, Entity.turns_cw]
  have p2 : e2.pos = Entity.moved (if k % 4 = 1 then 1 else 0) c e1.pos := by
    rw [show e2 = _ from s2, turns_ccw hd]
  rw [p2, p1]
  have hm := Entity.moved_moved (m := k % 4) (n := if k % 4 = 1 then 1 else 0)
    (k := if k % 4 = 1 then 2 else k % 4) (by omega) (by split <;> omega) (by split <;> omega)
    (by split <;> omega) c e.pos
  have hf := moved_fixed (n := if k % 4 = 1 then 2 else k % 4) (by split <;> omega) c e.pos
  have hz : (if k % 4 = 1 then (2 : Int) else k % 4) = 0 ↔ k % 4 = 0 := by split <;> omega
  rw [← hz, ← hf]
  unfold SamePos at hm ⊢
  rw [hm.1, hm.2]

/-- For multiples of four position and direction are restored. -/
theorem C20_whole_turns_partial {env : Env} {w w1 w2 : World} (h : Reachable env w) {r : Ref} {k : Int}
    {a : Operand} {d : DirArg} (hk : k % 4 = 0)
    (h1 : entRotate k a (.int Direction.CLOCKWISE) r w = (.ok (), w1)) (h2 : entRotate k a d r w1 = (.ok (), w2)) :
    SamePos (w2.heap r).pos (w.heap r).pos ∧ (w2.heap r).dir = (w.heap r).dir := by
  simp only [entRotate, Prod.mk.injEq] at h1 h2
  obtain ⟨h1, rfl⟩ := h1
  obtain ⟨h2, rfl⟩ := h2
  rw [setEnt_heap, if_pos rfl] at h2
  rw [setEnt_heap, if_pos rfl, setEnt_heap, if_pos rfl]
  have hdir := h.dir_range r
  generalize w.heap r = e at h1 h2 hdir
  cases hp : a.parts with
  | none => exact absurd hp (Entity.rotate_fails.1 h1).1
  | some p =>
    obtain ⟨cx, cy⟩ := p
    have hz : ∀ d, Entity.turns k d = 0 := by
      intro d
      unfold Entity.turns
      rw [hk]
      split <;> rfl
    have s1 := Entity.rotate_snd h1 (a := ⟨cx, cy⟩) hp
    have s2 := Entity.rotate_snd h2 (a := ⟨cx, cy⟩) hp
    rw [hz] at s1 s2
    have hd0 : ∀ (e : Entity) (ms : List Mx), 0 ≤ e.dir.n ∧ e.dir.n < 8 → (e.turned 0 ms).dir = e.dir := by
      intro e ms he
      unfold Entity.turned
      dsimp only
      split
      · have : e.dir = ⟨e.dir.n⟩ := rfl
        rw [this]
        simp only [Direction.new, Direction.mk.injEq]
        have : (2 : Int) * 0 * (ms.count .Rotatable : Int) = 0 := by simp
        omega
      · rfl
    have p0 : ∀ p, SamePos (Entity.moved 0 ⟨cx, cy⟩ p) p := fun p => (moved_fixed (by omega) _ _).2 (.inl rfl)
    generalize (e.rotate k a (.int Direction.CLOCKWISE)).2 = e1 at s1 s2
    have e1d : e1.dir = e.dir := by rw [s1]; exact hd0 _ _ hdir
    rw [s2]
    refine ⟨?_, ?_⟩
    · have q1 := p0 e1.pos
      have q2 : SamePos e1.pos e.pos := by rw [s1]; exact p0 _
      exact ⟨q1.1.trans q2.1, q1.2.trans q2.2⟩
    · show (e1.turned 0 e1.klass.chain).dir = e.dir
      rw [hd0 _ _ (by rw [e1d]; exact hdir), e1d]

/-- The property is false of the code: turning a belt and turning it back the other way leaves it elsewhere. -/
theorem C20_false : ¬ ∀ (w w1 w2 : World) (r : Ref) (k : Int), Reachable Sample.env w →
    entRotate k (.vec ⟨.int 0, .int 0⟩) (.int Direction.CLOCKWISE) r w = (.ok (), w1) →
    entRotate k (.vec ⟨.int 0, .int 0⟩) (.int Direction.COUNTER_CLOCKWISE) r w1 = (.ok (), w2) →
    SamePos (w2.heap r).pos (w.heap r).pos ∧ (w2.heap r).dir = (w.heap r).dir := by
  intro h
  have := h Sample.belts _ _ 0 1 Sample.belts_reachable (Sample.run_eq (by decide +kernel))
    (Sample.run_eq (by decide +kernel))
  exact absurd this.1 (by decide +kernel)

example : ∃ w1 w2, entRotate 4 (.vec ⟨.int 0, .int 0⟩) (.int Direction.CLOCKWISE) 0 Sample.belts = (.ok (), w1) ∧
    entRotate 4 (.vec ⟨.int 0, .int 0⟩) (.int Direction.COUNTER_CLOCKWISE) 0 w1 = (.ok (), w2) :=
  ⟨_, _, Sample.run_eq (by decide +kernel), Sample.run_eq (by decide +kernel)⟩

/-! ## C21 -/

private theorem tileRotate_eq {k : Int} {a : Option Operand} {d : Option DirArg} {t t' : Tile} {c : Vec}
    (ha : (a.getD (.vec ⟨.int 0, .int 0⟩)).parts = some (c.x, c.y)) (h : tileRotate k a d t = .ok t') :
    t'.pos = Entity.moved (Tile.turns k (d.getD (.str "clockwise"))) c t.pos := by
  unfold tileRotate at h
  dsimp only at h
  rw [Entity.sub_ok.2 ⟨c, ha, rfl⟩] at h
  simp only [bind, Except.bind] at h
  rw [(C05_componentwise _ _ c.x c.y ha).1] at h
  cases h
  rfl

/-- Without an explicit direction a tile and an entity at the same position end up at the same position,
for every amount and centre. -/
theorem C21_default {k : Int} {a : Option Operand} {e e' : Entity} {t t' : Tile} (hp : e.pos = t.pos)
    (he : e.rotate k (a.getD (.vec ⟨.int 0, .int 0⟩)) ((none : Option DirArg).getD (.int Direction.CLOCKWISE)) =
      (.ok (), e'))
    (ht : tileRotate k a none t = .ok t') : e'.pos = t'.pos := by
  obtain ⟨c, hc, -, rfl⟩ := Entity.rotate_ok.1 he
  rw [tileRotate_eq hc ht]
  show Entity.moved (Entity.turns k (.int Direction.CLOCKWISE)) c e.pos = _
  rw [Entity.turns_cw, hp]
  congr 1
  simp [Tile.turns]
  omega

/-- With an explicit direction `d` passed to both, a tile and an entity at the same position other than the
centre end up at the same position only in the listed cases. -/
theorem C21_explicit_partial {k : Int} {d : DirArg} {a : Option Operand} {c : Vec} {e e' : Entity} {t t' : Tile}
    (ha : (a.getD (.vec ⟨.int 0, .int 0⟩)).parts = some (c.x, c.y))
    (hp : e.pos = t.pos) (hc : ¬ SamePos e.pos c)
    (he : e.rotate k (a.getD (.vec ⟨.int 0, .int 0⟩)) ((some d).getD (.int Direction.CLOCKWISE)) = (.ok (), e'))
    (ht : tileRotate k a (some d) t = .ok t') :
    SamePos e'.pos t'.pos ↔
      k % 4 = 0 ∨ (d = .int Direction.CLOCKWISE ∧ k % 4 = 2) ∨ (d = .str "clockwise" ∧ k % 4 = 1) := by
  have s1 := Entity.rotate_snd (congrArg Prod.fst he) ha (e := e) (n := k) (d := d)
  rw [show (e.rotate k (a.getD (.vec ⟨.int 0, .int 0⟩)) d) = (.ok (), e') from he] at s1
  have p1 : e'.pos = Entity.moved (Entity.turns k d) c e.pos := by rw [show e' = _ from s1]
  have p2 := tileRotate_eq ha ht
  rw [← hp] at p2
  have hk : k % 4 = 0 ∨ k % 4 = 1 ∨ k % 4 = 2 ∨ k % 4 = 3 := by omega
  have key : ∀ m n : Int, 0 ≤ m ∧ m < 4 → 0 ≤ n →
      (SamePos (Entity.moved m c e.pos) (Entity.moved n c e.pos) ↔ m = n % 4) := by
    intro m n hm hn
    have h1 := turnedPoint_moved hm c e.pos
    have h2 := turnedPoint_moved (n := n % 4) (by omega) c e.pos
    have h3 := Entity.moved_moved (m := n) (n := 0) (k := n % 4) hn (by omega) (by omega) (by omega) c e.pos
    have h4 : SamePos (Entity.moved 0 c (Entity.moved n c e.pos)) (Entity.moved n c e.pos) :=
      (moved_fixed (by omega) _ _).2 (.inl rfl)
    have h5 : SamePos (Entity.moved n c e.pos) (Entity.moved (n % 4) c e.pos) :=
      ⟨h4.1.symm.trans h3.1, h4.2.symm.trans h3.2⟩
    have h6 : SamePos (Entity.moved m c e.pos) (Entity.moved n c e.pos) ↔
        SamePos (Entity.moved m c e.pos) (Entity.moved (n % 4) c e.pos) := by
      unfold SamePos at h5 ⊢
      rw [h5.1, h5.2]
    rw [h6]
    constructor
    · intro h
      have hm' : m = 0 ∨ m = 1 ∨ m = 2 ∨ m = 3 := by omega
      have hn' : n % 4 = 0 ∨ n % 4 = 1 ∨ n % 4 = 2 ∨ n % 4 = 3 := by omega
      unfold TurnedPoint at h1 h2
      unfold SamePos at h hc
      rcases hm' with rfl | rfl | rfl | rfl <;> rcases hn' with hn' | hn' | hn' | hn' <;> rw [hn'] at h2 h ⊢ <;>
        first | rfl | (exfalso; simp at h1 h2; grind)
    · intro h
      rw [h]
      exact ⟨rfl, rfl⟩
  have hr := Entity.turns_range k d
  rw [p1, p2, key _ _ hr (by omega)]
  by_cases h1 : d = .int Direction.CLOCKWISE
  · subst h1
    rw [Entity.turns_cw]
    simp only [Option.getD_some, Tile.turns]
    rw [if_pos (by simp)]
    have : (DirArg.int Direction.CLOCKWISE = .str "clockwise") = False := by simp
    rw [this]
    simp only [true_and, false_and, or_false]
    omega
  · rw [turns_ccw h1]
    by_cases h2 : d = .str "clockwise"
    · subst h2
      simp only [Option.getD_some, Tile.turns]
      simp only [ne_eq, not_true_eq_false, if_false, true_and, h1, false_and, false_or]
      split <;> omega
    · simp only [Option.getD_some, Tile.turns]
      rw [if_pos h2]
      simp only [h1, h2, false_and, or_false]
      split <;> omega

/-- The property is false of the code: `rotate(1, direction=Direction.CLOCKWISE)` turns entities by one quarter
and tiles by three. -/
theorem C21_false : ¬ ∀ (k : Int) (d : DirArg) (e e' : Entity) (t t' : Tile), e.pos = t.pos →
    e.rotate k (.vec ⟨.int 0, .int 0⟩) d = (.ok (), e') → tileRotate k none (some d) t = .ok t' →
    SamePos e'.pos t'.pos := by
  intro h
  have := h 1 (.int Direction.CLOCKWISE) (Sample.belts.heap 0) _ ⟨"stone", ⟨.int 7, .int 0⟩⟩
    ⟨"stone", ⟨.int 0, .int (-7)⟩⟩ (by decide +kernel) (Prod.ext (show _ = Except.ok () by decide +kernel) rfl)
    (by decide +kernel)
  exact absurd this (by decide +kernel)

example : ∃ e', (Sample.belts.heap 0).rotate 1 (.vec ⟨.int 0, .int 0⟩) (.int Direction.CLOCKWISE) = (.ok (), e') ∧
    (Sample.belts.heap 0).pos = (Tile.mk "stone" ⟨.int 7, .int 0⟩).pos ∧
    tileRotate 1 none none ⟨"stone", ⟨.int 7, .int 0⟩⟩ = .ok ⟨"stone", ⟨.int 0, .int 7⟩⟩ :=
  ⟨_, Prod.ext (by decide +kernel) rfl, by decide +kernel, by decide +kernel⟩

/-! ## C22 -/

/-- The box of `name` is symmetric about the position of the entity. -/
def Spec.SymmetricBox (env : Env) (name : String) : Prop :=
  ∃ x0 y0 x1 y1, HasBox env name x0 y0 x1 y1 ∧ x0.val = - x1.val ∧ y0.val = - y1.val

/-- A rotatable entity with a symmetric selection box covers a point iff, after the rotation, it covers the
rotated point. -/
theorem C22_symmetric_partial {env : Env} {w : World} (h : Reachable env w) {r : Ref} {k : Int} {a : Operand}
    {c : Vec} (ha : a.parts = some (c.x, c.y)) {e' : Entity}
    (hr : (w.heap r).rotate k a (.int Direction.CLOCKWISE) = (.ok (), e'))
    (hm : .Rotatable ∈ (w.heap r).klass.chain) {env' : Env} (hb : SymmetricBox env' (w.heap r).name)
    {px py qx qy : Rat} (ht : TurnedXY k c.x.val c.y.val px py qx qy) :
    Covers env' (w.heap r) px py ↔ Covers env' e' qx qy := by
  have hte := turnedEntity_rotate (h.klass r) ha (by rw [hr]) e'.auto
  rw [hr] at hte
  have hte : TurnedEntity k c.x.val c.y.val (w.heap r) e' := hte
  have hdir := h.dir_range r
  generalize w.heap r = e at hte hm hb hdir
  obtain ⟨x0, y0, x1, y1, hbox, hx, hy⟩ := hb
  have hname : e'.name = e.name := by
    have := congrArg Entity.name hte.rest
    exact this
  have hd := hte.dir.1 hm
  have hp := hte.pos
  have hT : Transposed e'.dir ↔ (if k % 2 = 0 then Transposed e.dir else ¬ Transposed e.dir) := by
    unfold Transposed
    rw [hd]
    split <;> omega
  have hc : ∀ (d : Entity) (x y : Rat), d.name = e.name → (Covers env' d x y ↔
      (¬ Transposed d.dir ∧ d.pos.x.val + x0.val < x ∧ x < d.pos.x.val + x1.val ∧
          d.pos.y.val + y0.val < y ∧ y < d.pos.y.val + y1.val) ∨
      (Transposed d.dir ∧ d.pos.x.val + y0.val < x ∧ x < d.pos.x.val + y1.val ∧
          d.pos.y.val + x0.val < y ∧ y < d.pos.y.val + x1.val)) := by
    intro d x y hn
    unfold Covers
    rw [hn]
    constructor
    · rintro ⟨a0, b0, a1, b1, hb', h⟩
      obtain ⟨rfl, rfl, rfl, rfl⟩ := Entity.HasBox.unique hbox hb'
      exact h
    · intro h
      exact ⟨_, _, _, _, hbox, h⟩
  rw [hc e px py rfl, hc e' qx qy hname, hT]
  unfold TurnedXY TurnedPoint at ht
  unfold TurnedPoint at hp
  simp only [Num.val_flt] at ht
  have hk : k % 4 = 0 ∨ k % 4 = 1 ∨ k % 4 = 2 ∨ k % 4 = 3 := by omega
  rcases hk with hk | hk | hk | hk <;> simp only [hk] at ht hp <;> simp at ht hp
  · rw [if_pos (by omega)]
    grind
  · rw [if_neg (by omega)]
    grind
  · rw [if_pos (by omega)]
    grind
  · rw [if_neg (by omega)]
    grind

/-- A prototype whose selection box is not centred on the position. -/
def Sample.lopsided : Env :=
  { entities := [("belt", Sample.proto "transport-belt" (Sample.box 0 0 1 1))] }

def Sample.lopsidedBelt : World :=
  ((Op.make 0 (Sample.ent "belt" 0 0)).run (World.init Sample.lopsided)).2

theorem Sample.lopsided_box : HasBox Sample.lopsided "belt" (.flt 0) (.flt 0) (.flt 1) (.flt 1) :=
  ⟨_, _, _, _, rfl, rfl, rfl, rfl, rfl, rfl, rfl, rfl⟩

/-- The property is false of the code when the selection box is not symmetric: the box is transposed, not
turned. -/
theorem C22_false : ¬ ∀ (env : Env) (w : World) (r : Ref) (k : Int) (e' : Entity) (px py qx qy : Rat),
    Reachable env w → .Rotatable ∈ (w.heap r).klass.chain →
    (w.heap r).rotate k (.vec ⟨.int 0, .int 0⟩) (.int Direction.CLOCKWISE) = (.ok (), e') →
    TurnedXY k 0 0 px py qx qy → (Covers env (w.heap r) px py ↔ Covers env e' qx qy) := by
  intro h
  have hr : (Sample.lopsidedBelt.heap 0).rotate 1 (.vec ⟨.int 0, .int 0⟩) (.int Direction.CLOCKWISE) =
      (.ok (), ((Sample.lopsidedBelt.heap 0).rotate 1 (.vec ⟨.int 0, .int 0⟩) (.int Direction.CLOCKWISE)).2) :=
    Prod.ext (by decide +kernel) rfl
  have := h Sample.lopsided Sample.lopsidedBelt 0 1 _ (1/2) (1/2) (-1/2) (1/2)
    (.step (.make 0 (Sample.ent "belt" 0 0)) .init trivial) (by decide +kernel) hr
    (by unfold TurnedXY TurnedPoint; decide +kernel)
  have h1 : Covers Sample.lopsided (Sample.lopsidedBelt.heap 0) (1/2) (1/2) := by
    have hn : (Sample.lopsidedBelt.heap 0).name = "belt" := by decide +kernel
    unfold Covers
    rw [hn]
    exact ⟨_, _, _, _, Sample.lopsided_box, .inl (by unfold Transposed; decide +kernel)⟩
  obtain ⟨a, b, c, d, hb, h2⟩ := this.1 h1
  have hn : ((Sample.lopsidedBelt.heap 0).rotate 1 (.vec ⟨.int 0, .int 0⟩) (.int Direction.CLOCKWISE)).2.name =
      "belt" := by decide +kernel
  have hp : ((Sample.lopsidedBelt.heap 0).rotate 1 (.vec ⟨.int 0, .int 0⟩) (.int Direction.CLOCKWISE)).2.pos.x.val =
      0 := by decide +kernel
  rw [hn] at hb
  obtain ⟨rfl, rfl, rfl, rfl⟩ := Entity.HasBox.unique Sample.lopsided_box hb
  rw [hp] at h2
  simp only [Num.val_flt] at h2
  grind

example : SymmetricBox Sample.env "belt" ∧ (Sample.belts.heap 0).name = "belt" ∧
    Mx.Rotatable ∈ (Sample.belts.heap 0).klass.chain :=
  ⟨⟨_, _, _, _, Sample.belt_box, by decide +kernel, by decide +kernel⟩, by decide +kernel, by decide +kernel⟩

/-! ## C23 -/

/-- The entity is rolling stock (its class has the `Orientation` mixin) without a numeric orientation. -/
def Spec.LacksOrientation (e : Entity) : Prop :=
  .Orientation ∈ e.klass.chain ∧ ∀ v, List.lookup "orientation" e.attrs = some v → v.num? = none

private theorem lacks_iff (e : Entity) :
    LacksOrientation e ↔ ¬ (.Orientation ∈ e.klass.chain → e.ori ≠ none) := by
  unfold LacksOrientation Entity.ori Dict.get?
  cases List.lookup "orientation" e.attrs <;> simp

/-- `blueprint.rotate` raises iff the blueprint has an entity whose class has the `Orientation` mixin but that
has no numeric orientation, or the centre is not something that can be subtracted from a position. -/
theorem C23_raises_iff {env : Env} {w : World} (h : Reachable env w) {b : BpId} {k : Int} {a : Option Operand}
    {d : Option DirArg} : (∃ x, (bpRotate b k a d w).1 = .error x) ↔
      (∃ r ∈ (w.bp b).objs, LacksOrientation (w.heap r)) ∨
      ((w.bp b).objs ≠ [] ∧ ∃ o, a = some o ∧ o.parts = none) := by
  have hn := h.owned.nodup b
  rw [bpRotate_noTiles (h.noTiles b)]
  have hok : (∃ x, (layerRotate b k a d w).1 = .error x) ↔ ¬ (layerRotate b k a d w).1 = .ok () := by
    cases (layerRotate b k a d w).1 <;> simp
  have hiff : (layerRotate b k a d w).1 = .ok () ↔ ∀ r ∈ (w.bp b).objs,
      ((w.heap r).rotate k (a.getD (.vec ⟨.int 0, .int 0⟩)) (d.getD (.int Direction.CLOCKWISE))).1 = .ok () := by
    constructor
    · intro h
      exact ((layerRotate_iff hn).1
        (show layerRotate b k a d w = (.ok (), (layerRotate b k a d w).2) by rw [← h])).1
    · intro h
      rw [(layerRotate_iff hn).2 ⟨h, rfl⟩]
  rw [hok, hiff]
  simp only [Entity.rotate_fails, not_forall]
  have hpa : (a.getD (.vec ⟨.int 0, .int 0⟩)).parts = none ↔ ∃ o, a = some o ∧ o.parts = none := by
    cases a with
    | none => simp [Operand.parts]
    | some o => simp
  constructor
  · rintro ⟨r, hr, hx⟩
    by_cases hp : (a.getD (.vec ⟨.int 0, .int 0⟩)).parts = none
    · exact .inr ⟨List.ne_nil_of_mem hr, hpa.1 hp⟩
    · exact .inl ⟨r, hr, (lacks_iff _).2 (fun h => hx ⟨hp, h⟩)⟩
  · rintro (⟨r, hr, hl⟩ | ⟨hne, ho⟩)
    · exact ⟨r, hr, fun h => (lacks_iff _).1 hl h.2⟩
    · obtain ⟨r, hr⟩ := List.exists_mem_of_ne_nil _ hne
      exact ⟨r, hr, fun h => h.1 (hpa.2 ho)⟩

/-- Without an explicit centre the only reason is rolling stock without orientation. -/
theorem C23_raises_only_if {env : Env} {w : World} (h : Reachable env w) {b : BpId} {k : Int}
    {d : Option DirArg} {x : Exc} (hx : (bpRotate b k none d w).1 = .error x) :
    ∃ r ∈ (w.bp b).objs, LacksOrientation (w.heap r) := by
  rcases (C23_raises_iff h).1 ⟨x, hx⟩ with h | ⟨-, o, ho, -⟩
  · exact h
  · cases ho

/-- What a failing rotation leaves behind: the entities before the failing one have been turned, the failing
one may have been moved, the entities after it, the list and all numbers are as before. -/
theorem C23_state_partial {env : Env} {w w' : World} (h : Reachable env w) {b : BpId} {k : Int} {a : Option Operand}
    {d : Option DirArg} {x : Exc} (hr : bpRotate b k a d w = (.error x, w')) :
    ∃ pre r post, (w.bp b).objs = pre ++ r :: post ∧
      (∀ s ∈ pre, (w.heap s).rotate k (a.getD (.vec ⟨.int 0, .int 0⟩)) (d.getD (.int Direction.CLOCKWISE)) =
        (.ok (), w'.heap s)) ∧
      (w.heap r).rotate k (a.getD (.vec ⟨.int 0, .int 0⟩)) (d.getD (.int Direction.CLOCKWISE)) =
        (.error x, w'.heap r) ∧
      (∀ s, s ∉ pre → s ≠ r → w'.heap s = w.heap s) ∧
      (∀ s, (w'.heap s).auto = (w.heap s).auto) ∧ w'.bp = w.bp := by
  have hn := h.owned.nodup b
  rw [bpRotate_noTiles (h.noTiles b)] at hr
  obtain ⟨pre, r, post, ho, h1, h2, rfl⟩ := (layerRotate_error hn).1 hr
  refine ⟨pre, r, post, ho, ?_, ?_, ?_, ?_, rfl⟩
  · intro s hs
    rw [each_heap, if_pos (List.mem_append_left _ hs)]
    exact Prod.ext (h1 s hs) rfl
  · rw [each_heap, if_pos (List.mem_append_right _ (List.mem_singleton.2 rfl))]
    exact Prod.ext h2 rfl
  · intro s hs hsr
    rw [each_heap, if_neg]
    intro hm
    rcases List.mem_append.1 hm with hm | hm
    · exact hs hm
    · exact hsr (List.mem_singleton.1 hm)
  · intro s
    rw [each_heap]
    split
    · obtain ⟨_, _, _, hf⟩ := Entity.rotate_frame (w.heap s) k (a.getD (.vec ⟨.int 0, .int 0⟩))
        (d.getD (.int Direction.CLOCKWISE))
      rw [hf]
    · rfl

/-- A belt and a locomotive without orientation. -/
def Sample.noOri : World :=
  ((Op.make 0 (Sample.ent "loco" 0 5)).run
    ((Op.make 0 (Sample.ent "belt" 3 0)).run (World.init Sample.env)).2).2

theorem Sample.noOri_reachable : Reachable Sample.env Sample.noOri :=
  .step (.make 0 (Sample.ent "loco" 0 5)) (.step (.make 0 (Sample.ent "belt" 3 0)) .init trivial) trivial

/-- The property is false of the code: a rotation that raises has moved entities. -/
theorem C23_false : ¬ ∀ (w w' : World) (b : BpId) (k : Int) (x : Exc), Reachable Sample.env w →
    bpRotate b k none none w = (.error x, w') → ∀ r ∈ (w.bp b).objs, (w'.heap r).pos = (w.heap r).pos := by
  intro h
  have := h Sample.noOri _ 0 1 .typeError Sample.noOri_reachable (Sample.run_eq (by decide +kernel)) 0
    (by decide +kernel)
  exact absurd this (by decide +kernel)

example : (bpRotate 0 1 none none Sample.noOri).1 = .error .typeError := by decide +kernel

/-! ## C46 -/

/-- In every history of calls the orientation of an entity is absent, `None` or in `[0, 1)`. -/
theorem C46_range {env : Env} {w : World} (h : Reachable env w) (r : Ref) (v : Val)
    (hv : List.lookup "orientation" (w.heap r).attrs = some v) :
    v = .none ∨ ∃ q : Rat, v = .flt q ∧ 0 ≤ q ∧ q < 1 := h.oriOk r v hv

/-- Rotating rolling stock by `k` quarter turns adds `k/4` modulo 1 to its orientation. -/
theorem C46_rotate {env : Env} {w : World} (h : Reachable env w) {r : Ref} (ht : .Train ∈ (w.heap r).klass.chain)
    {q : Rat} (hq : List.lookup "orientation" (w.heap r).attrs = some (.flt q)) {a : Operand} (ha : a.parts ≠ none)
    (k : Int) : ∃ w' q', entRotate k a (.int Direction.CLOCKWISE) r w = (.ok (), w') ∧
      List.lookup "orientation" (w'.heap r).attrs = some (.flt q') ∧ FractionOf (q + (k : Rat) / 4) q' := by
  have ho : Mx.Orientation ∈ (w.heap r).klass.chain :=
    ((h.klass r).parent ht (p := .Orientation) rfl).subset (by simp)
  have hok : ((w.heap r).rotate k a (.int Direction.CLOCKWISE)).1 = .ok () := by
    rw [Entity.rotate_fails]
    refine ⟨ha, fun _ => ?_⟩
    unfold Entity.ori Dict.get?
    rw [hq]
    simp [Val.num?]
  cases hp : a.parts with
  | none => exact absurd hp ha
  | some c =>
    have := turnedEntity_rotate (h.klass r) (c := ⟨c.1, c.2⟩) hp hok
      ((w.heap r).rotate k a (.int Direction.CLOCKWISE)).2.auto
    obtain ⟨v, n, q', h1, h2, h3, h4⟩ := this.orientation ho
    rw [hq] at h1
    cases h1
    cases h2
    refine ⟨_, q', Prod.ext hok rfl, ?_, h4⟩
    simp only [entRotate, setEnt_heap, if_true]
    exact h3

/-- Rolling stock whose orientation is `None` cannot be rotated. -/
theorem C46_none {e : Entity} (ho : .Orientation ∈ e.klass.chain)
    (hn : List.lookup "orientation" e.attrs = some .none) (a : Operand) (d : DirArg) (k : Int) :
    (e.rotate k a d).1 ≠ .ok () := by
  intro h
  refine (Entity.rotate_fails.1 h).2 ho ?_
  unfold Entity.ori Dict.get?
  rw [hn]
  rfl

/-- Assigning an orientation stores the number modulo 1. -/
theorem C46_assign {w : World} {r : Ref} (ht : (w.heap r).klass.has .Train = true) (n : Num) :
    ∃ w' q, setOrientation r (.num n) w = (.ok (), w') ∧
      List.lookup "orientation" (w'.heap r).attrs = some (.flt q) ∧ FractionOf n.val q := by
  have ho : orientationSet (.num n) = .ok (.flt (fract n.val)) := by
    show (do return Val.num (← n.mod (.flt 1)) : Except Exc Val) = _
    rw [Num.mod_one]
    rfl
  refine ⟨_, fract n.val, by unfold setOrientation; rw [if_pos ht, ho], ?_, (fract_range _).1, (fract_range _).2,
    fract_shift _⟩
  rw [setEnt_heap, if_pos rfl]
  dsimp only
  rw [lookup_set, if_pos rfl]

example : Mx.Train ∈ (Sample.loaded.heap 2).klass.chain ∧ (Sample.loaded.heap 2).klass.has .Train = true ∧
    List.lookup "orientation" (Sample.loaded.heap 2).attrs = some (.flt (1/4)) :=
  ⟨by decide +kernel, by decide +kernel, by decide +kernel⟩

end Verif
