import Verif.Proofs.Rotate
/-!
# Helper lemmas: rotating a whole entity layer
-/
set_option autoImplicit false

namespace Verif
open Spec

theorem sortBy_sortBy {α : Type _} {le1 le2 : α → α → Bool} (h1 : TotalPre le1) (h2 : TotalPre le2)
    {l : List α} (ht : ∀ x ∈ l, ∀ y ∈ l, tie le1 x y = tie le2 x y) :
    sortBy le2 (sortBy le1 l) = sortBy le2 l := by
  refine sorted_ext h2 ?_ (sortBy_sorted h2 _) (sortBy_sorted h2 _) ?_
  · exact ((sortBy_perm _ _).trans (sortBy_perm _ _)).trans (sortBy_perm _ _).symm
  · intro z
    rw [sortBy_filter_tie h2, sortBy_filter_tie h2]
    by_cases hz : ∃ r ∈ l, tie le2 z r = true
    · obtain ⟨r, hr, hzr⟩ := hz
      have hc : ∀ y, tie le2 z y = tie le2 r y := by
        intro y
        simp only [tie, Bool.and_eq_true] at hzr ⊢
        rw [Bool.eq_iff_iff]
        simp only [Bool.and_eq_true]
        exact ⟨fun h => ⟨h2.trans _ _ _ hzr.2 h.1, h2.trans _ _ _ h.2 hzr.1⟩,
          fun h => ⟨h2.trans _ _ _ hzr.1 h.1, h2.trans _ _ _ h.2 hzr.2⟩⟩
      have hf : ∀ m : List α, (∀ y ∈ m, y ∈ l) → m.filter (tie le2 z) = m.filter (tie le1 r) := by
        intro m hm
        exact List.filter_congr (fun y hy => by rw [hc, ht r hr y (hm y hy)])
      rw [hf _ (fun y hy => (mem_sortBy _).1 hy), hf _ (fun y hy => hy), sortBy_filter_tie h1]
    · have hf : ∀ m : List α, (∀ y ∈ m, y ∈ l) → m.filter (tie le2 z) = [] := by
        intro m hm
        rw [List.filter_eq_nil_iff]
        exact fun y hy h => hz ⟨y, hm y hy, h⟩
      rw [hf _ (fun y hy => (mem_sortBy _).1 hy), hf _ (fun y hy => hy)]

theorem posLe_congr {p p' q q' : Vec} (hp : SamePos p p') (hq : SamePos q q') : posLe p q = posLe p' q' := by
  rw [Bool.eq_iff_iff, posLe_iff, posLe_iff]
  unfold Before
  rw [hp.1, hp.2, hq.1, hq.2]

/-- `e'` is `e` except that its position may be another one related by `Q`. -/
def Upto (Q : Vec → Vec → Prop) (e e' : Entity) : Prop := { e with pos := e'.pos } = e' ∧ Q e.pos e'.pos

theorem upto_eq {e e' : Entity} : Upto (· = ·) e e' ↔ e = e' := by
  constructor
  · rintro ⟨h1, h2⟩
    rw [← h1]
    cases e
    simp only at h2
    rw [← h2]
  · rintro rfl
    exact ⟨rfl, rfl⟩

theorem Upto.auto {Q : Vec → Vec → Prop} {e e' : Entity} {x y : Option Int} (z : Option Int)
    (h : Upto Q { e with auto := x } { e' with auto := y }) : Upto Q { e with auto := z } { e' with auto := z } := by
  obtain ⟨h1, h2⟩ := h
  refine ⟨?_, h2⟩
  cases e; cases e'
  simp only [Entity.mk.injEq] at h1 ⊢
  simp only [h1, true_and, and_self]

/-- Two worlds that agree up to `Q` on positions. -/
structure WUpto (Q : Vec → Vec → Prop) (w w' : World) : Prop where
  env : w.env = w'.env
  next : w.next = w'.next
  bp : w.bp = w'.bp
  heap : ∀ r, Upto Q (w.heap r) (w'.heap r)

theorem wupto_eq {w w' : World} (h : WUpto (· = ·) w w') : w = w' :=
  World.ext h.env (funext fun r => upto_eq.1 (h.heap r)) h.next h.bp

theorem reindex_mem {heap : Ref → Entity} {l : List Ref} (hl : l.Nodup) {s : Ref} (hs : s ∈ l) :
    ∃ i : Nat, ∀ heap' : Ref → Entity, reindexFrom heap' 0 l s = { heap' s with auto := some ((i : Int) + 1) } := by
  obtain ⟨i, hi, rfl⟩ := List.mem_iff_getElem.1 hs
  exact ⟨i, fun heap' => by rw [reindexFrom_getElem hl hi]; simp⟩

/-- Two heaps that differ in numbers of listed entities only, and in positions only as `Q` allows,
become the same up to `Q` by sorting the layer. -/
theorem sort_wupto {Q : Vec → Vec → Prop} (hQ : ∀ p q, Q p q → SamePos p q) {w v : World} {b : BpId}
    (he : w.env = v.env) (hn : w.next = v.next) (hb : ∀ c, c ≠ b → w.bp c = v.bp c)
    (hb' : { w.bp b with objs := (v.bp b).objs } = v.bp b)
    (hnd : (w.bp b).objs.Nodup)
    (hin : ∀ r ∈ (w.bp b).objs, ∃ z, Upto Q { w.heap r with auto := z } { v.heap r with auto := z })
    (hout : ∀ r, r ∉ (w.bp b).objs → Upto Q (w.heap r) (v.heap r))
    (hs : sortBy (fun r s => posLe (v.heap r).pos (v.heap s).pos) (w.bp b).objs =
      sortBy (fun r s => posLe (v.heap r).pos (v.heap s).pos) (v.bp b).objs) :
    WUpto Q (w.sort b) (v.sort b) := by
  have hpos : ∀ r, SamePos (w.heap r).pos (v.heap r).pos := by
    intro r
    by_cases hr : r ∈ (w.bp b).objs
    · obtain ⟨z, h⟩ := hin r hr
      exact hQ _ _ h.2
    · exact hQ _ _ (hout r hr).2
  have hle : (fun r s => posLe (w.heap r).pos (w.heap s).pos) = fun r s => posLe (v.heap r).pos (v.heap s).pos := by
    funext r s
    exact posLe_congr (hpos r) (hpos s)
  have hl : sortBy (fun r s => posLe (w.heap r).pos (w.heap s).pos) (w.bp b).objs =
      sortBy (fun r s => posLe (v.heap r).pos (v.heap s).pos) (v.bp b).objs := by rw [hle, hs]
  refine ⟨he, hn, ?_, ?_⟩
  · funext c
    show (w.setBp b _).bp c = (v.setBp b _).bp c
    rw [setBp_bp, setBp_bp]
    split
    · rw [hl, ← hb']
    · exact hb c ‹_›
  · intro r
    show Upto Q (reindexFrom w.heap 0 _ r) (reindexFrom v.heap 0 _ r)
    rw [← hl]
    by_cases hr : r ∈ (w.bp b).objs
    · obtain ⟨i, hi⟩ := reindex_mem (heap := w.heap)
        ((sortBy_perm (fun r s => posLe (w.heap r).pos (w.heap s).pos) _).nodup_iff.2 hnd)
        ((mem_sortBy _).2 hr)
      obtain ⟨z, h⟩ := hin r hr
      rw [hi, hi]
      exact h.auto _
    · rw [reindexFrom_not_mem (fun h => hr ((mem_sortBy _).1 h)),
        reindexFrom_not_mem (fun h => hr ((mem_sortBy _).1 h))]
      exact hout r hr

theorem layerRotate_iff {b : BpId} {n : Int} {a : Option Operand} {d : Option DirArg} {w w' : World}
    (hn : (w.bp b).objs.Nodup) : layerRotate b n a d w = (.ok (), w') ↔
      (∀ r ∈ (w.bp b).objs, ((w.heap r).rotate n (a.getD (.vec ⟨.int 0, .int 0⟩))
        (d.getD (.int Direction.CLOCKWISE))).1 = .ok ()) ∧
      w' = (w.each (fun e => e.rotate n (a.getD (.vec ⟨.int 0, .int 0⟩))
        (d.getD (.int Direction.CLOCKWISE))) (w.bp b).objs).sort b := by
  unfold layerRotate
  rw [M.bind_get, M.bind_unit_ok]
  constructor
  · rintro ⟨v, hv, h⟩
    obtain ⟨h1, rfl⟩ := (forEach_perEnt_ok
      (step := fun e => e.rotate n (a.getD (.vec ⟨.int 0, .int 0⟩)) (d.getD (.int Direction.CLOCKWISE))) hn).1 hv
    refine ⟨h1, ?_⟩
    simp only [M.modify_eq, Prod.mk.injEq, true_and] at h
    exact h.symm
  · rintro ⟨h1, rfl⟩
    exact ⟨_, (forEach_perEnt_ok
      (step := fun e => e.rotate n (a.getD (.vec ⟨.int 0, .int 0⟩)) (d.getD (.int Direction.CLOCKWISE))) hn).2 ⟨h1, rfl⟩, rfl⟩

theorem layerRotate_error {b : BpId} {n : Int} {a : Option Operand} {d : Option DirArg} {w w' : World} {x : Exc}
    (hn : (w.bp b).objs.Nodup) : layerRotate b n a d w = (.error x, w') ↔
      ∃ pre r post, (w.bp b).objs = pre ++ r :: post ∧
        (∀ s ∈ pre, ((w.heap s).rotate n (a.getD (.vec ⟨.int 0, .int 0⟩))
          (d.getD (.int Direction.CLOCKWISE))).1 = .ok ()) ∧
        ((w.heap r).rotate n (a.getD (.vec ⟨.int 0, .int 0⟩)) (d.getD (.int Direction.CLOCKWISE))).1 = .error x ∧
        w' = w.each (fun e => e.rotate n (a.getD (.vec ⟨.int 0, .int 0⟩))
          (d.getD (.int Direction.CLOCKWISE))) (pre ++ [r]) := by
  unfold layerRotate
  rw [M.bind_get, M.bind_eq, ← forEach_perEnt_error
    (step := fun e => e.rotate n (a.getD (.vec ⟨.int 0, .int 0⟩)) (d.getD (.int Direction.CLOCKWISE))) hn]
  show _ ↔ M.forEach (entRotate n (a.getD (.vec ⟨.int 0, .int 0⟩)) (d.getD (.int Direction.CLOCKWISE)))
    (w.bp b).objs w = _
  generalize M.forEach (entRotate n (a.getD (.vec ⟨.int 0, .int 0⟩)) (d.getD (.int Direction.CLOCKWISE)))
    (w.bp b).objs w = p
  obtain ⟨p1, p2⟩ := p
  cases p1 with
  | error y => rfl
  | ok u => simp [M.modify_eq]

/-- Without tiles only the entity layer matters. -/
theorem bpRotate_noTiles {b : BpId} {n : Int} {a : Option Operand} {d : Option DirArg} {w : World}
    (ht : (w.bp b).tiles = []) : bpRotate b n a d w = layerRotate b n a d w := by
  have hk : Keeps (fun v => (v.bp b).tiles = []) (layerRotate b n a d) := by
    constructor
    intro v hv
    have hf : ∀ (l : List Ref) (v : World), (v.bp b).tiles = [] →
        ((M.forEach (entRotate n (a.getD (.vec ⟨.int 0, .int 0⟩)) (d.getD (.int Direction.CLOCKWISE))) l v).2.bp
          b).tiles = [] := by
      intro l v hv
      rw [(forEach_entRotate_rest _ _ _ l v).1]
      exact hv
    unfold layerRotate
    rw [M.bind_get, M.bind_eq]
    have := hf (v.bp b).objs v hv
    generalize M.forEach (entRotate n (a.getD (.vec ⟨.int 0, .int 0⟩)) (d.getD (.int Direction.CLOCKWISE)))
      (v.bp b).objs v = p at this ⊢
    obtain ⟨p1, p2⟩ := p
    cases p1 with
    | error y => exact this
    | ok u =>
      show ((p2.sort b).bp b).tiles = []
      rw [sort_bp_self]
      exact this
  have hk := hk.1 w ht
  unfold bpRotate
  rw [M.bind_eq]
  generalize layerRotate b n a d w = p at hk ⊢
  obtain ⟨p1, p2⟩ := p
  cases p1 with
  | error y => rfl
  | ok u =>
    dsimp only at hk ⊢
    rw [M.bind_eq]
    simp only [tilesRotate, hk, tilesRotateAux, tilesSort, modBp_eq, setBp_bp_self, sortBy]
    congr 1
    refine World.ext rfl rfl rfl ?_
    funext c
    simp only [setBp_bp]
    split
    · rename_i h; subst h
      generalize p2.bp c = q at hk ⊢
      cases q
      dsimp only at hk
      subst hk
      rfl
    · rfl

theorem each_objs (w : World) (step : Entity → Except Exc Unit × Entity) (l : List Ref) (b : BpId) :
    ((w.each step l).bp b).objs = (w.bp b).objs := rfl

theorem each_heap (w : World) (step : Entity → Except Exc Unit × Entity) (l : List Ref) (r : Ref) :
    (w.each step l).heap r = if r ∈ l then (step (w.heap r)).2 else w.heap r := rfl

theorem Entity.rotate_snd {e : Entity} {n : Int} {o : Operand} {d : DirArg} {a : Vec}
    (h : (e.rotate n o d).1 = .ok ()) (ha : o.parts = some (a.x, a.y)) :
    (e.rotate n o d).2 =
      { e.turned (turns n d) e.klass.chain with pos := moved (turns n d) a e.pos } := by
  obtain ⟨a', h1, h2, h3⟩ := rotate_ok.1 (show e.rotate n o d = (.ok (), (e.rotate n o d).2) by rw [← h])
  rw [ha] at h1
  simp only [Option.some.injEq, Prod.mk.injEq] at h1
  have : a = a' := Vec.ext' h1.1 h1.2
  rw [h3, this]

/-- Two rotations of a layer one after the other. -/
theorem layerRotate_twice {Q : Vec → Vec → Prop} (hQ : ∀ p q, Q p q → SamePos p q) (hrefl : ∀ p, Q p p)
    {b : BpId} {j k : Int} {a : Option Operand} {d : Option DirArg} {c : Vec} {w w1 : World}
    (hd : d.getD (.int Direction.CLOCKWISE) = .int Direction.CLOCKWISE)
    (ha : (a.getD (.vec ⟨.int 0, .int 0⟩)).parts = some (c.x, c.y))
    (hc : ∀ p, Q (Entity.moved (k % 4) c (Entity.moved (j % 4) c p)) (Entity.moved ((j + k) % 4) c p))
    (hn : (w.bp b).objs.Nodup) (h : layerRotate b j a d w = (.ok (), w1)) :
    ∃ w2 w3, layerRotate b k a d w1 = (.ok (), w2) ∧ layerRotate b (j + k) a d w = (.ok (), w3) ∧
      WUpto Q w2 w3 := by
  obtain ⟨h1, rfl⟩ := (layerRotate_iff hn).1 h
  rw [hd] at h1
  clear h
  generalize hv : w.each (fun e => e.rotate j (a.getD (.vec ⟨.int 0, .int 0⟩))
    (d.getD (.int Direction.CLOCKWISE))) (w.bp b).objs = v
  have hvobjs : (v.bp b).objs = (w.bp b).objs := by rw [← hv]; rfl
  have hperm := sort_objs_perm v b
  rw [hvobjs] at hperm
  have hn1 : ((v.sort b).bp b).objs.Nodup := hperm.nodup_iff.2 hn
  have hheap : ∀ r ∈ (w.bp b).objs, ∃ x, (v.sort b).heap r =
      { (w.heap r).turned (j % 4) (w.heap r).klass.chain with
        pos := Entity.moved (j % 4) c (w.heap r).pos, auto := x } := by
    intro r hr
    obtain ⟨x, hx⟩ := sort_heap v b r
    refine ⟨x, ?_⟩
    rw [hx, ← hv, each_heap, if_pos hr, hd, Entity.rotate_snd (h1 r hr) ha, Entity.turns_cw]
  have hout : ∀ r, r ∉ (w.bp b).objs → (v.sort b).heap r = w.heap r := by
    intro r hr
    show reindexFrom v.heap 0 _ r = _
    rw [reindexFrom_not_mem (fun h => hr (by rw [← hvobjs]; exact (mem_sortBy _).1 h)), ← hv, each_heap,
      if_neg hr]
  -- every single step works
  have h2 : ∀ r ∈ (w.bp b).objs, (((v.sort b).heap r).rotate k (a.getD (.vec ⟨.int 0, .int 0⟩))
      (.int Direction.CLOCKWISE)).1 = .ok () := by
    intro r hr
    obtain ⟨x, hx⟩ := hheap r hr
    rw [Entity.rotate_fails]
    refine ⟨by rw [ha]; simp, ?_⟩
    rw [hx]
    intro ho
    have ho : Mx.Orientation ∈ (w.heap r).klass.chain := ho
    show ((w.heap r).turned (j % 4) (w.heap r).klass.chain).ori ≠ none
    rw [Entity.ori_turned, if_pos ho]
    simp
  have h3 : ∀ r ∈ (w.bp b).objs, ((w.heap r).rotate (j + k) (a.getD (.vec ⟨.int 0, .int 0⟩))
      (.int Direction.CLOCKWISE)).1 = .ok () :=
    fun r hr => Entity.rotate_fails.2 (Entity.rotate_fails.1 (h1 r hr))
  refine ⟨_, _, (layerRotate_iff hn1).2 ⟨?_, rfl⟩, (layerRotate_iff hn).2 ⟨?_, rfl⟩, ?_⟩
  · rw [hd]
    exact fun r hr => h2 r (hperm.mem_iff.1 hr)
  · rw [hd]
    exact h3
  rw [hd]
  have hmem : ∀ r, r ∈ ((v.sort b).bp b).objs ↔ r ∈ (w.bp b).objs := fun r => hperm.mem_iff
  have hin2 : ∀ r ∈ (w.bp b).objs, ∃ x, (((v.sort b).heap r).rotate k (a.getD (.vec ⟨.int 0, .int 0⟩))
      (.int Direction.CLOCKWISE)).2 =
      { (w.heap r).turned ((j + k) % 4) (w.heap r).klass.chain with
        pos := Entity.moved (k % 4) c (Entity.moved (j % 4) c (w.heap r).pos), auto := x } := by
    intro r hr
    obtain ⟨x, hx⟩ := hheap r hr
    refine ⟨x, ?_⟩
    rw [Entity.rotate_snd (h2 r hr) ha, hx, Entity.turns_cw]
    have := Entity.turned_turned (show ((j + k) % 4) % 4 = (j % 4 + k % 4) % 4 by omega) (w.heap r)
      (w.heap r).klass.chain
    rw [← this]
    rfl
  have hin3 : ∀ r ∈ (w.bp b).objs, ((w.heap r).rotate (j + k) (a.getD (.vec ⟨.int 0, .int 0⟩))
      (.int Direction.CLOCKWISE)).2 =
      { (w.heap r).turned ((j + k) % 4) (w.heap r).klass.chain with
        pos := Entity.moved ((j + k) % 4) c (w.heap r).pos } := by
    intro r hr
    rw [Entity.rotate_snd (h3 r hr) ha, Entity.turns_cw]
  refine sort_wupto hQ ?_ ?_ ?_ ?_ hn1 ?_ ?_ ?_
  · rw [← hv]; rfl
  · rw [← hv]; rfl
  · intro c hc
    show (v.sort b).bp c = w.bp c
    rw [sort_bp_other hc, ← hv]
    rfl
  · show { (v.sort b).bp b with objs := (w.bp b).objs } = w.bp b
    rw [sort_bp_self, ← hv]
    rfl
  · intro r hr
    rw [each_objs] at hr
    have hr' := (hmem r).1 hr
    rw [each_heap, each_heap, if_pos hr, if_pos hr', hin3 r hr']
    obtain ⟨x, hx⟩ := hin2 r hr'
    rw [hx]
    exact ⟨none, rfl, hc _⟩
  · intro r hr
    rw [each_objs] at hr
    have hr' : r ∉ (w.bp b).objs := fun h => hr ((hmem r).2 h)
    rw [each_heap, each_heap, if_neg hr, if_neg hr', hout r hr']
    exact ⟨rfl, hrefl _⟩
  · show sortBy _ ((v.sort b).bp b).objs = sortBy _ (w.bp b).objs
    rw [sort_bp_self]
    dsimp only
    rw [hvobjs]
    refine sortBy_sortBy (posLe_total _) (posLe_total _) ?_
    intro r hr s hs
    rw [tie_posLe, tie_posLe, each_heap, each_heap, if_pos hr, if_pos hs, hin3 r hr, hin3 s hs, ← hv,
      each_heap, each_heap, if_pos hr, if_pos hs, hd, Entity.rotate_snd (h1 r hr) ha,
      Entity.rotate_snd (h1 s hs) ha, Entity.turns_cw]
    refine decide_eq_decide.2 ?_
    dsimp only
    rw [Entity.moved_samePos_iff (by omega), Entity.moved_samePos_iff (by omega)]

/-- Sorting a layer in order changes nothing. -/
theorem sort_of_inOrder {w : World} {b : BpId} (hn : (w.bp b).objs.Nodup) (ho : InOrder w b (w.bp b).objs) :
    w.sort b = w := by
  have hsort : sortBy (fun r s => posLe (w.heap r).pos (w.heap s).pos) (w.bp b).objs = (w.bp b).objs :=
    sortBy_of_sorted (posLe_total _) (ho.sorted.imp (fun h => (posLe_iff _ _).2 h))
  unfold World.sort
  rw [hsort]
  refine World.ext rfl ?_ rfl ?_
  · funext r
    show reindexFrom w.heap 0 (w.bp b).objs r = w.heap r
    by_cases hr : r ∈ (w.bp b).objs
    · obtain ⟨i, hi, rfl⟩ := List.mem_iff_getElem.1 hr
      rw [reindexFrom_getElem hn hi]
      have := ho.numbered i hi
      generalize w.heap (w.bp b).objs[i] = e at this
      cases e
      simp only at this
      simp [this]
    · exact reindexFrom_not_mem hr
  · funext c
    show (w.setBp b _).bp c = w.bp c
    rw [setBp_bp]
    split
    · rename_i h; rw [h]
    · rfl

end Verif
