import Verif.Proofs.Extent
import Verif.Proofs.Each
import Verif.Props.Sample
/-!
# Extent, centre and recentering (C39, C40)
-/
set_option autoImplicit false

namespace Verif
open Spec

/-! ## C39 -/

/-- C39, for one entity: its four corners are the corners of its selection box where it stands. -/
theorem C39_entity {env : Env} {e : Entity} (hd : 0 ≤ e.dir.n)
    (h : ∃ x0 y0 x1 y1, HasBox env e.name x0 y0 x1 y1) :
    ∃ p q r s, e.topLeft env = .ok p ∧ e.bottomRight env = .ok q ∧ e.topRight env = .ok r ∧ e.bottomLeft env = .ok s ∧
      Borders env e p.x.val p.y.val q.x.val q.y.val ∧
      r.x.val = q.x.val ∧ r.y.val = p.y.val ∧ s.x.val = p.x.val ∧ s.y.val = q.y.val := by
  obtain ⟨p, q, hp, hq⟩ := corners_total h
  have hb := (corners_borders hd hp hq).2 ⟨rfl, rfl, rfl, rfl⟩
  unfold Entity.topLeft at hp
  unfold Entity.bottomRight at hq
  simp only [bind_eq_ok, pure_eq_ok, Except.ok.injEq] at hp hq
  obtain ⟨c, hc, rfl⟩ := hp
  obtain ⟨c', hc', rfl⟩ := hq
  rw [hc] at hc'
  cases hc'
  refine ⟨_, _, e.pos.addV ⟨c.2.x, c.1.y⟩, e.pos.addV ⟨c.1.x, c.2.y⟩, ?_, ?_, ?_, ?_, hb, rfl, rfl, rfl, rfl⟩
  · unfold Entity.topLeft; rw [hc]; rfl
  · unfold Entity.bottomRight; rw [hc]; rfl
  · unfold Entity.topRight; rw [hc]; rfl
  · unfold Entity.bottomLeft; rw [hc]; rfl

/-- `maximum_values` succeeds when the prototype data have a selection box for every entity. -/
theorem C39_total (w : World) (b : BpId)
    (h : ∀ r ∈ (w.bp b).objs, ∃ x0 y0 x1 y1, HasBox w.env (w.heap r).name x0 y0 x1 y1) :
    ∃ x, maximumValues w b = .ok x :=
  extentAux_total _ (by
    intro e he
    obtain ⟨r, hr, rfl⟩ := List.mem_map.1 he
    exact h r hr)

/-- An empty blueprint has infinite bounds. -/
theorem C39_empty (w : World) (b : BpId) (h : (w.bp b).objs = []) :
    maximumValues w b = .ok ⟨none, none, none, none⟩ := by
  unfold maximumValues
  rw [h]
  rfl

private theorem sides {w : World} {b : BpId} {x : Extent} (hd : ∀ r ∈ (w.bp b).objs, 0 ≤ (w.heap r).dir.n)
    (h : maximumValues w b = .ok x) (hne : (w.bp b).objs ≠ []) :
    ∃ cs : List (Vec × Vec), cs ≠ [] ∧
      x = { maxx := (cs.map (·.2.x)).foldl (boundStep (fun v m => m.lt v)) none,
            minx := (cs.map (·.1.x)).foldl (boundStep (fun v m => v.lt m)) none,
            maxy := (cs.map (·.2.y)).foldl (boundStep (fun v m => m.lt v)) none,
            miny := (cs.map (·.1.y)).foldl (boundStep (fun v m => v.lt m)) none } ∧
      ∀ s q, BorderAt w b s q ↔ ∃ c ∈ cs, q = s.pick c.1.x.val c.1.y.val c.2.x.val c.2.y.val := by
  obtain ⟨cs, hf, rfl⟩ := extentAux_ok.1 h
  rw [List.forall₂_map_left_iff] at hf
  refine ⟨cs, ?_, rfl, ?_⟩
  · rintro rfl
    cases hf' : (w.bp b).objs with
    | nil => exact hne hf'
    | cons r l =>
      rw [hf'] at hf
      cases hf
  · intro s q
    clear h hne
    unfold BorderAt
    generalize (w.bp b).objs = l at hd hf
    induction hf with
    | nil => simp
    | @cons r c l cs hc hf ih =>
      have ih := ih (fun r hr => hd r (List.mem_cons_of_mem _ hr))
      simp only [List.mem_cons, exists_eq_or_imp, ih]
      refine or_congr ?_ Iff.rfl
      have hb := fun x0 y0 x1 y1 => corners_borders (x0 := x0) (y0 := y0) (x1 := x1) (y1 := y1)
        (hd r (List.mem_cons_self ..)) hc.1 hc.2
      simp only [hb]
      constructor
      · rintro ⟨x0, y0, x1, y1, ⟨rfl, rfl, rfl, rfl⟩, h⟩
        exact h
      · intro h
        exact ⟨_, _, _, _, ⟨rfl, rfl, rfl, rfl⟩, h⟩

private theorem greatestCase {cs : List (Vec × Vec)} (hne : cs ≠ []) (f : Vec × Vec → Num) :
    ∃ m, (cs.map f).foldl (boundStep (fun v m => m.lt v)) none = some m ∧
      ∀ q, (∃ c ∈ cs, q = (f c).val) → (∀ c ∈ cs, (f c).val ≤ q) → TowardZero q m := by
  obtain ⟨m, h1, h2, h3, -⟩ := foldMax (l := cs.map f) (acc := none) (.inr (by simpa using hne))
  refine ⟨m, h1, ?_⟩
  rintro _ ⟨c, hc, rfl⟩ hq
  rcases h2 with h2 | ⟨v, hv, rfl⟩
  · simp at h2
  · obtain ⟨c', hc', rfl⟩ := List.mem_map.1 hv
    have := h3 (f c) (List.mem_map_of_mem hc)
    have h' := Num.trunc_mono (hq c' hc')
    have : (f c').trunc = (f c).trunc := by omega
    rw [this]
    exact Num.trunc_spec _

private theorem leastCase {cs : List (Vec × Vec)} (hne : cs ≠ []) (f : Vec × Vec → Num) :
    ∃ m, (cs.map f).foldl (boundStep (fun v m => v.lt m)) none = some m ∧
      ∀ q, (∃ c ∈ cs, q = (f c).val) → (∀ c ∈ cs, q ≤ (f c).val) → TowardZero q m := by
  obtain ⟨m, h1, h2, h3, -⟩ := foldMin (l := cs.map f) (acc := none) (.inr (by simpa using hne))
  refine ⟨m, h1, ?_⟩
  rintro _ ⟨c, hc, rfl⟩ hq
  rcases h2 with h2 | ⟨v, hv, rfl⟩
  · simp at h2
  · obtain ⟨c', hc', rfl⟩ := List.mem_map.1 hv
    have := h3 (f c) (List.mem_map_of_mem hc)
    have h' := Num.trunc_mono (hq c' hc')
    have : (f c').trunc = (f c).trunc := by omega
    rw [this]
    exact Num.trunc_spec _

/-- What `maximum_values` returns for a blueprint that is not empty: the outermost border on every side,
with its fraction cut off. -/
theorem C39_exact {env : Env} {w : World} (hw : Reachable env w) (b : BpId) (hne : (w.bp b).objs ≠ [])
    {x : Extent} (h : maximumValues w b = .ok x) :
    ∃ maxx minx maxy miny : Int, x = ⟨some maxx, some minx, some maxy, some miny⟩ ∧
      (∀ q, Greatest (BorderAt w b .right) q → TowardZero q maxx) ∧
      (∀ q, Least (BorderAt w b .left) q → TowardZero q minx) ∧
      (∀ q, Greatest (BorderAt w b .bottom) q → TowardZero q maxy) ∧
      (∀ q, Least (BorderAt w b .top) q → TowardZero q miny) := by
  obtain ⟨cs, hcs, rfl, hb⟩ := sides (fun r _ => (hw.dir_range r).1) h hne
  obtain ⟨m1, e1, h1⟩ := greatestCase hcs (·.2.x)
  obtain ⟨m2, e2, h2⟩ := leastCase hcs (·.1.x)
  obtain ⟨m3, e3, h3⟩ := greatestCase hcs (·.2.y)
  obtain ⟨m4, e4, h4⟩ := leastCase hcs (·.1.y)
  refine ⟨m1, m2, m3, m4, by rw [e1, e2, e3, e4], ?_, ?_, ?_, ?_⟩
  · rintro q ⟨hq, hm⟩
    exact h1 q ((hb _ _).1 hq) (fun c hc => hm _ ((hb _ _).2 ⟨c, hc, rfl⟩))
  · rintro q ⟨hq, hm⟩
    exact h2 q ((hb _ _).1 hq) (fun c hc => hm _ ((hb _ _).2 ⟨c, hc, rfl⟩))
  · rintro q ⟨hq, hm⟩
    exact h3 q ((hb _ _).1 hq) (fun c hc => hm _ ((hb _ _).2 ⟨c, hc, rfl⟩))
  · rintro q ⟨hq, hm⟩
    exact h4 q ((hb _ _).1 hq) (fun c hc => hm _ ((hb _ _).2 ⟨c, hc, rfl⟩))

/-- The outermost borders of a blueprint that is not empty exist, so `C39_exact` speaks about four
numbers. -/
theorem C39_outermost {env : Env} {w : World} (hw : Reachable env w) (b : BpId)
    (hne : (w.bp b).objs ≠ []) {x : Extent} (h : maximumValues w b = .ok x) (s : Side) :
    (∃ q, Greatest (BorderAt w b s) q) ∧ ∃ q, Least (BorderAt w b s) q := by
  obtain ⟨cs, hcs, -, hb⟩ := sides (fun r _ => (hw.dir_range r).1) h hne
  have key : ∀ (l : List (Vec × Vec)), l ≠ [] → ∀ f : Vec × Vec → Rat,
      (∃ c ∈ l, ∀ d ∈ l, f d ≤ f c) ∧ ∃ c ∈ l, ∀ d ∈ l, f c ≤ f d := by
    intro l hl f
    induction l with
    | nil => simp at hl
    | cons a l ih =>
      by_cases hl' : l = []
      · subst hl'
        simp
      · obtain ⟨⟨c, hc, hmax⟩, d, hd, hmin⟩ := ih hl'
        constructor
        · by_cases hac : f a ≤ f c
          · exact ⟨c, List.mem_cons_of_mem _ hc, by simpa using ⟨hac, fun x y h => hmax (x, y) h⟩⟩
          · refine ⟨a, List.mem_cons_self .., fun d hd => ?_⟩
            rcases List.mem_cons.1 hd with rfl | hd
            · exact Rat.le_refl
            · have := hmax d hd
              grind
        · by_cases hac : f d ≤ f a
          · exact ⟨d, List.mem_cons_of_mem _ hd, by simpa using ⟨hac, fun x y h => hmin (x, y) h⟩⟩
          · refine ⟨a, List.mem_cons_self .., fun c hc => ?_⟩
            rcases List.mem_cons.1 hc with rfl | hc
            · exact Rat.le_refl
            · have := hmin c hc
              grind
  obtain ⟨⟨c, hc, hmax⟩, d, hd, hmin⟩ :=
    key cs hcs (fun c => s.pick c.1.x.val c.1.y.val c.2.x.val c.2.y.val)
  refine ⟨⟨_, (hb _ _).2 ⟨c, hc, rfl⟩, ?_⟩, ⟨_, (hb _ _).2 ⟨d, hd, rfl⟩, ?_⟩⟩
  · intro q hq
    obtain ⟨c', hc', rfl⟩ := (hb _ _).1 hq
    exact hmax c' hc'
  · intro q hq
    obtain ⟨c', hc', rfl⟩ := (hb _ _).1 hq
    exact hmin c' hc'

/-- The order of the entities does not matter. -/
theorem C39_order {env : Env} {w w' : World} (hw : Reachable env w) (hw' : Reachable env w') (b b' : BpId)
    (henv : w'.env = w.env) (hheap : w'.heap = w.heap) (hp : (w'.bp b').objs.Perm (w.bp b).objs)
    {x x' : Extent} (h : maximumValues w b = .ok x) (h' : maximumValues w' b' = .ok x') : x' = x := by
  by_cases hne : (w.bp b).objs = []
  · have hne' : (w'.bp b').objs = [] := by rw [hne] at hp; exact hp.eq_nil
    rw [C39_empty w b hne] at h
    rw [C39_empty w' b' hne'] at h'
    cases h
    cases h'
    rfl
  · have hne' : (w'.bp b').objs ≠ [] := fun e => hne (by rw [e] at hp; exact hp.symm.eq_nil)
    have hb : ∀ s, BorderAt w' b' s = BorderAt w b s := by
      intro s
      funext q
      unfold BorderAt
      rw [henv, hheap]
      simp only [hp.mem_iff]
    obtain ⟨a1, a2, a3, a4, rfl, h1, h2, h3, h4⟩ := C39_exact hw b hne h
    obtain ⟨b1, b2, b3, b4, rfl, g1, g2, g3, g4⟩ := C39_exact hw' b' hne' h'
    simp only [hb] at g1 g2 g3 g4
    obtain ⟨q1, hq1⟩ := (C39_outermost hw b hne h .right).1
    obtain ⟨q2, hq2⟩ := (C39_outermost hw b hne h .left).2
    obtain ⟨q3, hq3⟩ := (C39_outermost hw b hne h .bottom).1
    obtain ⟨q4, hq4⟩ := (C39_outermost hw b hne h .top).2
    rw [towardZero_unique (g1 _ hq1) (h1 _ hq1), towardZero_unique (g2 _ hq2) (h2 _ hq2),
      towardZero_unique (g3 _ hq3) (h3 _ hq3), towardZero_unique (g4 _ hq4) (h4 _ hq4)]

/-- Full statement: the four numbers are the tightest integer bounds.  Proved when all borders are
integers; missing (and false, see `C39_false`) for fractional borders. -/
theorem C39_bounds_partial {env : Env} {w : World} (hw : Reachable env w) (b : BpId)
    (hne : (w.bp b).objs ≠ []) {x : Extent} (h : maximumValues w b = .ok x) (hi : IntegerBorders w b) :
    ∃ maxx minx maxy miny : Int, x = ⟨some maxx, some minx, some maxy, some miny⟩ ∧
      TightBounds w b minx miny maxx maxy := by
  obtain ⟨a1, a2, a3, a4, rfl, h1, h2, h3, h4⟩ := C39_exact hw b hne h
  refine ⟨a1, a2, a3, a4, rfl, ?_⟩
  obtain ⟨q1, hq1⟩ := (C39_outermost hw b hne h .right).1
  obtain ⟨q2, hq2⟩ := (C39_outermost hw b hne h .left).2
  obtain ⟨q3, hq3⟩ := (C39_outermost hw b hne h .bottom).1
  obtain ⟨q4, hq4⟩ := (C39_outermost hw b hne h .top).2
  have t1 := h1 _ hq1
  have t2 := h2 _ hq2
  have t3 := h3 _ hq3
  have t4 := h4 _ hq4
  obtain ⟨z1, rfl⟩ := hi _ _ hq1.1
  obtain ⟨z2, rfl⟩ := hi _ _ hq2.1
  obtain ⟨z3, rfl⟩ := hi _ _ hq3.1
  obtain ⟨z4, rfl⟩ := hi _ _ hq4.1
  rw [towardZero_int t1, towardZero_int t2, towardZero_int t3, towardZero_int t4]
  refine ⟨hq2.2, hq4.2, hq1.2, hq3.2, ?_, ?_, ?_, ?_⟩
  · intro z hz; exact_mod_cast hz _ hq2.1
  · intro z hz; exact_mod_cast hz _ hq4.1
  · intro z hz; exact_mod_cast hz _ hq1.1
  · intro z hz; exact_mod_cast hz _ hq3.1

/-- The bounds are wrong for every blueprint that reaches to the right of zero with a fraction. -/
theorem C39_wrong {env : Env} {w : World} (hw : Reachable env w) (b : BpId) (hne : (w.bp b).objs ≠ [])
    {x : Extent} (h : maximumValues w b = .ok x) {q : Rat} (hq : Greatest (BorderAt w b .right) q)
    (h0 : 0 < q) (hi : ∀ z : Int, q ≠ (z : Rat)) : ∃ m : Int, x.maxx = some m ∧ (m : Rat) < q := by
  obtain ⟨a1, a2, a3, a4, rfl, h1, -⟩ := C39_exact hw b hne h
  refine ⟨a1, rfl, ?_⟩
  have := h1 q hq
  have := hi a1
  unfold TowardZero at *
  grind

/-- One belt at the origin. -/
def Sample.belt : World := ((Op.make 0 (Sample.ent "belt" 0 0)).run (World.init Sample.env)).2

theorem Sample.belt_reachable : Reachable Sample.env Sample.belt :=
  .step (.make 0 (Sample.ent "belt" 0 0)) .init trivial

theorem Sample.belt_box : HasBox Sample.env "belt" (.flt (-1/2)) (.flt (-1/2)) (.flt (1/2)) (.flt (1/2)) := by
  refine ⟨_, _, _, _, rfl, rfl, rfl, rfl, rfl, rfl, rfl, rfl⟩

/-- The property is false of the code: a belt at the origin covers the points up to `1/2`, the reported
extent is the single point zero. -/
theorem C39_false : ¬ ∀ (w : World) (b : BpId) (maxx minx maxy miny : Int), Reachable Sample.env w →
    (w.bp b).objs ≠ [] → maximumValues w b = .ok ⟨some maxx, some minx, some maxy, some miny⟩ →
    TightBounds w b minx miny maxx maxy := by
  intro h
  have hv : maximumValues Sample.belt 0 = .ok ⟨some 0, some 0, some 0, some 0⟩ := by decide +kernel
  have := (h Sample.belt 0 0 0 0 0 Sample.belt_reachable (by decide +kernel) hv).2.2.1 (1/2)
    ⟨0, by decide +kernel, -1/2, -1/2, 1/2, 1/2, ?_, rfl⟩
  · exact absurd this (by decide +kernel)
  · have hn : (Sample.belt.heap 0).name = "belt" := by decide +kernel
    have he : Sample.belt.env = Sample.env := rfl
    have hp : (Sample.belt.heap 0).pos = ⟨.int 0, .int 0⟩ := by decide +kernel
    have hd : (Sample.belt.heap 0).dir.n = 0 := by decide +kernel
    unfold Borders
    rw [hn, he, hp]
    refine ⟨_, _, _, _, Sample.belt_box, .inl ⟨?_, ?_⟩⟩
    · unfold Transposed
      rw [hd]
      decide
    · decide +kernel

/-- The centre is half way between the bounds. -/
theorem C39_center {w : World} {b : BpId} {maxx minx maxy miny : Int}
    (h : maximumValues w b = .ok ⟨some maxx, some minx, some maxy, some miny⟩) :
    ∃ c : Vec, center w b = .ok (some c) ∧ 2 * c.x.val = maxx + minx ∧ 2 * c.y.val = maxy + miny := by
  refine ⟨⟨.flt ((maxx + minx : Int) / 2), .flt ((maxy + miny : Int) / 2)⟩, ?_, ?_, ?_⟩
  · unfold center
    rw [h]
    rfl
  · simp only [Num.val_flt, Rat.intCast_add]; grind
  · simp only [Num.val_flt, Rat.intCast_add]; grind

/-- The corners are combinations of the bounds. -/
theorem C39_corners {w : World} {b : BpId} {maxx minx maxy miny : Int}
    (h : maximumValues w b = .ok ⟨some maxx, some minx, some maxy, some miny⟩) :
    corner w b Extent.minx Extent.miny = .ok (some ⟨.int minx, .int miny⟩) ∧
    corner w b Extent.maxx Extent.miny = .ok (some ⟨.int maxx, .int miny⟩) ∧
    corner w b Extent.minx Extent.maxy = .ok (some ⟨.int minx, .int maxy⟩) ∧
    corner w b Extent.maxx Extent.maxy = .ok (some ⟨.int maxx, .int maxy⟩) := by
  unfold corner
  rw [h]
  exact ⟨rfl, rfl, rfl, rfl⟩

/-- Two belts, turned so that their centres lie on half coordinates: integer borders. -/
def Sample.half : World :=
  ((Op.make 0 [("name", .str "belt"), ("position", .dict [("x", .flt (1/2)), ("y", .flt (5/2))])]).run
    (World.init Sample.env)).2

theorem Sample.half_reachable : Reachable Sample.env Sample.half :=
  .step (.make 0 [("name", .str "belt"), ("position", .dict [("x", .flt (1/2)), ("y", .flt (5/2))])])
    .init trivial

example : maximumValues Sample.half 0 = .ok ⟨some 1, some 0, some 3, some 2⟩ ∧
    (Sample.half.bp 0).objs ≠ [] ∧ IntegerBorders Sample.half 0 := by
  refine ⟨by decide +kernel, by decide +kernel, ?_⟩
  have ho : (Sample.half.bp 0).objs = [0] := by decide +kernel
  have hn : (Sample.half.heap 0).name = "belt" := by decide +kernel
  have he : Sample.half.env = Sample.env := rfl
  have hp : (Sample.half.heap 0).pos = ⟨.flt (1/2), .flt (5/2)⟩ := by decide +kernel
  rintro s q ⟨r, hr, x0, y0, x1, y1, ⟨a, b, c, d, hb, h⟩, rfl⟩
  rw [ho, List.mem_singleton] at hr
  subst hr
  rw [hn, he] at hb
  obtain ⟨rfl, rfl, rfl, rfl⟩ := Entity.HasBox.unique Sample.belt_box hb
  rw [hp] at h
  simp only [Num.val_flt] at h
  rcases h with ⟨-, rfl, rfl, rfl, rfl⟩ | ⟨-, rfl, rfl, rfl, rfl⟩
  all_goals
    cases s
    · exact ⟨0, by decide +kernel⟩
    · exact ⟨2, by decide +kernel⟩
    · exact ⟨1, by decide +kernel⟩
    · exact ⟨3, by decide +kernel⟩

/-- The hypotheses of `C39_total`, `C39_exact` and `C39_order` hold for three belts in any order. -/
example : (∀ r ∈ (Sample.belts.bp 0).objs, ∃ x0 y0 x1 y1,
      HasBox Sample.belts.env (Sample.belts.heap r).name x0 y0 x1 y1) ∧
    maximumValues Sample.belts 0 = .ok ⟨some 7, some 0, some 5, some 0⟩ := by
  refine ⟨?_, by decide +kernel⟩
  have hn : ∀ r ∈ (Sample.belts.bp 0).objs, (Sample.belts.heap r).name = "belt" := by decide +kernel
  have he : Sample.belts.env = Sample.env := rfl
  intro r hr
  rw [hn r hr, he]
  exact ⟨_, _, _, _, Sample.belt_box⟩

/-! ## C40 -/

private def shiftStep (c : Operand) (e : Entity) : Except Exc Unit × Entity :=
  match e.pos.sub c with
  | .error x => (.error x, e)
  | .ok p => (.ok (), { e with pos := p })

private theorem shiftEnt_eq (c : Operand) : shiftEnt c = perEnt (shiftStep c) := by
  funext r w
  unfold shiftEnt perEnt shiftStep
  split
  · rename_i e he
    rw [he]
    dsimp only
    congr 1
    refine World.ext rfl ?_ rfl rfl
    funext s
    rw [setEnt_heap]
    split
    · rename_i h; rw [h]
    · rfl
  · rename_i p hp
    rw [hp]

private theorem shift_ok {w : World} {b : BpId} (hn : (w.bp b).objs.Nodup) {c : Operand} {d : Vec}
    (hc : ∀ p : Vec, ∃ q, p.sub c = .ok q ∧ q.x.val = p.x.val - d.x.val ∧ q.y.val = p.y.val - d.y.val) :
    ∃ w', M.forEach (shiftEnt c) (w.bp b).objs w = (.ok (), w') ∧ ShiftedBy w w' b d.x.val d.y.val := by
  rw [shiftEnt_eq]
  refine ⟨_, (forEach_perEnt_ok hn).2 ⟨?_, rfl⟩, rfl, rfl, rfl, ?_, ?_⟩
  · intro r hr
    obtain ⟨q, hq, -⟩ := hc (w.heap r).pos
    unfold shiftStep
    rw [hq]
  · intro r hr
    exact if_neg hr
  · intro r hr
    obtain ⟨q, hq, h⟩ := hc (w.heap r).pos
    refine ⟨q, ?_, h⟩
    show (if r ∈ (w.bp b).objs then (shiftStep c (w.heap r)).2 else w.heap r) = _
    rw [if_pos hr]
    unfold shiftStep
    rw [hq]

/-- Full statement: `recenter(p)` moves every entity by `-p` and returns.  Proved: at the origin it
returns and changes nothing; elsewhere it moves every entity by `-p` (and nothing else).  Missing: in the
second case the call then raises `AttributeError` instead of returning. -/
theorem C40_around_partial {env : Env} {w : World} (hw : Reachable env w) (b : BpId) (p : Vec) :
    (SamePos p ⟨.int 0, .int 0⟩ → (recenter b (some (.vec p)) : M Unit) w = (.ok (), w)) ∧
    (¬ SamePos p ⟨.int 0, .int 0⟩ → ∃ w', (recenter b (some (.vec p)) : M Unit) w = (.error .attributeError, w') ∧
      ShiftedBy w w' b p.x.val p.y.val) := by
  have hz : isOrigin (.vec p) = .ok (decide (SamePos p ⟨.int 0, .int 0⟩)) := by
    unfold isOrigin Vec.eqOp
    dsimp only
    congr 1
    rw [Bool.eq_iff_iff]
    rw [decide_eq_true_iff]
    simp only [Bool.and_eq_true, Num.eq_iff]
    unfold SamePos
    exact ⟨fun h => ⟨h.1.symm, h.2.symm⟩, fun h => ⟨h.1.symm, h.2.symm⟩⟩
  constructor
  · intro h
    rw [decide_eq_true h] at hz
    simp [recenter, recenterPoint, M.bind_eq, M.get, M.lift, hz, pure, M.pure]
  · intro h
    rw [decide_eq_false h] at hz
    obtain ⟨w', h1, h2⟩ := shift_ok (hw.owned.nodup b) (c := .vec p) (d := p)
      (fun q => ⟨_, rfl, by simp, by simp⟩)
    refine ⟨w', ?_, h2⟩
    simp [recenter, recenterPoint, M.bind_eq, M.get, M.lift, hz, M.throw, h1]

/-- The same for the default centre: the bounds' centre, rounded up. -/
theorem C40_default_partial {env : Env} {w : World} (hw : Reachable env w) (b : BpId)
    {maxx minx maxy miny : Int}
    (hv : maximumValues w b = .ok ⟨some maxx, some minx, some maxy, some miny⟩) {cx cy : Int}
    (hx : RoundedUp (((maxx : Rat) + minx) / 2) cx) (hy : RoundedUp (((maxy : Rat) + miny) / 2) cy) :
    (cx = 0 ∧ cy = 0 → (recenter b none : M Unit) w = (.ok (), w)) ∧
    (¬ (cx = 0 ∧ cy = 0) → ∃ w', (recenter b none : M Unit) w = (.error .attributeError, w') ∧
      ShiftedBy w w' b cx cy) := by
  have hc : ∀ (q : Rat) (z : Int), RoundedUp q z → q.ceil = z := by
    intro q z h
    have h1 : q.ceil ≤ z := Rat.ceil_le_iff.2 h.2
    have h2 : ¬ q.ceil ≤ z - 1 := by
      intro h'
      have := Rat.ceil_le_iff.1 h'
      rw [Rat.intCast_sub] at this
      have := h.1
      simp only [Rat.intCast_one] at *
      grind
    omega
  have hp : recenterPoint w b none = recenterPoint w b (some (.vec ⟨.int cx, .int cy⟩)) := by
    unfold recenterPoint center
    rw [hv]
    show Except.ok (Operand.vec (Vec.ceil ⟨.flt _, .flt _⟩)) = _
    simp only [Vec.ceil, Num.ceil, Rat.intCast_add, hc _ _ hx, hc _ _ hy]
  have he : (recenter b none : M Unit) w = (recenter b (some (.vec ⟨.int cx, .int cy⟩)) : M Unit) w := by
    unfold recenter
    rw [M.bind_get, M.bind_get, hp]
  have hs : SamePos ⟨.int cx, .int cy⟩ ⟨.int 0, .int 0⟩ ↔ cx = 0 ∧ cy = 0 := by
    unfold SamePos
    simp only [Num.val_int]
    constructor
    · rintro ⟨h1, h2⟩
      exact ⟨by exact_mod_cast h1, by exact_mod_cast h2⟩
    · rintro ⟨rfl, rfl⟩
      exact ⟨rfl, rfl⟩
  have h := C40_around_partial hw b ⟨.int cx, .int cy⟩
  rw [he]
  rw [hs] at h
  exact h

/-- An empty blueprint has no centre: `recenter` raises `ValueError` and changes nothing. -/
theorem C40_empty (w : World) (b : BpId) (h : (w.bp b).objs = []) :
    (recenter b none : M Unit) w = (.error .valueError, w) := by
  have : recenterPoint w b none = .error .valueError := by
    unfold recenterPoint center
    rw [C39_empty w b h]
    rfl
  unfold recenter
  rw [M.bind_get, this]
  rfl

/-- Whatever the argument, `recenter` returns normally only if it changes nothing. -/
theorem C40_returns (w w' : World) (b : BpId) (around : Option Operand)
    (h : (recenter b around : M Unit) w = (.ok (), w')) : w' = w := by
  unfold recenter at h
  rw [M.bind_get, M.bind_eq_ok] at h
  obtain ⟨c, w1, h1, h⟩ := h
  rw [M.bind_eq_ok] at h
  obtain ⟨z, w2, h2, h⟩ := h
  simp only [M.lift, Prod.mk.injEq] at h1 h2
  obtain ⟨-, rfl⟩ := h1
  obtain ⟨-, rfl⟩ := h2
  cases z with
  | true =>
    cases h
    rfl
  | false =>
    simp only [Bool.false_eq_true, if_false] at h
    rw [M.bind_eq_ok] at h
    obtain ⟨_, _, _, h⟩ := h
    cases h

/-- The property is false of the code: recentering a blueprint whose centre is not the origin raises. -/
theorem C40_false : ∃ (w : World) (b : BpId), Reachable Sample.env w ∧
    ((recenter b none : M Unit) w).1 = .error .attributeError :=
  ⟨Sample.belts, 0, Sample.belts_reachable, by decide +kernel⟩

/-- `weighted_center` never returns a mean: a layer has no length. -/
theorem C40_weighted_false (w : World) (b : BpId) : weightedCenter w b = .error .typeError := rfl

example : RoundedUp (((7 : Int) + (0 : Int) : Rat) / 2) 4 ∧ RoundedUp (((5 : Int) + (0 : Int) : Rat) / 2) 3 ∧
    ¬ ((4 : Int) = 0 ∧ (3 : Int) = 0) := by
  unfold RoundedUp
  decide +kernel

example : (((Sample.belts).bp 0).objs.map (fun r =>
      (((recenter 0 none : M Unit) Sample.belts).2.heap r).pos)) =
    [⟨.int (-4), .int (-3)⟩, ⟨.int 3, .int (-3)⟩, ⟨.int 1, .int 2⟩] := by
  decide +kernel

example : (recenter 0 none : M Unit) Sample.belt = (.ok (), Sample.belt) :=
  (C40_default_partial Sample.belt_reachable 0 (maxx := 0) (minx := 0) (maxy := 0) (miny := 0)
    (by decide +kernel) (cx := 0) (cy := 0) (by unfold RoundedUp; decide +kernel)
    (by unfold RoundedUp; decide +kernel)).1 ⟨rfl, rfl⟩

/-- The hypotheses of `C39_entity`. -/
example : ∃ e : Entity, 0 ≤ e.dir.n ∧ ∃ x0 y0 x1 y1, HasBox Sample.env e.name x0 y0 x1 y1 :=
  ⟨Sample.belt.heap 0, by decide +kernel, _, _, _, _, Sample.belt_box⟩

end Verif
