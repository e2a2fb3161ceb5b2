import Verif.Proofs.Floats
import Verif.Proofs.FloatExtent
import Verif.Proofs.Doubles
import Verif.Props.Rotation
import Verif.Props.Layers
import Verif.Props.Sample
/-!
# C71: exact numbers and floats
-/
set_option autoImplicit false

namespace Verif
open Spec

private theorem layerRotate_perm {b : BpId} {n : Int} {a : Option Operand} {d : Option DirArg} {w : World}
    (hn : (w.bp b).objs.Nodup) : ((layerRotate b n a d w).2.bp b).objs.Perm (w.bp b).objs := by
  rcases hp : layerRotate b n a d w with ⟨x | _, w'⟩
  · obtain ⟨_, _, _, _, _, _, rfl⟩ := (layerRotate_error hn).1 hp
    exact .refl _
  · obtain ⟨_, rfl⟩ := (layerRotate_iff hn).1 hp
    exact sort_objs_perm _ b

/-- Rounding to the nearest number of 53 bits leaves numbers of 53 bits as they are, so the theorems below are about
binary64. -/
theorem C71_double : ExactRounding nearestDouble := fun _ h => nearestDouble_few h

/-- It gives the float that IEEE 754 asks for, wherever that is finite. -/
theorem C71_nearest (q : Rat) (h : ¬ TooLarge q) : Rounded q (nearestDouble q) := by
  rw [tooLarge_iff, not_le] at h
  exact nearestDouble_rounded h

/-- Sums and differences of points on a common binary grid are exact. -/
theorem C71_vector {rnd : Rat → Rat} (hr : ExactRounding rnd) {k B C : Nat} (hk : k ≤ 1074) {v : Vec} {o : Operand}
    (hx : OnGrid k B v.x.val) (hy : OnGrid k B v.y.val) (ho : GridOperand k C o) (h : B + C ≤ 2 ^ 53) :
    v.addR rnd o = v.add o ∧ v.subR rnd o = v.sub o ∧ v.rsubR rnd o = v.rsub o :=
  ⟨vecAddR_eq hr hk hx hy ho h, vecSubR_eq hr hk hx hy ho h, vecRsubR_eq hr hk hx hy ho (by omega)⟩

/-- So is the lookup of an entity at a point of the grid. -/
theorem C71_collides {rnd : Rat → Rat} (hr : ExactRounding rnd) {k B C : Nat} (hk : k ≤ 1074) {e : Entity}
    (he : Fine k B e) {o : Operand} (ho : GridOperand k C o) (h : B + C ≤ 2 ^ 53) (env : Env) :
    e.collidesR rnd env o = e.collides env o := by
  unfold Entity.collidesR Entity.collides
  rw [vecRsubR_eq hr hk he.x he.y ho (by omega)]

/-- Rotating a blueprint whose entities are on a grid about a point of the grid does the same with floats as with exact
numbers; the entities stay on the grid. -/
theorem C71_rotate {rnd : Rat → Rat} (hr : ExactRounding rnd) {k B C : Nat} (hk : 2 ≤ k) (hk' : k ≤ 52) {env : Env}
    {w : World} (hw : Reachable env w) {b : BpId} (hf : ∀ r ∈ (w.bp b).objs, Fine k B (w.heap r)) {a : Option Operand}
    (ha : ∀ o, a = some o → GridOperand k C o) (h : B + 2 * C ≤ 2 ^ 53) (n : Int) (d : Option DirArg) :
    layerRotateR rnd b n a d w = bpRotate b n a d w ∧
    ∀ r ∈ (w.bp b).objs, Fine k (B + 2 * C) ((bpRotate b n a d w).2.heap r) := by
  rw [bpRotate_noTiles (hw.noTiles b)]
  exact layerRotate_grid hr hk hk' ha h (hw.owned.nodup b) hf n d

/-- Moving a blueprint by a point of the grid. -/
theorem C71_recenter {rnd : Rat → Rat} (hr : ExactRounding rnd) {k B C : Nat} (hk : k ≤ 1074) {env : Env}
    {w : World} (hw : Reachable env w) {b : BpId} (hf : ∀ r ∈ (w.bp b).objs, Fine k B (w.heap r)) {o : Operand}
    (ho : GridOperand k C o) (h : B + C ≤ 2 ^ 53) : recenterR rnd b (some o) w = recenter b (some o) w := by
  have hs := shiftAll_grid hr hk ho h _ (hw.owned.nodup b) hf
  unfold recenterR recenter recenterPointR recenterPoint
  rw [M.bind_get, M.bind_get, M.bind_eq, M.lift_eq, M.bind_eq, M.lift_eq]
  dsimp only
  rw [M.bind_eq, M.lift_eq, M.bind_eq, M.lift_eq]
  rcases isOrigin o with x | z
  · rfl
  · cases z
    · dsimp only
      simp only [Bool.false_eq_true, if_false]
      rw [M.bind_eq, M.bind_eq, hs]
    · rfl

/-- Rounding to 53 bits keeps the order of numbers. -/
theorem C71_double_order : MonotoneRounding nearestDouble := fun _ _ h => nearestDouble_mono h

/-- The extent of a blueprint, its centre and its corners are the same with floats: the borders of the boxes need not be
on the grid, as long as they are not too close to it. -/
theorem C71_extent {rnd : Rat → Rat} (hr : ExactRounding rnd) (hm : MonotoneRounding rnd) {k j N : Nat} (hkj : k < j)
    (hj : j ≤ 1074) (hN : 2 * N * 2 ^ j ≤ 2 ^ 53) {w : World} {b : BpId}
    (hf : ∀ r ∈ (w.bp b).objs, Fine k (N * 2 ^ k) (w.heap r)) (hb : ∀ r ∈ (w.bp b).objs, ClearBox k j N w.env (w.heap r)) :
    maximumValuesR rnd w b = maximumValues w b ∧ centerR rnd w b = center w b ∧
    ∀ x y, cornerR rnd w b x y = corner w b x y := by
  have e : maximumValuesR rnd w b = maximumValues w b :=
    extentAuxR_eq hr hm hkj hj hN _ _ (fun e he => by
      obtain ⟨r, hr, rfl⟩ := List.mem_map.1 he
      exact ⟨(hf r hr).x, (hf r hr).y, hb r hr⟩)
  refine ⟨e, ?_, fun x y => ?_⟩
  rotate_left
  · unfold cornerR corner
    rw [e]
    rcases maximumValues w b with _ | v
    · rfl
    · dsimp only [bind, Except.bind]
      rcases x v with _ | _ <;> rcases y v with _ | _ <;> rfl
  unfold centerR center
  rw [e]
  rcases hv : maximumValues w b with x | v
  · rfl
  · have hbd := extent_bounds hf hb hv
    obtain ⟨v1, v2, v3, v4⟩ := v
    cases v1 with
    | none => rfl
    | some a => cases v2 with
      | none => rfl
      | some i => cases v3 with
        | none => rfl
        | some c => cases v4 with
          | none => rfl
          | some d =>
            obtain ⟨h1, h2, h3, h4⟩ := hbd
            have b1 := h1 a rfl
            have b2 := h2 i rfl
            have b3 := h3 c rfl
            have b4 := h4 d rfl
            have h2N := two_tiles hkj hN
            have e1 := hr _ (half_few (z := a + i) (by omega))
            have e2 := hr _ (half_few (z := c + d) (by omega))
            show Except.ok (some (Vec.mk (.flt (rnd _)) (.flt (rnd _)))) = _
            rw [e1, e2]
            rfl

/-- Recentering about the centre of the blueprint. -/
theorem C71_recenter_default {rnd : Rat → Rat} (hr : ExactRounding rnd) (hm : MonotoneRounding rnd) {k j N : Nat}
    (hkj : k < j) (hj : j ≤ 1074) (hN : 2 * N * 2 ^ j ≤ 2 ^ 53) {env : Env} {w : World} (hw : Reachable env w) {b : BpId}
    (hf : ∀ r ∈ (w.bp b).objs, Fine k (N * 2 ^ k) (w.heap r)) (hb : ∀ r ∈ (w.bp b).objs, ClearBox k j N w.env (w.heap r)) :
    recenterR rnd b none w = recenter b none w := by
  have hc := (C71_extent hr hm hkj hj hN hf hb).2.1
  rcases hcen : center w b with x | o
  · unfold recenterR recenter recenterPointR recenterPoint
    rw [M.bind_get, M.bind_get]
    dsimp only
    rw [hc, hcen]
    rfl
  · cases o with
    | none =>
      unfold recenterR recenter recenterPointR recenterPoint
      rw [M.bind_get, M.bind_get]
      dsimp only
      rw [hc, hcen]
      rfl
    | some c =>
      have h1 : recenterR rnd b none w = recenterR rnd b (some (.vec c.ceil)) w := by
        unfold recenterR recenterPointR
        rw [M.bind_get, M.bind_get]
        dsimp only
        rw [hc, hcen]
        rfl
      have h2 : recenter b none w = recenter b (some (.vec c.ceil)) w := by
        unfold recenter recenterPoint
        rw [M.bind_get, M.bind_get]
        dsimp only
        rw [hcen]
        rfl
      rw [h1, h2]
      refine C71_recenter hr (by omega) hw hf (C := 2 * N * 2 ^ k) (center_grid hf hb hcen) ?_
      exact three_tiles hkj hN

/-- A list of rotations one after the other, with floats. -/
def rotationsR (rnd : Rat → Rat) (b : BpId) : List (Int × Option Operand × Option DirArg) → World → World
  | [], w => w
  | (n, a, d) :: l, w => rotationsR rnd b l (layerRotateR rnd b n a d w).2

/-- A list of rotations one after the other. -/
def rotations (b : BpId) : List (Int × Option Operand × Option DirArg) → World → World
  | [], w => w
  | (n, a, d) :: l, w => rotations b l (bpRotate b n a d w).2

/-- Any number of rotations, as long as the entities cannot leave the range of exact floats. -/
theorem C71_history {rnd : Rat → Rat} (hr : ExactRounding rnd) {k C : Nat} (hk : 2 ≤ k) (hk' : k ≤ 52) {env : Env}
    {b : BpId} : ∀ (l : List (Int × Option Operand × Option DirArg)) {B : Nat} {w : World}, Reachable env w →
      (∀ r ∈ (w.bp b).objs, Fine k B (w.heap r)) → (∀ t ∈ l, ∀ o, t.2.1 = some o → GridOperand k C o) →
      B + 2 * C * l.length ≤ 2 ^ 53 → rotationsR rnd b l w = rotations b l w
  | [], _, _, _, _, _, _ => rfl
  | (n, a, d) :: l, B, w, hw, hf, ha, h => by
    have hlen : B + 2 * C + 2 * C * l.length ≤ 2 ^ 53 := by
      rw [List.length_cons, Nat.mul_add] at h
      omega
    obtain ⟨h1, h2⟩ := C71_rotate hr hk hk' hw hf (ha _ List.mem_cons_self) (by omega) n d
    have hw' : Reachable env (bpRotate b n a d w).2 := Reachable.step (.rotate b n a d) hw trivial
    have hp : ((bpRotate b n a d w).2.bp b).objs.Perm (w.bp b).objs := by
      rw [bpRotate_noTiles (hw.noTiles b)]
      exact layerRotate_perm (hw.owned.nodup b)
    show rotationsR rnd b l (layerRotateR rnd b n a d w).2 = rotations b l (bpRotate b n a d w).2
    rw [h1]
    exact C71_history hr hk hk' l hw' (fun r hr => h2 r (hp.mem_iff.1 hr))
      (fun t ht => ha t (List.mem_cons_of_mem _ ht)) hlen

/-- Four quarter turns with floats restore a blueprint on the grid. -/
theorem C71_full_turn {rnd : Rat → Rat} (hr : ExactRounding rnd) {k B : Nat} (hk : 2 ≤ k) (hk' : k ≤ 52) {env : Env}
    {w w1 w2 w3 w4 : World} (hw : Reachable env w) {b : BpId} (ho : InOrder w b (w.bp b).objs)
    (hf : ∀ r ∈ (w.bp b).objs, Fine k B (w.heap r)) (hB : B ≤ 2 ^ 53)
    (h1 : layerRotateR rnd b 1 none none w = (.ok (), w1)) (h2 : layerRotateR rnd b 1 none none w1 = (.ok (), w2))
    (h3 : layerRotateR rnd b 1 none none w2 = (.ok (), w3)) (h4 : layerRotateR rnd b 1 none none w3 = (.ok (), w4)) :
    w4 = w := by
  have key : ∀ {v v' : World}, Reachable env v → (∀ r ∈ (v.bp b).objs, Fine k B (v.heap r)) →
      layerRotateR rnd b 1 none none v = (.ok (), v') → bpRotate b 1 none none v = (.ok (), v') ∧ Reachable env v' ∧
        ∀ r ∈ (v'.bp b).objs, Fine k B (v'.heap r) := by
    intro v v' hv hf hv'
    obtain ⟨e1, e2⟩ := C71_rotate (C := 0) hr hk hk' hv hf (a := none) (fun _ h => by cases h) (by omega) 1 none
    rw [hv'] at e1
    have hs : Reachable env (bpRotate b 1 none none v).2 := Reachable.step (.rotate b 1 none none) hv trivial
    have hp : ((bpRotate b 1 none none v).2.bp b).objs.Perm (v.bp b).objs := by
      rw [bpRotate_noTiles (hv.noTiles b)]
      exact layerRotate_perm (hv.owned.nodup b)
    rw [← e1] at hs hp e2
    exact ⟨e1.symm, hs, fun r hr => e2 r (hp.mem_iff.1 hr)⟩
  obtain ⟨g1, r1, f1⟩ := key hw hf h1
  obtain ⟨g2, r2, f2⟩ := key r1 f1 h2
  obtain ⟨g3, r3, f3⟩ := key r2 f2 h3
  obtain ⟨g4, _, _⟩ := key r3 f3 h4
  exact C19_four_times hw ho g1 g2 g3 g4

/-! ## Examples -/

/-- Belts at whole and half coordinates. -/
example : ∀ r ∈ (Sample.belts.bp 0).objs, Fine 2 28 (Sample.belts.heap r) := by
  have hn : ∀ r ∈ (Sample.belts.bp 0).objs, List.lookup "orientation" (Sample.belts.heap r).attrs = none := by
    decide +kernel
  have hx : ∀ r ∈ (Sample.belts.bp 0).objs, (Sample.belts.heap r).pos.x.val.den = 1 ∧
      (Sample.belts.heap r).pos.x.val.num.natAbs ≤ 7 ∧ (Sample.belts.heap r).pos.y.val.den = 1 ∧
      (Sample.belts.heap r).pos.y.val.num.natAbs ≤ 7 := by
    decide +kernel
  have key : ∀ q : Rat, q.den = 1 → q.num.natAbs ≤ 7 → OnGrid 2 28 q := by
    intro q h1 h2
    refine ⟨4 * q.num, ?_, by omega⟩
    have : q = (q.num : Rat) := by rw [← Rat.num_div_den q, h1]; simp
    rw [this]
    push_cast
    grind
  intro r hr
  obtain ⟨h1, h2, h3, h4⟩ := hx r hr
  exact ⟨key _ h1 h2, key _ h3 h4, fun v n hv => by rw [hn r hr] at hv; cases hv⟩

/-- A train facing a tenth of a turn, which no float is. -/
def Sample.tenth : World :=
  ((Op.make 0 [("name", .str "loco"), ("position", Sample.pos 1 5), ("orientation", .flt (nearestDouble (1/10)))]).run
    (World.init Sample.env)).2

theorem Sample.tenth_reachable : Reachable Sample.env Sample.tenth := .step (.make 0 _) .init trivial

/-- It after some quarter turns with floats. -/
def Sample.turned : Nat → World
  | 0 => Sample.tenth
  | n + 1 => (layerRotateR nearestDouble 0 1 none none (Sample.turned n)).2

/-- Off the grid the claim is false: with floats, four quarter turns of a train facing `0.1` leave it facing
`0.10000000000000009`. -/
theorem C71_false : ¬ ∀ (w w1 w2 w3 w4 : World), Reachable Sample.env w → InOrder w 0 (w.bp 0).objs →
    layerRotateR nearestDouble 0 1 none none w = (.ok (), w1) →
    layerRotateR nearestDouble 0 1 none none w1 = (.ok (), w2) →
    layerRotateR nearestDouble 0 1 none none w2 = (.ok (), w3) →
    layerRotateR nearestDouble 0 1 none none w3 = (.ok (), w4) → w4 = w := by
  intro H
  have ho : InOrder Sample.tenth 0 (Sample.tenth.bp 0).objs := by
    have e : (Sample.tenth.bp 0).objs = [0] := by decide +kernel
    refine ⟨.refl _, ?_, fun _ => rfl, by decide +kernel⟩
    rw [e]
    exact List.pairwise_singleton _ _
  have hok : ∀ n, n < 4 → (layerRotateR nearestDouble 0 1 none none (Sample.turned n)).1 = .ok () := by decide +kernel
  have hne : ((Sample.turned 4).heap 0).attrs ≠ (Sample.tenth.heap 0).attrs := by decide +kernel
  have key : ∀ n, n < 4 → layerRotateR nearestDouble 0 1 none none (Sample.turned n) = (.ok (), Sample.turned (n + 1)) :=
    fun n hn => Sample.run_eq (hok n hn)
  have := H (Sample.turned 0) (Sample.turned 1) (Sample.turned 2) (Sample.turned 3) (Sample.turned 4)
    Sample.tenth_reachable ho (key 0 (by omega)) (key 1 (by omega)) (key 2 (by omega)) (key 3 (by omega))
  rw [this] at hne
  exact hne rfl

/-! ## Examples for the extent -/

/-- A prototype with borders of (the float) `0.35`, and one with borders just below `1/2`. -/
def Sample.floatEnv : Env :=
  { Sample.env with
    entities := [("pipe", Sample.proto "pipe" (Sample.box (-nearestDouble (7/20)) (-nearestDouble (7/20))
        (nearestDouble (7/20)) (nearestDouble (7/20)))),
      ("wall", Sample.proto "wall" (Sample.box (-1/2 + 1/2^54) (-1/2 + 1/2^54) (1/2 - 1/2^54) (1/2 - 1/2^54)))] }

/-- One entity of that name at `(9/2, -3/2)`. -/
def Sample.floatWorld (name : String) : World :=
  ((Op.make 0 [("name", .str name), ("position", .dict [("x", .flt (9/2)), ("y", .flt (-3/2))])]).run
    (World.init Sample.floatEnv)).2

theorem Sample.floatWorld_reachable (name : String) : Reachable Sample.floatEnv (Sample.floatWorld name) :=
  .step (.make 0 _) .init trivial

theorem Sample.floatWorld_fine {name : String}
    (h : ((Sample.floatWorld name).bp 0).objs = [0] ∧ ((Sample.floatWorld name).heap 0).pos = ⟨.flt (9/2), .flt (-3/2)⟩ ∧
      List.lookup "orientation" ((Sample.floatWorld name).heap 0).attrs = none) :
    ∀ r ∈ ((Sample.floatWorld name).bp 0).objs, Fine 1 (100 * 2 ^ 1) ((Sample.floatWorld name).heap r) := by
  obtain ⟨h1, h2, h3⟩ := h
  intro r hr
  rw [h1, List.mem_singleton] at hr
  subst hr
  refine ⟨?_, ?_, fun v n hv => by rw [h3] at hv; cases hv⟩
  · rw [h2]
    exact ⟨9, by decide +kernel, by decide⟩
  · rw [h2]
    exact ⟨-3, by decide +kernel, by decide⟩

theorem Sample.clear_035 : ClearBorder 1 4 100 (nearestDouble (7/20)) ∧ ClearBorder 1 4 100 (-nearestDouble (7/20)) := by
  constructor
  · refine .inr ⟨5/16, 6/16, ⟨5, by decide +kernel, by decide⟩, ⟨6, by decide +kernel, by decide⟩,
      by decide +kernel, by decide +kernel, ?_⟩
    rintro m ⟨h1, h2⟩
    norm_num at h1 h2
    have h3 : (0 : Rat) < m := by linarith
    have h4 : (m : Rat) < 1 := by linarith
    have h3' : 0 < m := by exact_mod_cast h3
    have h4' : m < 1 := by exact_mod_cast h4
    omega
  · refine .inr ⟨-6/16, -5/16, ⟨-6, by decide +kernel, by decide⟩, ⟨-5, by decide +kernel, by decide⟩,
      by decide +kernel, by decide +kernel, ?_⟩
    rintro m ⟨h1, h2⟩
    norm_num at h1 h2
    have h3 : (-1 : Rat) < m := by linarith
    have h4 : (m : Rat) < 0 := by linarith
    have h3' : -1 < m := by exact_mod_cast h3
    have h4' : m < 0 := by exact_mod_cast h4
    omega

/-- The extent of a pipe, whose box no float represents exactly, is not disturbed by rounding. -/
example : maximumValuesR nearestDouble (Sample.floatWorld "pipe") 0 = .ok ⟨some 4, some 4, some (-1), some (-1)⟩ := by
  have hb : ∀ r ∈ ((Sample.floatWorld "pipe").bp 0).objs,
      ClearBox 1 4 100 (Sample.floatWorld "pipe").env ((Sample.floatWorld "pipe").heap r) := by
    have h1 : ((Sample.floatWorld "pipe").bp 0).objs = [0] ∧ ((Sample.floatWorld "pipe").heap 0).name = "pipe" := by
      decide +kernel
    have he : (Sample.floatWorld "pipe").env = Sample.floatEnv := rfl
    intro r hr x0 y0 x1 y1 hx
    rw [h1.1, List.mem_singleton] at hr
    subst hr
    rw [he, h1.2] at hx
    obtain ⟨rfl, rfl, rfl, rfl⟩ := Entity.HasBox.unique
      (⟨_, _, _, _, rfl, rfl, rfl, rfl, rfl, rfl, rfl, rfl⟩ : HasBox Sample.floatEnv "pipe"
        (.flt (-nearestDouble (7/20))) (.flt (-nearestDouble (7/20))) (.flt (nearestDouble (7/20)))
        (.flt (nearestDouble (7/20)))) hx
    exact ⟨Sample.clear_035.2, Sample.clear_035.2, Sample.clear_035.1, Sample.clear_035.1⟩
  rw [(C71_extent C71_double C71_double_order (k := 1) (j := 4) (N := 100) (by decide) (by decide) (by decide)
    (Sample.floatWorld_fine (by decide +kernel)) hb).1]
  decide +kernel

/-- Borders too close to the grid: the float sum of `4.5` and the float before `0.5` is `5`, and so is the reported
extent, although the box ends before `5`. -/
theorem C71_extent_false : ¬ ∀ (w : World), Reachable Sample.floatEnv w →
    (∀ r ∈ (w.bp 0).objs, Fine 1 (100 * 2 ^ 1) (w.heap r)) → maximumValuesR nearestDouble w 0 = maximumValues w 0 := by
  intro H
  have := H (Sample.floatWorld "wall") (Sample.floatWorld_reachable _) (Sample.floatWorld_fine (by decide +kernel))
  revert this
  decide +kernel

end Verif
