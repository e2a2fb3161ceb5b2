import Verif.Model.Floats
import Verif.Spec.Floats
import Verif.Proofs.World
import Verif.Proofs.Dict
/-!
# Helper lemmas about rounded floats
-/
set_option autoImplicit false

namespace Verif
open Spec

theorem pow_ne (k : Nat) : ((2 ^ k : Nat) : Rat) ≠ 0 := by
  have : 0 < 2 ^ k := Nat.two_pow_pos k
  exact_mod_cast (Nat.pos_iff_ne_zero.1 this)

theorem OnGrid.mono {k A B : Nat} {x : Rat} (h : OnGrid k A x) (hab : A ≤ B) : OnGrid k B x := by
  obtain ⟨m, hx, hm⟩ := h
  exact ⟨m, hx, Nat.le_trans hm hab⟩

theorem onGrid_add {k A B : Nat} {x y : Rat} (hx : OnGrid k A x) (hy : OnGrid k B y) : OnGrid k (A + B) (x + y) := by
  obtain ⟨a, rfl, ha⟩ := hx
  obtain ⟨b, rfl, hb⟩ := hy
  exact ⟨a + b, by rw [Rat.intCast_add, Rat.div_def, Rat.div_def, Rat.div_def, Rat.add_mul], by omega⟩

theorem onGrid_neg {k A : Nat} {x : Rat} (hx : OnGrid k A x) : OnGrid k A (-x) := by
  obtain ⟨a, rfl, ha⟩ := hx
  exact ⟨-a, by rw [Rat.intCast_neg, Rat.div_def, Rat.div_def, Rat.neg_mul], by omega⟩

theorem onGrid_sub {k A B : Nat} {x y : Rat} (hx : OnGrid k A x) (hy : OnGrid k B y) : OnGrid k (A + B) (x - y) := by
  rw [Rat.sub_eq_add_neg]
  exact onGrid_add hx (onGrid_neg hy)

theorem onGrid_few {k B : Nat} {x : Rat} (h : OnGrid k B x) (hB : B ≤ 2 ^ 53) (hk : k ≤ 1074) : FewBits x := by
  obtain ⟨m, rfl, hm⟩ := h
  exact ⟨m, k, by omega, hk, rfl⟩

theorem toFloat_eq {rnd : Rat → Rat} (hr : ExactRounding rnd) {a : Num} (h : FewBits a.val) : a.toFloat rnd = a.val := by
  cases a with
  | int z => exact hr _ h
  | flt q => rfl

theorem addR_eq {rnd : Rat → Rat} (hr : ExactRounding rnd) {k A B : Nat} (hk : k ≤ 1074) {a b : Num}
    (ha : OnGrid k A a.val) (hb : OnGrid k B b.val) (h : A + B ≤ 2 ^ 53) : a.addR rnd b = a.add b := by
  have e1 := toFloat_eq hr (onGrid_few ha (by omega) hk)
  have e2 := toFloat_eq hr (onGrid_few hb (by omega) hk)
  have e3 := hr _ (onGrid_few (onGrid_add ha hb) h hk)
  cases a <;> cases b <;> simp only [Num.addR, Num.add, e1, e2, e3]

theorem subR_eq {rnd : Rat → Rat} (hr : ExactRounding rnd) {k A B : Nat} (hk : k ≤ 1074) {a b : Num}
    (ha : OnGrid k A a.val) (hb : OnGrid k B b.val) (h : A + B ≤ 2 ^ 53) : a.subR rnd b = a.sub b := by
  have e1 := toFloat_eq hr (onGrid_few ha (by omega) hk)
  have e2 := toFloat_eq hr (onGrid_few hb (by omega) hk)
  have e3 := hr _ (onGrid_few (onGrid_sub ha hb) h hk)
  cases a <;> cases b <;> simp only [Num.subR, Num.sub, e1, e2, e3]

theorem vecSubR_eq {rnd : Rat → Rat} (hr : ExactRounding rnd) {k B C : Nat} (hk : k ≤ 1074) {v : Vec} {o : Operand}
    (hx : OnGrid k B v.x.val) (hy : OnGrid k B v.y.val) (ho : GridOperand k C o) (h : B + C ≤ 2 ^ 53) :
    v.subR rnd o = v.sub o := by
  unfold Vec.subR Vec.sub Vec.lift
  split
  · obtain ⟨h1, h2⟩ := ho _ _ rfl
    rw [subR_eq hr hk hx h1 h, subR_eq hr hk hy h2 h]
  · obtain ⟨h1, h2⟩ := ho _ _ rfl
    rw [subR_eq hr hk hx h1 h, subR_eq hr hk hy h2 h]
  · obtain ⟨h1, h2⟩ := ho _ _ rfl
    rw [subR_eq hr hk hx h1 h, subR_eq hr hk hy h2 h]
  · rfl
  · rfl

theorem vecAddR_eq {rnd : Rat → Rat} (hr : ExactRounding rnd) {k B C : Nat} (hk : k ≤ 1074) {v : Vec} {o : Operand}
    (hx : OnGrid k B v.x.val) (hy : OnGrid k B v.y.val) (ho : GridOperand k C o) (h : B + C ≤ 2 ^ 53) :
    v.addR rnd o = v.add o := by
  unfold Vec.addR Vec.add Vec.lift
  split
  · obtain ⟨h1, h2⟩ := ho _ _ rfl
    rw [addR_eq hr hk hx h1 h, addR_eq hr hk hy h2 h]
  · obtain ⟨h1, h2⟩ := ho _ _ rfl
    rw [addR_eq hr hk hx h1 h, addR_eq hr hk hy h2 h]
  · obtain ⟨h1, h2⟩ := ho _ _ rfl
    rw [addR_eq hr hk hx h1 h, addR_eq hr hk hy h2 h]
  · rfl
  · rfl

theorem vecRsubR_eq {rnd : Rat → Rat} (hr : ExactRounding rnd) {k B C : Nat} (hk : k ≤ 1074) {v : Vec} {o : Operand}
    (hx : OnGrid k B v.x.val) (hy : OnGrid k B v.y.val) (ho : GridOperand k C o) (h : C + B ≤ 2 ^ 53) :
    v.rsubR rnd o = v.rsub o := by
  cases o with
  | num n =>
    obtain ⟨h1, h2⟩ := ho _ _ rfl
    simp only [Vec.rsubR, Vec.rsub, subR_eq hr hk h1 hx h, subR_eq hr hk h2 hy h]
  | tup l =>
    match l, ho with
    | [], _ => rfl
    | [_], _ => rfl
    | [x, y], ho =>
      obtain ⟨h1, h2⟩ := ho _ _ rfl
      simp only [Vec.rsubR, Vec.rsub, subR_eq hr hk h1 hx h, subR_eq hr hk h2 hy h]
    | _ :: _ :: _ :: _, _ => rfl
  | vec w =>
    obtain ⟨h1, h2⟩ := ho _ _ rfl
    simp only [Vec.rsubR, Vec.rsub, Vec.subR, Vec.sub, Vec.lift, subR_eq hr hk h1 hx h, subR_eq hr hk h2 hy h]
  | other => rfl

theorem vecSub_grid {k B C : Nat} {v p : Vec} {o : Operand} (hx : OnGrid k B v.x.val) (hy : OnGrid k B v.y.val)
    (ho : GridOperand k C o) (h : v.sub o = .ok p) : OnGrid k (B + C) p.x.val ∧ OnGrid k (B + C) p.y.val := by
  unfold Vec.sub Vec.lift at h
  split at h
  all_goals cases h
  all_goals
    obtain ⟨h1, h2⟩ := ho _ _ rfl
    rw [Num.val_sub, Num.val_sub]
    exact ⟨onGrid_sub hx h1, onGrid_sub hy h2⟩

theorem vecAdd_grid {k B C : Nat} {v p : Vec} {o : Operand} (hx : OnGrid k B v.x.val) (hy : OnGrid k B v.y.val)
    (ho : GridOperand k C o) (h : v.add o = .ok p) : OnGrid k (B + C) p.x.val ∧ OnGrid k (B + C) p.y.val := by
  unfold Vec.add Vec.lift at h
  split at h
  all_goals cases h
  all_goals
    obtain ⟨h1, h2⟩ := ho _ _ rfl
    rw [Num.val_add, Num.val_add]
    exact ⟨onGrid_add hx h1, onGrid_add hy h2⟩

theorem quarters_grid {k B : Nat} : ∀ (n : Nat) {v : Vec}, OnGrid k B v.x.val → OnGrid k B v.y.val →
    OnGrid k B (Vec.quarters n v).x.val ∧ OnGrid k B (Vec.quarters n v).y.val
  | 0, _, hx, hy => ⟨hx, hy⟩
  | n + 1, v, hx, hy => quarters_grid n (v := v.quarter) (by
      show OnGrid k B v.y.neg.val
      rw [Num.val_neg]
      exact onGrid_neg hy) hx

theorem turns_bounds (amount : Int) (dir : DirArg) : 0 ≤ Entity.turns amount dir ∧ Entity.turns amount dir < 4 := by
  unfold Entity.turns
  have h1 := Int.emod_nonneg amount (show (4 : Int) ≠ 0 by decide)
  have h2 := Int.emod_lt_of_pos amount (show (0 : Int) < 4 by decide)
  dsimp only
  split
  · have h3 := Int.emod_nonneg (amount % 4) (show 4 - amount % 4 ≠ 0 by omega)
    have h4 := Int.emod_lt_of_pos (amount % 4) (show 0 < 4 - amount % 4 by omega)
    omega
  · omega

theorem quarter_few {n : Int} (h0 : 0 ≤ n) (h4 : n < 4) : FewBits ((1/4 : Rat) * n) := by
  refine ⟨n, 2, ?_, by decide, ?_⟩
  · have : n.natAbs < 4 := by omega
    omega
  · rw [Rat.div_def, Rat.div_def, Rat.one_mul, Rat.mul_comm]
    rfl

theorem floor_quarter {n : Int} (h0 : 0 ≤ n) (h4 : n < 4) : ((1/4 : Rat) * n).floor = 0 := by
  have : n = 0 ∨ n = 1 ∨ n = 2 ∨ n = 3 := by omega
  rcases this with rfl | rfl | rfl | rfl <;> decide +kernel

/-- The step of the orientation. -/
theorem step_eq {rnd : Rat → Rat} (hr : ExactRounding rnd) {n : Int} (h0 : 0 ≤ n) (h4 : n < 4) :
    (Num.mulR rnd (.flt (1/4)) (.int n)).modR rnd (.int 1) = .ok (.flt ((1/4 : Rat) * n)) ∧
    (Num.mul (.flt (1/4)) (.int n)).mod (.int 1) = .ok (.flt ((1/4 : Rat) * n)) := by
  have hn : FewBits (n : Rat) := ⟨n, 0, by have : n.natAbs < 4 := by omega
                                           omega, by decide, by rw [Rat.div_def]; simp⟩
  have h1 : FewBits ((1 : Int) : Rat) := ⟨1, 0, by decide, by decide, by rw [Rat.div_def]; simp⟩
  have hq := quarter_few h0 h4
  have hf := floor_quarter h0 h4
  have hz : ∀ x : Rat, x - 0 = x := by grind
  have hd : (1/4 : Rat) * n / ((1 : Int) : Rat) = (1/4 : Rat) * n := by
    rw [Rat.div_def]; simp
  constructor
  · simp only [Num.mulR, Num.toFloat, hr _ hn, hr _ hq, Num.modR, Num.val_int, hr _ h1, hd, hf]
    rw [if_neg (by decide)]
    simp only [Rat.intCast_zero, Rat.mul_zero, hz, hr _ hq]
  · simp only [Num.mul, Num.val_flt, Num.val_int, Num.mod, hd, hf]
    rw [if_neg (by decide)]
    simp only [Rat.intCast_zero, Rat.mul_zero, hz]

theorem onGrid_int {k : Nat} (z : Int) : (z : Rat) = ((z * (2 ^ k : Nat) : Int) : Rat) / ((2 ^ k : Nat) : Rat) := by
  rw [Rat.intCast_mul, Rat.div_def, Rat.mul_assoc]
  have : ((((2 ^ k : Nat) : Int)) : Rat) = ((2 ^ k : Nat) : Rat) := rfl
  rw [this, Rat.mul_inv_cancel _ (pow_ne k), Rat.mul_one]

/-- The fractional part of a number on the grid. -/
theorem frac_grid {k B : Nat} {x : Rat} (h : OnGrid k B x) : OnGrid k (2 ^ k) (x - (x.floor : Rat)) := by
  obtain ⟨m, hx, -⟩ := h
  have hp : (0 : Rat) < ((2 ^ k : Nat) : Rat) := by
    have : 0 < 2 ^ k := Nat.two_pow_pos k
    exact_mod_cast this
  have e : x - (x.floor : Rat) = ((m - x.floor * (2 ^ k : Nat) : Int) : Rat) / ((2 ^ k : Nat) : Rat) := by
    rw [Rat.intCast_sub, Rat.div_def, Rat.sub_eq_add_neg (m : Rat), Rat.add_mul, ← Rat.div_def, ← hx, Rat.neg_mul, ← Rat.div_def,
      ← onGrid_int, Rat.sub_eq_add_neg]
  have hm : (m : Rat) = x * ((2 ^ k : Nat) : Rat) := by
    rw [hx, Rat.div_mul_cancel (pow_ne k)]
  refine ⟨_, e, ?_⟩
  have h1 : (x.floor : Rat) ≤ x := Rat.floor_le x
  have h2 : x < (x.floor : Rat) + 1 := by
    have := Rat.lt_floor_add_one x
    rwa [Rat.intCast_add] at this
  have h3 : x.floor * (2 ^ k : Nat) ≤ m := by
    have : ((x.floor * (2 ^ k : Nat) : Int) : Rat) ≤ (m : Rat) := by
      rw [hm, Rat.intCast_mul]
      exact Rat.mul_le_mul_of_nonneg_right h1 (Rat.le_of_lt hp)
    exact_mod_cast this
  have h4 : m < x.floor * (2 ^ k : Nat) + (2 ^ k : Nat) := by
    have : (m : Rat) < ((x.floor * (2 ^ k : Nat) + (2 ^ k : Nat) : Int) : Rat) := by
      rw [hm, Rat.intCast_add, Rat.intCast_mul]
      have := Rat.mul_lt_mul_of_pos_right h2 hp
      rw [Rat.add_mul, Rat.one_mul] at this
      exact this
    exact_mod_cast this
  have h5 : 0 ≤ m - x.floor * (2 ^ k : Nat) := by omega
  omega

theorem step_grid {k : Nat} (hk : 2 ≤ k) {n : Int} (h0 : 0 ≤ n) (h4 : n < 4) : OnGrid k (2 ^ k) ((1/4 : Rat) * n) := by
  obtain ⟨j, rfl⟩ : ∃ j, k = j + 2 := ⟨k - 2, by omega⟩
  refine ⟨n * (2 ^ j : Nat), ?_, ?_⟩
  · have e : ((2 ^ (j + 2) : Nat) : Rat) = ((2 ^ j : Nat) : Rat) * 4 := by
      rw [Nat.pow_add, Rat.natCast_mul]; rfl
    have := pow_ne j
    rw [e, Rat.intCast_mul, show ((((2 ^ j : Nat) : Int)) : Rat) = ((2 ^ j : Nat) : Rat) from rfl]
    grind
  · have e : 2 ^ (j + 2) = 4 * 2 ^ j := by rw [Nat.pow_add]; omega
    rw [e, Int.natAbs_mul, Int.natAbs_natCast]
    exact Nat.mul_le_mul_right _ (by omega)

/-- The setter of the orientation. -/
theorem orientationSet_grid {rnd : Rat → Rat} (hr : ExactRounding rnd) {k : Nat} (hk : k ≤ 53) {B : Nat} {n : Num}
    (hn : OnGrid k B n.val) (hB : B ≤ 2 ^ 53) :
    Entity.orientationSetR rnd n = orientationSet (.num n) ∧
    ∃ q, orientationSet (.num n) = .ok (.flt q) ∧ OnGrid k (2 ^ k) q := by
  have hf := frac_grid hn
  have h53 : 2 ^ k ≤ 2 ^ 53 := Nat.pow_le_pow_right (by decide) hk
  have e1 := toFloat_eq hr (onGrid_few hn hB (by omega))
  have e2 : ∀ q : Rat, q / 1 = q := by intro q; rw [Rat.div_def]; simp
  have e3 : orientationSet (.num n) = .ok (.flt (n.val - (n.val.floor : Rat))) := by
    cases n <;> simp only [orientationSet, Val.num?, Num.mod, Num.val_flt, Num.val_int, e2, Rat.one_mul] <;>
      rw [if_neg (by decide)] <;> rfl
  have e4 : Entity.orientationSetR rnd n = .ok (.flt (rnd (n.val - (n.val.floor : Rat)))) := by
    cases n with
    | int z =>
      simp only [Num.toFloat, Num.val_int] at e1
      simp only [Entity.orientationSetR, Num.modR, Num.toFloat, Num.val_flt, Num.val_int, e1, e2, Rat.one_mul]
      rw [if_neg (by decide)]
      rfl
    | flt q =>
      simp only [Entity.orientationSetR, Num.modR, Num.toFloat, Num.val_flt, e2, Rat.one_mul]
      rw [if_neg (by decide)]
      rfl
  rw [e3, e4, hr _ (onGrid_few hf h53 (by omega))]
  exact ⟨rfl, _, rfl, hf⟩

theorem rotateOrientation_grid {rnd : Rat → Rat} (hr : ExactRounding rnd) {k B : Nat} (hk : 2 ≤ k) (hk' : k ≤ 52) {e : Entity}
    (he : Fine k B e) {n : Int} (h0 : 0 ≤ n) (h4 : n < 4) :
    Entity.rotateOrientationR rnd e n = e.rotateOrientation n ∧
    ∀ e', e.rotateOrientation n = .ok e' → Fine k B e' := by
  obtain ⟨s1, s2⟩ := step_eq hr h0 h4
  unfold Entity.rotateOrientationR Entity.rotateOrientation
  cases hv : Dict.get? e.attrs "orientation" with
  | none => exact ⟨rfl, fun _ h => by cases h⟩
  | some v =>
    dsimp only
    cases hn : v.num? with
    | none => exact ⟨rfl, fun _ h => by cases h⟩
    | some m =>
      dsimp only
      have hm := he.orientation v m hv hn
      have hs := step_grid hk h0 h4
      have hle : 2 ^ k + 2 ^ k ≤ 2 ^ 53 := by
        have : 2 ^ k ≤ 2 ^ 52 := Nat.pow_le_pow_right (by decide) hk'
        omega
      rw [s1, s2, ok_bind, ok_bind, addR_eq hr (by omega) hm (b := .flt _) hs hle]
      obtain ⟨o1, q, o2, o3⟩ := orientationSet_grid hr (k := k) (by omega) (n := m.add (.flt ((1/4 : Rat) * n)))
        (by rw [Num.val_add]; exact onGrid_add hm hs) hle
      rw [o1, o2]
      refine ⟨rfl, fun e' h => ?_⟩
      cases h
      refine ⟨he.x, he.y, fun v' n' h1 h2 => ?_⟩
      have : List.lookup "orientation" (Dict.set e.attrs "orientation" (.flt q)) = some (.flt q) := by
        rw [lookup_set, if_pos rfl]
      rw [this] at h1
      cases h1
      cases h2
      exact o3

theorem rotateChain_grid {rnd : Rat → Rat} (hr : ExactRounding rnd) {k B : Nat} (hk : 2 ≤ k) (hk' : k ≤ 52) {n : Int}
    (h0 : 0 ≤ n) (h4 : n < 4) : ∀ (ms : List Mx) {e : Entity}, Fine k B e →
      Entity.rotateChainR rnd n ms e = Entity.rotateChain n ms e ∧ Fine k B (Entity.rotateChain n ms e).2
  | [], _, he => ⟨rfl, he⟩
  | m :: ms, e, he => by
    have hd : ∀ d, Fine k B { e with dir := d } := fun d => ⟨he.x, he.y, he.orientation⟩
    obtain ⟨o1, o2⟩ := rotateOrientation_grid hr hk hk' he h0 h4
    cases m
    case Rotatable => exact rotateChain_grid hr hk hk' h0 h4 ms (hd _)
    case Orientation =>
      simp only [Entity.rotateChainR, Entity.rotateChain]
      rw [o1]
      cases ho : e.rotateOrientation n with
      | error x => exact ⟨rfl, he⟩
      | ok e' => exact rotateChain_grid hr hk hk' h0 h4 ms (o2 e' ho)
    all_goals exact rotateChain_grid hr hk hk' h0 h4 ms he

theorem rotate_grid {rnd : Rat → Rat} (hr : ExactRounding rnd) {k B C : Nat} (hk : 2 ≤ k) (hk' : k ≤ 52) {e : Entity}
    (he : Fine k B e) {a : Operand} (ha : GridOperand k C a) (h : B + 2 * C ≤ 2 ^ 53) (amount : Int) (dir : DirArg) :
    e.rotateR rnd amount a dir = e.rotate amount a dir ∧ Fine k (B + 2 * C) (e.rotate amount a dir).2 := by
  have hB : Fine k (B + 2 * C) e := ⟨OnGrid.mono he.x (by omega), OnGrid.mono he.y (by omega), he.orientation⟩
  obtain ⟨t0, t4⟩ := turns_bounds amount dir
  unfold Entity.rotateR Entity.rotate
  rw [vecSubR_eq hr (by omega) he.x he.y ha (by omega)]
  cases hs : e.pos.sub a with
  | error x => exact ⟨rfl, hB⟩
  | ok p =>
    dsimp only
    obtain ⟨px, py⟩ := vecSub_grid he.x he.y ha hs
    obtain ⟨qx, qy⟩ := quarters_grid (Entity.turns amount dir).toNat px py
    rw [vecAddR_eq hr (by omega) qx qy ha (by omega)]
    cases hq : (Vec.quarters (Entity.turns amount dir).toNat p).add a with
    | error x => exact ⟨rfl, hB⟩
    | ok q =>
      obtain ⟨rx, ry⟩ := vecAdd_grid qx qy ha hq
      exact rotateChain_grid hr hk hk' t0 t4 _ ⟨OnGrid.mono rx (by omega), OnGrid.mono ry (by omega), he.orientation⟩

/-- The loop over the listed entities. -/
theorem rotateAll_grid {rnd : Rat → Rat} (hr : ExactRounding rnd) {k B C : Nat} (hk : 2 ≤ k) (hk' : k ≤ 52) {a : Operand}
    (ha : GridOperand k C a) (h : B + 2 * C ≤ 2 ^ 53) (amount : Int) (dir : DirArg) :
    ∀ (l : List Ref) {w : World}, l.Nodup → (∀ r ∈ l, Fine k B (w.heap r)) →
      M.forEach (entRotateR rnd amount a dir) l w = M.forEach (entRotate amount a dir) l w ∧
      (∀ r ∈ l, Fine k (B + 2 * C) ((M.forEach (entRotate amount a dir) l w).2.heap r)) ∧
      ∀ r, r ∉ l → (M.forEach (entRotate amount a dir) l w).2.heap r = w.heap r
  | [], w, _, _ => ⟨rfl, fun _ hr => (List.not_mem_nil hr).elim, fun _ _ => rfl⟩
  | r :: l, w, hn, hf => by
    obtain ⟨hnr, hnl⟩ := List.nodup_cons.1 hn
    obtain ⟨e1, e2⟩ := rotate_grid hr hk hk' (hf r List.mem_cons_self) ha h amount dir
    have e3 : entRotateR rnd amount a dir r w = entRotate amount a dir r w := by
      unfold entRotateR entRotate
      rw [e1]
    have hfe : ∀ (f : Ref → M Unit), M.forEach f (r :: l) w =
        match f r w with | (.error e, u) => (.error e, u) | (.ok _, u) => M.forEach f l u := by
      intro f
      show M.bind (f r) (fun _ => M.forEach f l) w = _
      unfold M.bind
      rcases f r w with ⟨_ | _, _⟩ <;> rfl
    rw [hfe, hfe, e3]
    have hw : entRotate amount a dir r w =
      (((w.heap r).rotate amount a dir).1, w.setEnt r ((w.heap r).rotate amount a dir).2) := rfl
    have hself : (w.setEnt r ((w.heap r).rotate amount a dir).2).heap r = ((w.heap r).rotate amount a dir).2 := by
      rw [setEnt_heap, if_pos rfl]
    have hother : ∀ s, s ≠ r → (w.setEnt r ((w.heap r).rotate amount a dir).2).heap s = w.heap s := by
      intro s hs
      rw [setEnt_heap, if_neg hs]
    rw [hw]
    cases ((w.heap r).rotate amount a dir).1 with
    | error x =>
      dsimp only
      refine ⟨rfl, fun s hs => ?_, fun s hs => hother s (fun e => hs (by rw [e]; exact List.mem_cons_self))⟩
      by_cases hsr : s = r
      · subst hsr
        rw [hself]
        exact e2
      · rw [hother s hsr]
        have := hf s hs
        exact ⟨OnGrid.mono this.x (by omega), OnGrid.mono this.y (by omega), this.orientation⟩
    | ok _ =>
      dsimp only
      obtain ⟨i1, i2, i3⟩ := rotateAll_grid hr hk hk' ha h amount dir l (w := w.setEnt r ((w.heap r).rotate amount a dir).2)
        hnl (fun s hs => by
          rw [hother s (fun e => hnr (e ▸ hs))]
          exact hf s (List.mem_cons_of_mem _ hs))
      refine ⟨i1, fun s hs => ?_, fun s hs => ?_⟩
      · rcases List.mem_cons.1 hs with rfl | hs
        · rw [i3 s hnr, hself]
          exact e2
        · exact i2 s hs
      · rw [i3 s (fun h => hs (List.mem_cons_of_mem _ h)), hother s (fun e => hs (by rw [e]; exact List.mem_cons_self))]

/-- The loop that moves the listed entities. -/
theorem shiftAll_grid {rnd : Rat → Rat} (hr : ExactRounding rnd) {k B C : Nat} (hk : k ≤ 1074) {a : Operand}
    (ha : GridOperand k C a) (h : B + C ≤ 2 ^ 53) :
    ∀ (l : List Ref) {w : World}, l.Nodup → (∀ r ∈ l, Fine k B (w.heap r)) →
      M.forEach (shiftEntR rnd a) l w = M.forEach (shiftEnt a) l w
  | [], _, _, _ => rfl
  | r :: l, w, hn, hf => by
    obtain ⟨hnr, hnl⟩ := List.nodup_cons.1 hn
    have he := hf r List.mem_cons_self
    have e3 : shiftEntR rnd a r w = shiftEnt a r w := by
      unfold shiftEntR shiftEnt
      rw [vecSubR_eq hr hk he.x he.y ha h]
      cases (w.heap r).pos.sub a <;> rfl
    show M.bind (shiftEntR rnd a r) (fun _ => M.forEach (shiftEntR rnd a) l) w =
      M.bind (shiftEnt a r) (fun _ => M.forEach (shiftEnt a) l) w
    unfold M.bind
    rw [e3]
    unfold shiftEnt
    cases (w.heap r).pos.sub a with
    | error x => rfl
    | ok p =>
      refine shiftAll_grid hr hk ha h l hnl (fun s hs => ?_)
      have hne : s ≠ r := fun e => hnr (e ▸ hs)
      rw [setEnt_heap, if_neg hne]
      exact hf s (List.mem_cons_of_mem _ hs)

/-- Sorting moves nothing. -/
theorem Fine.sort {k B : Nat} {w : World} {b : BpId} {r : Ref} (h : Fine k B (w.heap r)) :
    Fine k B ((w.sort b).heap r) := by
  obtain ⟨n, hn⟩ := sort_heap w b r
  rw [hn]
  exact ⟨h.x, h.y, h.orientation⟩

theorem layerRotate_grid {rnd : Rat → Rat} (hr : ExactRounding rnd) {k B C : Nat} (hk : 2 ≤ k) (hk' : k ≤ 52)
    {b : BpId} {w : World} {a : Option Operand} (ha : ∀ o, a = some o → GridOperand k C o) (h : B + 2 * C ≤ 2 ^ 53)
    (hn : (w.bp b).objs.Nodup) (hf : ∀ r ∈ (w.bp b).objs, Fine k B (w.heap r)) (amount : Int) (dir : Option DirArg) :
    layerRotateR rnd b amount a dir w = layerRotate b amount a dir w ∧
    ∀ r ∈ (w.bp b).objs, Fine k (B + 2 * C) ((layerRotate b amount a dir w).2.heap r) := by
  have ho : GridOperand k C (a.getD (.vec ⟨.int 0, .int 0⟩)) := by
    cases a with
    | none =>
      intro x y hxy
      cases hxy
      have : OnGrid k C (Num.int 0).val := ⟨0, by simp [Num.val], by simp⟩
      exact ⟨this, this⟩
    | some o => exact ha o rfl
  obtain ⟨h1, h2, _⟩ := rotateAll_grid hr hk hk' ho h amount (dir.getD (.int Direction.CLOCKWISE)) _ hn hf
  unfold layerRotateR layerRotate
  rw [M.bind_get, M.bind_get, M.bind_eq, M.bind_eq, h1]
  refine ⟨rfl, fun r hr => ?_⟩
  have h2r := h2 r hr
  generalize M.forEach (entRotate amount (a.getD (.vec ⟨.int 0, .int 0⟩)) (dir.getD (.int Direction.CLOCKWISE)))
    (w.bp b).objs w = p at h2r
  obtain ⟨_ | _, p2⟩ := p
  · exact h2r
  · exact Fine.sort h2r

end Verif
