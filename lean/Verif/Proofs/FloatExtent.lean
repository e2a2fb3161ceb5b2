import Verif.Proofs.Floats
import Verif.Proofs.Extent
import Mathlib.Tactic.Linarith
import Mathlib.Tactic.Ring
import Mathlib.Tactic.FieldSimp
import Mathlib.Data.Rat.Cast.Order
/-!
# Helper lemmas about the extent with rounded floats
-/
set_option autoImplicit false

namespace Verif
open Spec

/-- Two numbers on the same side of every integer. -/
def SameSide (p q : Rat) : Prop := ∀ z : Int, (p < z ↔ q < z) ∧ ((z : Rat) < p ↔ (z : Rat) < q)

theorem SameSide.of_eq {p q : Rat} (h : p = q) : SameSide p q := by subst h; exact fun _ => ⟨.rfl, .rfl⟩

theorem SameSide.of_between {p q lo hi : Rat} (h1 : lo ≤ p) (h2 : p ≤ hi) (h3 : lo ≤ q) (h4 : q ≤ hi)
    (h : ∀ z : Int, ¬ (lo ≤ (z : Rat) ∧ (z : Rat) ≤ hi)) : SameSide p q := by
  intro z
  have hz := h z
  rcases lt_or_ge (z : Rat) lo with hl | hl
  · exact ⟨⟨fun _ => by linarith, fun _ => by linarith⟩, ⟨fun _ => by linarith, fun _ => by linarith⟩⟩
  · have hh : hi < z := not_le.1 (fun hh => hz ⟨hl, hh⟩)
    exact ⟨⟨fun _ => by linarith, fun _ => by linarith⟩, ⟨fun _ => by linarith, fun _ => by linarith⟩⟩

theorem SameSide.trunc {a b : Num} (h : SameSide a.val b.val) : a.trunc = b.trunc := by
  refine towardZero_unique (q := b.val) ?_ (Num.trunc_spec b)
  have ha := Num.trunc_spec a
  have h0 := h 0
  have h1 := h (a.trunc + 1)
  have h2 := h a.trunc
  have h3 := h (a.trunc - 1)
  push_cast at h0 h1 h2 h3
  unfold TowardZero at ha ⊢
  rcases ha with ⟨p1, p2, p3⟩ | ⟨p1, p2, p3⟩
  · exact .inl ⟨not_lt.1 (fun c => absurd (h0.1.2 c) (not_lt.2 p1)), not_lt.1 (fun c => absurd (h2.1.2 c) (not_lt.2 p2)),
      h1.1.1 p3⟩
  · exact .inr ⟨h0.1.1 p1, h3.2.1 p2, not_lt.1 (fun c => absurd (h2.2.2 c) (not_lt.2 p3))⟩

theorem SameSide.max {a b : Num} (h : SameSide a.val b.val) (x : Option Int) :
    boundStep (fun v m => m.lt v) x a = boundStep (fun v m => m.lt v) x b := by
  unfold boundStep
  cases x with
  | none => simp only [h.trunc]
  | some m =>
    dsimp only
    have e : (Num.int m).lt a = (Num.int m).lt b := by
      rw [Bool.eq_iff_iff, Num.lt_iff, Num.lt_iff]
      exact (h m).2
    simp only [e, h.trunc]

theorem SameSide.min {a b : Num} (h : SameSide a.val b.val) (x : Option Int) :
    boundStep (fun v m => v.lt m) x a = boundStep (fun v m => v.lt m) x b := by
  unfold boundStep
  cases x with
  | none => simp only [h.trunc]
  | some m =>
    dsimp only
    have e : a.lt (Num.int m) = b.lt (Num.int m) := by
      rw [Bool.eq_iff_iff, Num.lt_iff, Num.lt_iff]
      exact (h m).1
    simp only [e, h.trunc]

theorem onGrid_fine {k j B : Nat} {x : Rat} (h : OnGrid k (B * 2 ^ k) x) (hkj : k ≤ j) : OnGrid j (B * 2 ^ j) x := by
  obtain ⟨m, rfl, hm⟩ := h
  obtain ⟨d, rfl⟩ := Nat.exists_eq_add_of_le hkj
  refine ⟨m * (2 ^ d : Nat), ?_, ?_⟩
  · rw [Nat.pow_add, Rat.div_def, Rat.div_def]
    push_cast
    have h1 := pow_ne k
    have h2 := pow_ne d
    push_cast at h1 h2
    field_simp
  · rw [Int.natAbs_mul, Int.natAbs_natCast, Nat.pow_add, ← Nat.mul_assoc]
    exact Nat.mul_le_mul_right _ hm

/-- The rounded sum of a coordinate on the grid and a border is on the same side of every integer as the exact one. -/
theorem addR_sameSide {rnd : Rat → Rat} (hr : ExactRounding rnd) (hm : MonotoneRounding rnd) {k j N : Nat} (hkj : k < j)
    (hj : j ≤ 1074) (hN : 2 * N * 2 ^ j ≤ 2 ^ 53) {a c : Num} (ha : OnGrid k (N * 2 ^ k) a.val)
    (hc : ClearBorder k j N c.val) : SameSide (a.addR rnd c).val (a.add c).val := by
  have hkj' : 2 ^ k ≤ 2 ^ j := Nat.pow_le_pow_right (by omega) hkj.le
  have hNk : N * 2 ^ k + N * 2 ^ k ≤ 2 ^ 53 := by
    have := Nat.mul_le_mul_left (2 * N) hkj'
    have e : N * 2 ^ k + N * 2 ^ k = 2 * N * 2 ^ k := by ring
    omega
  rcases hc with hc | ⟨lo, hi, hlo, hhi, h1, h2, hno⟩
  · rw [addR_eq hr (by omega) ha hc hNk]
    exact .of_eq rfl
  · have hfl : ∃ q, c = .flt q := by
      cases c with
      | flt q => exact ⟨q, rfl⟩
      | int z =>
        refine absurd ?_ (hno (z * (2 ^ k : Nat)))
        rw [← onGrid_int]
        exact ⟨h1, h2⟩
    obtain ⟨q, rfl⟩ := hfl
    have e1 : a.toFloat rnd = a.val := toFloat_eq hr (onGrid_few ha (by omega) (by omega))
    have ev : (a.addR rnd (.flt q)).val = rnd (a.val + q) := by
      cases a <;> simp only [Num.addR, Num.val, Num.toFloat] at e1 ⊢
      · rw [e1]
    have ew : (a.add (.flt q)).val = a.val + q := by rw [Num.val_add]; rfl
    rw [ev, ew]
    have h1' : lo ≤ q := h1
    have h2' : q ≤ hi := h2
    have hfew : ∀ {g : Rat}, OnGrid j (N * 2 ^ j) g → rnd (a.val + g) = a.val + g := by
      intro g hg
      refine hr _ (onGrid_few (onGrid_add (onGrid_fine ha hkj.le) hg) ?_ hj)
      have e : N * 2 ^ j + N * 2 ^ j = 2 * N * 2 ^ j := by ring
      omega
    refine SameSide.of_between (lo := a.val + lo) (hi := a.val + hi) ?_ ?_ (by linarith) (by linarith) ?_
    · rw [← hfew hlo]
      exact hm _ _ (by linarith)
    · rw [← hfew hhi]
      exact hm _ _ (by linarith)
    · rintro z ⟨p1, p2⟩
      obtain ⟨m, hmv, _⟩ := ha
      refine hno (z * (2 ^ k : Nat) - m) ?_
      have e : (((z * (2 ^ k : Nat) - m : Int) : Int) : Rat) / ((2 ^ k : Nat) : Rat) = (z : Rat) - a.val := by
        rw [hmv, Rat.intCast_sub, sub_div, ← onGrid_int]
      rw [e]
      exact ⟨by linarith, by linarith⟩

theorem box_clear {k j N : Nat} {env : Env} {e : Entity} (h : ClearBox k j N env e) {p : Vec × Vec} (hb : e.box env = .ok p) :
    ClearBorder k j N p.1.x.val ∧ ClearBorder k j N p.1.y.val ∧ ClearBorder k j N p.2.x.val ∧ ClearBorder k j N p.2.y.val := by
  obtain ⟨a, b⟩ := p
  obtain ⟨a, b, hp, hbox⟩ := Entity.box_ok.1 hb
  obtain ⟨h1, h2, h3, h4⟩ := h _ _ _ _ (Entity.protoBox_ok.1 hp)
  split at hbox
  · cases hbox
    exact ⟨h2, h1, h4, h3⟩
  · cases hbox
    exact ⟨h1, h2, h3, h4⟩

theorem extentAuxR_eq {rnd : Rat → Rat} (hr : ExactRounding rnd) (hm : MonotoneRounding rnd) {k j N : Nat} (hkj : k < j)
    (hj : j ≤ 1074) (hN : 2 * N * 2 ^ j ≤ 2 ^ 53) {env : Env} : ∀ (es : List Entity) (x : Extent),
    (∀ e ∈ es, OnGrid k (N * 2 ^ k) e.pos.x.val ∧ OnGrid k (N * 2 ^ k) e.pos.y.val ∧ ClearBox k j N env e) →
    extentAuxR rnd env es x = extentAux env es x
  | [], _, _ => rfl
  | e :: es, x, h => by
    obtain ⟨hx, hy, hb⟩ := h e List.mem_cons_self
    have ih := fun x => extentAuxR_eq hr hm hkj hj hN es x (fun e he => h e (List.mem_cons_of_mem _ he))
    unfold extentAuxR extentAux Entity.topLeftR Entity.topLeft Entity.bottomRightR Entity.bottomRight
    rcases hbox : e.box env with y | p
    · rfl
    · obtain ⟨c1, c2, c3, c4⟩ := box_clear hb hbox
      have s1 := addR_sameSide hr hm hkj hj hN hx c1
      have s2 := addR_sameSide hr hm hkj hj hN hy c2
      have s3 := addR_sameSide hr hm hkj hj hN hx c3
      have s4 := addR_sameSide hr hm hkj hj hN hy c4
      show extentAuxR rnd env es ⟨boundStep _ _ _, boundStep _ _ _, boundStep _ _ _, boundStep _ _ _⟩ =
        extentAux env es ⟨boundStep _ _ _, boundStep _ _ _, boundStep _ _ _, boundStep _ _ _⟩
      rw [ih]
      simp only [Vec.addVR, Vec.addV]
      rw [s3.max, s1.min, s4.max, s2.min]

theorem two_tiles {k j N : Nat} (hkj : k < j) (hN : 2 * N * 2 ^ j ≤ 2 ^ 53) : 4 * N ≤ 2 ^ 53 := by
  have h1 : 2 ^ 1 ≤ 2 ^ j := Nat.pow_le_pow_right (by omega) (by omega)
  have := Nat.mul_le_mul_left (2 * N) h1
  omega

theorem three_tiles {k j N : Nat} (hkj : k < j) (hN : 2 * N * 2 ^ j ≤ 2 ^ 53) : N * 2 ^ k + 2 * N * 2 ^ k ≤ 2 ^ 53 := by
  have h1 : 2 ^ (k + 1) ≤ 2 ^ j := Nat.pow_le_pow_right (by omega) (by omega)
  have h2 := Nat.mul_le_mul_left (2 * N) h1
  have e : 2 * N * 2 ^ (k + 1) = N * 2 ^ k + 2 * N * 2 ^ k + N * 2 ^ k := by rw [Nat.pow_succ]; ring
  omega

theorem half_few {z : Int} (h : z.natAbs ≤ 2 ^ 53) : FewBits ((z : Rat) / 2) :=
  ⟨z, 1, h, by omega, by norm_num⟩

theorem onGrid_abs {k N : Nat} {x : Rat} (h : OnGrid k (N * 2 ^ k) x) : -(N : Rat) ≤ x ∧ x ≤ N := by
  obtain ⟨m, rfl, hm⟩ := h
  have hp : (0 : Rat) < ((2 ^ k : Nat) : Rat) := by exact_mod_cast Nat.two_pow_pos k
  have hm' : |m| ≤ ((N * 2 ^ k : Nat) : Int) := by
    rw [← Int.natCast_natAbs]
    exact_mod_cast hm
  obtain ⟨h1, h2⟩ := abs_le.1 hm'
  have h1' : ((-((N * 2 ^ k : Nat) : Int) : Int) : Rat) ≤ (m : Rat) := by exact_mod_cast h1
  have h2' : (m : Rat) ≤ (((N * 2 ^ k : Nat) : Int) : Rat) := by exact_mod_cast h2
  push_cast at h1' h2' hp ⊢
  exact ⟨by rw [le_div_iff₀ hp]; linarith, by rw [div_le_iff₀ hp]; linarith⟩

theorem clear_abs {k j N : Nat} {x : Rat} (h : ClearBorder k j N x) : -(N : Rat) ≤ x ∧ x ≤ N := by
  rcases h with h | ⟨lo, hi, hlo, hhi, h1, h2, _⟩
  · exact onGrid_abs h
  · exact ⟨(onGrid_abs hlo).1.trans h1, h2.trans (onGrid_abs hhi).2⟩

theorem trunc_abs {a : Num} {M : Nat} (h1 : -(M : Rat) ≤ a.val) (h2 : a.val ≤ M) : a.trunc.natAbs ≤ M := by
  rcases Num.trunc_spec a with ⟨p1, p2, p3⟩ | ⟨p1, p2, p3⟩
  · have u : (a.trunc : Rat) ≤ ((M : Int) : Rat) := by push_cast; linarith
    have l : (((-1 : Int)) : Rat) < (a.trunc : Rat) := by push_cast; linarith
    have u' : a.trunc ≤ (M : Int) := by exact_mod_cast u
    have l' : (-1 : Int) < a.trunc := by exact_mod_cast l
    omega
  · have u : (((-M : Int)) : Rat) ≤ (a.trunc : Rat) := by push_cast; linarith
    have l : (a.trunc : Rat) < ((1 : Int) : Rat) := by push_cast; linarith
    have u' : (-M : Int) ≤ a.trunc := by exact_mod_cast u
    have l' : a.trunc < (1 : Int) := by exact_mod_cast l
    omega

/-- Every bound found so far is at most `M` away from the origin. -/
def Extent.Within (M : Nat) (x : Extent) : Prop :=
  (∀ z, x.maxx = some z → z.natAbs ≤ M) ∧ (∀ z, x.minx = some z → z.natAbs ≤ M) ∧
  (∀ z, x.maxy = some z → z.natAbs ≤ M) ∧ (∀ z, x.miny = some z → z.natAbs ≤ M)

theorem boundStep_within {f : Num → Num → Bool} {M : Nat} {x : Option Int} {a : Num} (hx : ∀ z, x = some z → z.natAbs ≤ M)
    (ha : a.trunc.natAbs ≤ M) : ∀ z, boundStep f x a = some z → z.natAbs ≤ M := by
  intro z hz
  unfold boundStep at hz
  cases x with
  | none => cases hz; exact ha
  | some m =>
    dsimp only at hz
    split at hz
    · cases hz; exact ha
    · cases hz; exact hx _ rfl

theorem extentAux_within {k j N : Nat} {env : Env} : ∀ (es : List Entity) (x x' : Extent),
    (∀ e ∈ es, OnGrid k (N * 2 ^ k) e.pos.x.val ∧ OnGrid k (N * 2 ^ k) e.pos.y.val ∧ ClearBox k j N env e) →
    x.Within (2 * N) → extentAux env es x = .ok x' → x'.Within (2 * N)
  | [], _, _, _, hx, h => by cases h; exact hx
  | e :: es, x, x', h, hx, hr => by
    obtain ⟨px, py, hb⟩ := h e List.mem_cons_self
    unfold extentAux Entity.topLeft Entity.bottomRight at hr
    rcases hbox : e.box env with y | p
    · rw [hbox] at hr
      cases hr
    · rw [hbox] at hr
      obtain ⟨c1, c2, c3, c4⟩ := box_clear hb hbox
      have key : ∀ {a c : Num}, OnGrid k (N * 2 ^ k) a.val → ClearBorder k j N c.val → (a.add c).trunc.natAbs ≤ 2 * N := by
        intro a c ha hc
        have := onGrid_abs ha
        have := clear_abs hc
        refine trunc_abs ?_ ?_ <;> rw [Num.val_add] <;> push_cast <;> linarith
      exact extentAux_within es _ x' (fun e he => h e (List.mem_cons_of_mem _ he))
        ⟨fun z hz => boundStep_within (f := fun v m => m.lt v) hx.1 (key px c3) z hz,
          fun z hz => boundStep_within (f := fun v m => v.lt m) hx.2.1 (key px c1) z hz,
          fun z hz => boundStep_within (f := fun v m => m.lt v) hx.2.2.1 (key py c4) z hz,
          fun z hz => boundStep_within (f := fun v m => v.lt m) hx.2.2.2 (key py c2) z hz⟩ hr

theorem extent_bounds {k j N : Nat} {w : World} {b : BpId}
    (hf : ∀ r ∈ (w.bp b).objs, Fine k (N * 2 ^ k) (w.heap r)) (hb : ∀ r ∈ (w.bp b).objs, ClearBox k j N w.env (w.heap r))
    {x : Extent} (h : maximumValues w b = .ok x) : x.Within (2 * N) :=
  extentAux_within _ {} x (fun e he => by
    obtain ⟨r, hr, rfl⟩ := List.mem_map.1 he
    exact ⟨(hf r hr).x, (hf r hr).y, hb r hr⟩)
    (by refine ⟨?_, ?_, ?_, ?_⟩ <;> intro _ h <;> cases h) h

theorem ceil_half {a i : Int} {M : Nat} (ha : a.natAbs ≤ M) (hi : i.natAbs ≤ M) :
    (Num.flt (((a + i : Int) : Rat) / 2)).ceil.natAbs ≤ M := by
  show (Rat.ceil _).natAbs ≤ M
  have h1 : Rat.ceil (((a + i : Int) : Rat) / 2) ≤ (M : Int) := by
    rw [Rat.ceil_le_iff]
    have : ((a + i : Int) : Rat) ≤ ((2 * M : Int) : Rat) := by exact_mod_cast (by omega : a + i ≤ 2 * M)
    push_cast at this ⊢
    linarith
  have h2 : (-M : Int) ≤ Rat.ceil (((a + i : Int) : Rat) / 2) := by
    have h3 : (((a + i : Int) : Rat) / 2) ≤ ((Rat.ceil (((a + i : Int) : Rat) / 2) : Int) : Rat) := Rat.le_ceil
    have : (((-(2 * M) : Int)) : Rat) ≤ ((a + i : Int) : Rat) := by exact_mod_cast (by omega : (-(2 * M) : Int) ≤ a + i)
    have h4 : (((-M : Int)) : Rat) ≤ ((Rat.ceil (((a + i : Int) : Rat) / 2) : Int) : Rat) := by
      push_cast at this h3 ⊢
      linarith
    exact_mod_cast h4
  omega

theorem onGrid_whole {k M : Nat} {z : Int} (h : z.natAbs ≤ M) : OnGrid k (M * 2 ^ k) (z : Rat) := by
  refine ⟨z * (2 ^ k : Nat), onGrid_int z, ?_⟩
  rw [Int.natAbs_mul, Int.natAbs_natCast]
  exact Nat.mul_le_mul_right _ h

theorem center_grid {k j N : Nat} {w : World} {b : BpId}
    (hf : ∀ r ∈ (w.bp b).objs, Fine k (N * 2 ^ k) (w.heap r)) (hb : ∀ r ∈ (w.bp b).objs, ClearBox k j N w.env (w.heap r))
    {c : Vec} (h : center w b = .ok (some c)) : GridOperand k (2 * N * 2 ^ k) (.vec c.ceil) := by
  unfold center at h
  rcases hv : maximumValues w b with x | v
  · rw [hv] at h
    cases h
  · obtain ⟨h1, h2, h3, h4⟩ := extent_bounds hf hb hv
    rw [hv] at h
    obtain ⟨v1, v2, v3, v4⟩ := v
    cases v1 with
    | none => cases h
    | some a => cases v2 with
      | none => cases h
      | some i => cases v3 with
        | none => cases h
        | some d => cases v4 with
          | none => cases h
          | some l =>
            cases h
            intro x y hxy
            cases hxy
            exact ⟨onGrid_whole (ceil_half (h1 _ rfl) (h2 _ rfl)), onGrid_whole (ceil_half (h3 _ rfl) (h4 _ rfl))⟩

end Verif
