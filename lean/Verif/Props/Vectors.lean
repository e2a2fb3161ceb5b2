import Verif.Model.Vector
import Verif.Proofs.NumDiv
/-!
# Properties C04, C05, C06, C07: `Vector`
-/
set_option autoImplicit false

namespace Verif
namespace Vec

theorem ext' {v w : Vec} (hx : v.x = w.x) (hy : v.y = w.y) : v = w := by
  cases v; cases w; simp_all

@[simp] theorem quarter_x (v : Vec) : (quarter v).x = v.y.neg := rfl
@[simp] theorem quarter_y (v : Vec) : (quarter v).y = v.x := rfl

theorem quarters_succ' (n : Nat) (v : Vec) : quarters (n + 1) v = quarter (quarters n v) := by
  induction n generalizing v with
  | zero => rfl
  | succ n ih => exact ih (quarter v)

theorem quarters_add (m n : Nat) (v : Vec) : quarters (m + n) v = quarters n (quarters m v) := by
  induction m generalizing v with
  | zero => simp [quarters]
  | succ m ih => rw [Nat.succ_add]; exact ih (quarter v)

theorem quarters_four (v : Vec) : quarters 4 v = v := by
  simp [quarters, quarter]

theorem quarters_four_mul (n : Nat) (v : Vec) : quarters (4 * n) v = v := by
  induction n with
  | zero => rfl
  | succ n ih => rw [Nat.mul_succ, quarters_add, ih, quarters_four]

theorem quarters_mod (n : Nat) (v : Vec) : quarters (n % 4) v = quarters n v := by
  conv => rhs; rw [← Nat.div_add_mod n 4, quarters_add, quarters_four_mul]

end Vec

open Vec

/-! ## C04 -/

/-- C04: what one, two and three quarter turns do to the coordinates, and that only the amount
modulo four matters. -/
theorem C04_rotate_meaning (v : Vec) (k : Int) :
    v.rotate (4 * k) = v ∧
    v.rotate (4 * k + 1) = ⟨v.y.neg, v.x⟩ ∧
    v.rotate (4 * k + 2) = ⟨v.x.neg, v.y.neg⟩ ∧
    v.rotate (4 * k + 3) = ⟨v.y, v.x.neg⟩ := by
  have h0 : (4 * k) % 4 = 0 := by omega
  have h1 : (4 * k + 1) % 4 = 1 := by omega
  have h2 : (4 * k + 2) % 4 = 2 := by omega
  have h3 : (4 * k + 3) % 4 = 3 := by omega
  refine ⟨?_, ?_, ?_, ?_⟩
  · simp [rotate, h0, quarters, copy]
  · simp [rotate, h1, quarters, quarter, copy]
  · simp [rotate, h2, quarters, quarter, copy]
  · simp [rotate, h3, quarters, quarter, copy]

/-- C04: rotations compose additively (so `rotate(-k)` undoes `rotate(k)`), for all integers. -/
theorem C04_rotate_compose (v : Vec) (j k : Int) :
    (v.rotate j).rotate k = v.rotate (j + k) ∧ (v.rotate k).rotate (-k) = v ∧ v.rotate 4 = v := by
  have comp : ∀ j k : Int, (v.rotate j).rotate k = v.rotate (j + k) := by
    intro j k
    simp only [rotate, copy]
    rw [← quarters_add, ← quarters_mod ((j % 4).toNat + (k % 4).toNat)]
    congr 1
    omega
  have four : v.rotate 4 = v := by simp [rotate, quarters, copy]
  refine ⟨comp j k, ?_, four⟩
  rw [comp, show k + -k = 0 by omega]
  simp [rotate, quarters, copy]

/-- C04: rotation is additive and preserves the squared length, and keeps int coordinates int. -/
theorem C04_rotate_linear (v w : Vec) (k : Int) :
    (v.addV w).rotate k = (v.rotate k).addV (w.rotate k) ∧
    (v.rotate k).x.val ^ 2 + (v.rotate k).y.val ^ 2 = v.x.val ^ 2 + v.y.val ^ 2 := by
  have hk : k % 4 = 0 ∨ k % 4 = 1 ∨ k % 4 = 2 ∨ k % 4 = 3 := by omega
  constructor
  · rcases hk with h | h | h | h <;> simp [rotate, h, quarters, quarter, copy, addV] <;>
      (try constructor) <;> apply Num.ext <;> simp <;> grind
  · rcases hk with h | h | h | h <;> simp [rotate, h, quarters, quarter, copy] <;> grind

example : (Vec.mk (.int 1) (.int 2)).rotate 1 = ⟨.int (-2), .int 1⟩ ∧
    (Vec.mk (.int 1) (.int 2)).rotate (-1) = ⟨.int 2, .int (-1)⟩ := by decide

/-! ## C05

`Operand.parts o` is the pair of numbers an operand stands for: the coordinates of a vector, the
members of a 2-tuple, or a scalar twice. -/

/-- Specification: the two numbers denoted by a supported operand. -/
def Operand.parts : Operand → Option (Num × Num)
  | .vec v => some (v.x, v.y)
  | .num n => some (n, n)
  | .tup [a, b] => some (a, b)
  | _ => none

/-- C05: `v + o`, `o + v`, `v - o`, `o - v`, `v * o`, `o * v` are componentwise. -/
theorem C05_componentwise (v : Vec) (o : Operand) (a b : Num) (h : o.parts = some (a, b)) :
    v.add o = .ok ⟨v.x.add a, v.y.add b⟩ ∧ v.radd o = .ok ⟨v.x.add a, v.y.add b⟩ ∧
    v.sub o = .ok ⟨v.x.sub a, v.y.sub b⟩ ∧ v.rsub o = .ok ⟨a.sub v.x, b.sub v.y⟩ ∧
    v.mul o = .ok ⟨v.x.mul a, v.y.mul b⟩ ∧ v.rmul o = .ok ⟨v.x.mul a, v.y.mul b⟩ := by
  match o, h with
  | .vec w, h => simp [Operand.parts] at h; obtain ⟨rfl, rfl⟩ := h; simp [add, radd, sub, rsub, mul, rmul, lift]
  | .num n, h => simp [Operand.parts] at h; obtain ⟨rfl, rfl⟩ := h; simp [add, radd, sub, rsub, mul, rmul, lift]
  | .tup [c, d], h => simp [Operand.parts] at h; obtain ⟨rfl, rfl⟩ := h; simp [add, radd, sub, rsub, mul, rmul, lift]

/-- C05: true division is componentwise and raises `ZeroDivisionError` iff a divisor is zero. -/
theorem C05_truediv (v : Vec) (o : Operand) (a b : Num) (h : o.parts = some (a, b)) :
    (a.val ≠ 0 → b.val ≠ 0 →
      v.truediv o = .ok ⟨.flt (v.x.val / a.val), .flt (v.y.val / b.val)⟩) ∧
    (a.val = 0 ∨ b.val = 0 → v.truediv o = .error .zeroDivisionError) ∧
    (v.x.val ≠ 0 → v.y.val ≠ 0 →
      v.rtruediv o = .ok ⟨.flt (a.val / v.x.val), .flt (b.val / v.y.val)⟩) ∧
    (v.x.val = 0 ∨ v.y.val = 0 → v.rtruediv o = .error .zeroDivisionError) := by
  have key : ∀ p q r s : Num,
      (q.val ≠ 0 → s.val ≠ 0 → (do return (⟨← p.truediv q, ← r.truediv s⟩ : Vec) : Except Exc Vec) =
        .ok ⟨.flt (p.val / q.val), .flt (r.val / s.val)⟩) ∧
      (q.val = 0 ∨ s.val = 0 → (do return (⟨← p.truediv q, ← r.truediv s⟩ : Vec) : Except Exc Vec) =
        .error .zeroDivisionError) := by
    intro p q r s
    constructor
    · intro hq hs; simp [Num.truediv, hq, hs]; rfl
    · intro h
      by_cases hq : q.val = 0
      · simp [Num.truediv, hq]; rfl
      · have hs : s.val = 0 := by simp_all
        simp [Num.truediv, hq, hs]; rfl
  match o, h with
  | .vec w, h =>
    simp [Operand.parts] at h; obtain ⟨rfl, rfl⟩ := h
    exact ⟨(key _ _ _ _).1, (key _ _ _ _).2, (key _ _ _ _).1, (key _ _ _ _).2⟩
  | .num n, h =>
    simp [Operand.parts] at h; obtain ⟨rfl, rfl⟩ := h
    exact ⟨(key _ _ _ _).1, (key _ _ _ _).2, (key _ _ _ _).1, (key _ _ _ _).2⟩
  | .tup [c, d], h =>
    simp [Operand.parts] at h; obtain ⟨rfl, rfl⟩ := h
    exact ⟨(key _ _ _ _).1, (key _ _ _ _).2, (key _ _ _ _).1, (key _ _ _ _).2⟩

/-- C05: tuples of another length raise `ValueError`, unsupported operand types `TypeError`. -/
theorem C05_rejects (v : Vec) (l : List Num) (hl : l.length ≠ 2) :
    (∀ f ∈ [add, radd, sub, rsub, mul, rmul, truediv, rtruediv, floordiv, rfloordiv, mod],
      f v (.tup l) = .error .valueError ∧ f v .other = .error .typeError) := by
  intro f hf
  match l, hl with
  | [], _ | [_], _ | _ :: _ :: _ :: _, _ =>
    simp only [List.mem_cons, List.not_mem_nil, or_false] at hf
    rcases hf with rfl | rfl | rfl | rfl | rfl | rfl | rfl | rfl | rfl | rfl | rfl <;>
      exact ⟨rfl, rfl⟩

/-- C05: `(v + w) - w == v` (exactly `v` when `w` has int coordinates). -/
theorem C05_add_sub_cancel (v w : Vec) :
    ((v.addV w).subV w).eqv v = true ∧ ((v.subV w).addV w).eqv v = true ∧
    (w.x.isInt = true → w.y.isInt = true →
      (v.addV w).subV w = v ∧ (v.subV w).addV w = v) := by
  refine ⟨?_, ?_, ?_⟩
  · simp [eqv, addV, subV, Num.eq_iff]
  · simp [eqv, addV, subV, Num.eq_iff]
  · intro hx hy
    constructor <;> apply ext' <;> apply Num.ext <;> simp [addV, subV, hx, hy]

/-- C05: addition is commutative and associative, `Vector(0, 0)` (ints) is neutral. -/
theorem C05_add_laws (u v w : Vec) :
    u.addV v = v.addV u ∧ (u.addV v).addV w = u.addV (v.addV w) ∧
    u.addV ⟨.int 0, .int 0⟩ = u ∧ u.subV ⟨.int 0, .int 0⟩ = u := by
  refine ⟨?_, ?_, ?_, ?_⟩ <;> apply ext' <;> apply Num.ext <;>
    simp [addV, subV] <;> grind [Num.isInt, Num.val]

example : (Vec.mk (.int 1) (.int 2)).add (.num (.int 1)) = .ok ⟨.int 2, .int 3⟩ := by decide
example : (Operand.tup [.int 1, .flt (1/2)]).parts = some (.int 1, .flt (1/2)) := rfl

/-! ## C06 -/

/-- C06: `v < w` iff both coordinates are smaller; `v > w` iff both are larger;
`v == w` iff both have equal value. -/
theorem C06_comparison_meaning (v : Vec) (o : Operand) (a b : Num)
    (h : o.parts = some (a, b)) (hn : ∀ n, o ≠ .num n) :
    v.ltOp o = .ok (decide (v.x.val < a.val ∧ v.y.val < b.val)) ∧
    v.gtOp o = .ok (decide (a.val < v.x.val ∧ b.val < v.y.val)) ∧
    v.eqOp o = .ok (decide (v.x.val = a.val ∧ v.y.val = b.val)) := by
  match o, h with
  | .vec w, h =>
    simp [Operand.parts] at h; obtain ⟨rfl, rfl⟩ := h
    simp [ltOp, gtOp, eqOp, Num.lt, Num.eq]
  | .num n, h => exact absurd rfl (hn n)
  | .tup [c, d], h =>
    simp [Operand.parts] at h; obtain ⟨rfl, rfl⟩ := h
    simp [ltOp, gtOp, eqOp, Num.lt, Num.eq]

/-- C06: comparing with an unsupported operand: `<`, `>` raise, `==` is `False`; tuples of another
length raise `ValueError`. -/
theorem C06_comparison_rejects (v : Vec) (n : Num) (l : List Num) (hl : l.length ≠ 2) :
    v.ltOp .other = .error .typeError ∧ v.gtOp .other = .error .typeError ∧
    v.eqOp .other = .ok false ∧
    v.ltOp (.num n) = .error .typeError ∧ v.gtOp (.num n) = .error .typeError ∧
    v.eqOp (.num n) = .ok false ∧
    v.ltOp (.tup l) = .error .valueError ∧ v.gtOp (.tup l) = .error .valueError ∧
    v.eqOp (.tup l) = .error .valueError := by
  match l, hl with
  | [], _ | [_], _ | _ :: _ :: _ :: _, _ => exact ⟨rfl, rfl, rfl, rfl, rfl, rfl, rfl, rfl, rfl⟩

/-- C06: strict partial order, dual operators, equivalence. -/
theorem C06_order_laws (u v w : Vec) :
    u.ltOp (.vec u) = .ok false ∧
    (u.ltOp (.vec v) = .ok true → v.ltOp (.vec u) = .ok false) ∧
    (u.ltOp (.vec v) = .ok true → v.ltOp (.vec w) = .ok true → u.ltOp (.vec w) = .ok true) ∧
    u.ltOp (.vec v) = v.gtOp (.vec u) ∧
    u.eqOp (.vec u) = .ok true ∧ u.eqOp (.vec v) = v.eqOp (.vec u) ∧
    (u.eqOp (.vec v) = .ok true → v.eqOp (.vec w) = .ok true → u.eqOp (.vec w) = .ok true) := by
  refine ⟨?_, ?_, ?_, ?_, ?_, ?_, ?_⟩
  · simp [ltOp, Num.lt]
  · simp [ltOp, Num.lt]; grind
  · simp [ltOp, Num.lt]; grind
  · simp [ltOp, gtOp]
  · simp [eqOp, Num.eq]
  · simp [eqOp, Num.eq, eq_comm]
  · simp [eqOp, Num.eq]; grind

/-- C06: the order is not total: neither smaller, larger nor equal. -/
theorem C06_not_total : ∃ v w : Vec, v.ltOp (.vec w) = .ok false ∧ v.gtOp (.vec w) = .ok false ∧
    v.eqOp (.vec w) = .ok false :=
  ⟨⟨.int 0, .int 1⟩, ⟨.int 1, .int 0⟩, by decide, by decide, by decide⟩

example : (Vec.mk (.int 1) (.flt 2)).eqOp (.vec ⟨.flt 1, .int 2⟩) = .ok true := by decide

/-! ## C07 -/

/-- C07: `floor`, `ceil` and `round` return int coordinates within the stated distance. -/
theorem C07_rounding (v : Vec) :
    ∃ fx fy cx cy rx ry : Int,
      v.floor = ⟨.int fx, .int fy⟩ ∧ v.ceil = ⟨.int cx, .int cy⟩ ∧ v.round = ⟨.int rx, .int ry⟩ ∧
      ((fx : Rat) ≤ v.x.val ∧ v.x.val < fx + 1) ∧ ((fy : Rat) ≤ v.y.val ∧ v.y.val < fy + 1) ∧
      ((cx : Rat) - 1 < v.x.val ∧ v.x.val ≤ cx) ∧ ((cy : Rat) - 1 < v.y.val ∧ v.y.val ≤ cy) ∧
      (v.x.val - 1/2 < rx ∧ (rx : Rat) ≤ v.x.val + 1/2) ∧
      (v.y.val - 1/2 < ry ∧ (ry : Rat) ≤ v.y.val + 1/2) := by
  refine ⟨_, _, _, _, _, _, rfl, rfl, rfl, ?_⟩
  have hf : ∀ a : Num, ((a.floor : Int) : Rat) ≤ a.val ∧ a.val < (a.floor : Int) + 1 := by
    intro a
    rw [Num.floor_eq]
    have h1 := Rat.floor_le a.val
    have h2 := Rat.lt_floor_add_one a.val
    exact ⟨h1, by simpa using h2⟩
  have hc : ∀ a : Num, ((a.ceil : Int) : Rat) - 1 < a.val ∧ a.val ≤ (a.ceil : Int) := by
    intro a
    rw [Num.ceil_eq]
    have h1 := Rat.le_ceil (x := a.val)
    have h2 := Rat.ceil_lt (x := a.val)
    constructor
    · grind
    · exact h1
  refine ⟨hf _, hf _, hc _, hc _, ?_, ?_⟩
  · have := hf (v.x.add (.flt (1/2))); simp at this; grind
  · have := hf (v.y.add (.flt (1/2))); simp at this; grind

/-- Specification: `q` and `r` are Python's quotient and remainder of `a` by `b`. -/
def IsDivMod (a b q r : Num) : Prop :=
  (∃ z : Int, q.val = z) ∧ q.val * b.val + r.val = a.val ∧
  (0 < b.val → 0 ≤ r.val ∧ r.val < b.val) ∧ (b.val < 0 → b.val < r.val ∧ r.val ≤ 0) ∧
  q.isInt = (a.isInt && b.isInt) ∧ r.isInt = (a.isInt && b.isInt)

/-- C07: `//` and `%` by non-zero divisors are componentwise quotient and remainder. -/
theorem C07_divmod (v : Vec) (o : Operand) (a b : Num) (h : o.parts = some (a, b))
    (ha : a.val ≠ 0) (hb : b.val ≠ 0) :
    ∃ q r : Vec, v.floordiv o = .ok q ∧ v.mod o = .ok r ∧
      IsDivMod v.x a q.x r.x ∧ IsDivMod v.y b q.y r.y := by
  obtain ⟨q1, r1, e1, f1, i1, j1, z1, m1, p1, n1⟩ := Num.divmod_spec v.x a ha
  obtain ⟨q2, r2, e2, f2, i2, j2, z2, m2, p2, n2⟩ := Num.divmod_spec v.y b hb
  refine ⟨⟨q1, q2⟩, ⟨r1, r2⟩, ?_, ?_, ⟨z1, m1, p1, n1, i1, j1⟩, ⟨z2, m2, p2, n2, i2, j2⟩⟩
  · match o, h with
    | .vec w, h => simp [Operand.parts] at h; obtain ⟨rfl, rfl⟩ := h; simp [floordiv, liftE, e1, e2]; rfl
    | .num n, h => simp [Operand.parts] at h; obtain ⟨rfl, rfl⟩ := h; simp [floordiv, liftE, e1, e2]; rfl
    | .tup [c, d], h => simp [Operand.parts] at h; obtain ⟨rfl, rfl⟩ := h; simp [floordiv, liftE, e1, e2]; rfl
  · match o, h with
    | .vec w, h => simp [Operand.parts] at h; obtain ⟨rfl, rfl⟩ := h; simp [mod, liftE, f1, f2]; rfl
    | .num n, h => simp [Operand.parts] at h; obtain ⟨rfl, rfl⟩ := h; simp [mod, liftE, f1, f2]; rfl
    | .tup [c, d], h => simp [Operand.parts] at h; obtain ⟨rfl, rfl⟩ := h; simp [mod, liftE, f1, f2]; rfl

/-- C07: the reflected forms `o // v` and, for int and tuple operands, `o % v`. -/
theorem C07_divmod_reflected (v : Vec) (o : Operand) (a b : Num) (h : o.parts = some (a, b))
    (hx : v.x.val ≠ 0) (hy : v.y.val ≠ 0) :
    ∃ q r : Vec, v.rfloordiv o = .ok q ∧
      (v.rmod o = .ok (some r) ∨ ∃ f, o = .num (.flt f)) ∧
      IsDivMod a v.x q.x r.x ∧ IsDivMod b v.y q.y r.y := by
  obtain ⟨q1, r1, e1, f1, i1, j1, z1, m1, p1, n1⟩ := Num.divmod_spec a v.x hx
  obtain ⟨q2, r2, e2, f2, i2, j2, z2, m2, p2, n2⟩ := Num.divmod_spec b v.y hy
  refine ⟨⟨q1, q2⟩, ⟨r1, r2⟩, ?_, ?_, ⟨z1, m1, p1, n1, i1, j1⟩, ⟨z2, m2, p2, n2, i2, j2⟩⟩
  · match o, h with
    | .vec w, h => simp [Operand.parts] at h; obtain ⟨rfl, rfl⟩ := h; simp [rfloordiv, floordiv, liftE, e1, e2]; rfl
    | .num n, h => simp [Operand.parts] at h; obtain ⟨rfl, rfl⟩ := h; simp [rfloordiv, e1, e2]; rfl
    | .tup [c, d], h => simp [Operand.parts] at h; obtain ⟨rfl, rfl⟩ := h; simp [rfloordiv, e1, e2]; rfl
  · match o, h with
    | .vec w, h => simp [Operand.parts] at h; obtain ⟨rfl, rfl⟩ := h; left; simp [rmod, mod, liftE, f1, f2]; rfl
    | .num (.int n), h => simp [Operand.parts] at h; obtain ⟨rfl, rfl⟩ := h; left; simp [rmod, f1, f2]; rfl
    | .num (.flt n), h => exact .inr ⟨n, rfl⟩
    | .tup [c, d], h => simp [Operand.parts] at h; obtain ⟨rfl, rfl⟩ := h; left; simp [rmod, f1, f2]; rfl

/-- C07: a zero divisor raises, whatever the other component. -/
theorem C07_divmod_zero (v : Vec) (o : Operand) (a b : Num) (h : o.parts = some (a, b))
    (h0 : a.val = 0 ∨ b.val = 0) :
    v.floordiv o = .error .zeroDivisionError ∧ v.mod o = .error .zeroDivisionError := by
  have key : ∀ (f : Num → Num → Except Exc Num),
      (∀ x y, y.val = 0 → f x y = .error .zeroDivisionError) →
      (∀ x y, y.val ≠ 0 → ∃ q, f x y = .ok q) →
      ∀ p q r s : Num, q.val = 0 ∨ s.val = 0 →
      (do return (⟨← f p q, ← f r s⟩ : Vec) : Except Exc Vec) = .error .zeroDivisionError := by
    intro f hz hn p q r s h
    by_cases hq : q.val = 0
    · rw [hz _ _ hq]; rfl
    · obtain ⟨x, hx⟩ := hn p q hq
      rw [hx, hz r s (h.resolve_left hq)]; rfl
  have k1 := key Num.floordiv (fun x y hy => if_pos hy) (fun x y hy => by
    obtain ⟨q, _, h, _⟩ := Num.divmod_spec x y hy; exact ⟨q, h⟩)
  have k2 := key Num.mod (fun x y hy => if_pos hy) (fun x y hy => by
    obtain ⟨_, r, _, h, _⟩ := Num.divmod_spec x y hy; exact ⟨r, h⟩)
  match o, h with
  | .vec w, h => simp [Operand.parts] at h; obtain ⟨rfl, rfl⟩ := h; exact ⟨k1 _ _ _ _ h0, k2 _ _ _ _ h0⟩
  | .num n, h => simp [Operand.parts] at h; obtain ⟨rfl, rfl⟩ := h; exact ⟨k1 _ _ _ _ h0, k2 _ _ _ _ h0⟩
  | .tup [c, d], h => simp [Operand.parts] at h; obtain ⟨rfl, rfl⟩ := h; exact ⟨k1 _ _ _ _ h0, k2 _ _ _ _ h0⟩

/-- C07: `float % vector` silently evaluates to `None` — even for a zero vector — and so does `%`
with any unsupported left operand. -/
theorem C07_rmod_float_none (v : Vec) (f : Rat) :
    v.rmod (.num (.flt f)) = .ok none ∧ v.rmod .other = .ok none := ⟨rfl, rfl⟩

example : (Vec.mk (.int 7) (.int (-7))).floordiv (.num (.int 2)) = .ok ⟨.int 3, .int (-4)⟩ ∧
    (Vec.mk (.int 7) (.int (-7))).mod (.num (.int 2)) = .ok ⟨.int 1, .int 1⟩ := by decide
example : (Vec.mk (.flt (-1/2)) (.flt (1/2))).round = ⟨.int 0, .int 1⟩ := by decide +kernel

end Verif
