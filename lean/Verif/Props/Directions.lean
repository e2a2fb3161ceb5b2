import Verif.Model.Direction
/-!
# Properties C01, C02, C03: `Direction`
-/
set_option autoImplicit false

namespace Verif
open Direction

/-- Every way of obtaining a `Direction` in the library goes through `Direction(n)`. -/
def Direction.Valid (d : Direction) : Prop := 0 ≤ d.n ∧ d.n < 8

instance (d : Direction) : Decidable d.Valid := inferInstanceAs (Decidable (_ ∧ _))

theorem Direction.ext {a b : Direction} (h : a.n = b.n) : a = b := by
  cases a; cases b; simp_all

/-! ## C01 -/

/-- C01: `Direction(n)` is the number in `0..7` that differs from `n` by a multiple of eight. -/
theorem C01_direction_new (n : Int) :
    (Direction.new n).Valid ∧ ∃ k : Int, n = 8 * k + (Direction.new n).n := by
  refine ⟨⟨?_, ?_⟩, n / 8, ?_⟩ <;> simp only [Direction.new] <;> omega

/-- C01: the only `Direction` congruent to `n`. -/
theorem C01_direction_new_unique (n : Int) (d : Direction) (hd : d.Valid) (k : Int)
    (h : n = 8 * k + d.n) : Direction.new n = d := by
  apply Direction.ext
  obtain ⟨h0, h8⟩ := hd
  simp only [Direction.new]
  omega

/-- C01: addition and subtraction of directions are addition and subtraction modulo eight. -/
theorem C01_direction_add_sub (m n : Int) :
    (Direction.new m).add (Direction.new n).n = Direction.new (m + n) ∧
    (Direction.new m).sub (Direction.new n).n = Direction.new (m - n) := by
  constructor <;> apply Direction.ext <;> simp only [add, sub, Direction.new] <;> omega

/-- C01: group laws on valid directions. -/
theorem C01_direction_group (a b c : Direction) (ha : a.Valid) (hb : b.Valid) :
    (a.add b.n).Valid ∧ (a.sub b.n).Valid ∧
    a.add b.n = b.add a.n ∧
    (a.add b.n).add c.n = a.add (b.add c.n).n ∧
    (a.add b.n).sub b.n = a ∧ (a.sub b.n).add b.n = a ∧ a.add up.n = a := by
  obtain ⟨h0, h8⟩ := ha
  obtain ⟨k0, k8⟩ := hb
  refine ⟨⟨?_, ?_⟩, ⟨?_, ?_⟩, ?_, ?_, ?_, ?_, ?_⟩ <;>
    first
      | (apply Direction.ext; simp only [add, sub, up, Direction.new]; omega)
      | (simp only [add, sub, Direction.new]; omega)

example : (Direction.new (-1)).n = 7 ∧ (Direction.new 8).n = 0 ∧
    ((Direction.new 3).add (Direction.new 7).n).n = 2 := by decide
example : ∃ a b : Direction, a.Valid ∧ b.Valid ∧ a ≠ b :=
  ⟨⟨3⟩, ⟨7⟩, by decide, by decide, by decide⟩

/-! ## C02 -/

/-- C02: a clockwise quarter turn adds two eighths; the result is a valid direction. -/
theorem C02_rotate_meaning (d : Direction) (k : Int) :
    d.rotate k = Direction.new (d.n + 2 * k) ∧ d.rotate45 k = Direction.new (d.n + k) ∧
    d.rotate k COUNTER_CLOCKWISE = Direction.new (d.n - 2 * k) ∧
    d.rotate45 k COUNTER_CLOCKWISE = Direction.new (d.n - k) := by
  refine ⟨?_, ?_, ?_, ?_⟩ <;> apply Direction.ext <;>
    simp [rotate, rotate45, add, Direction.new, CLOCKWISE, COUNTER_CLOCKWISE] <;> omega

/-- C02: any `direction` argument other than `CLOCKWISE` means counter-clockwise. -/
theorem C02_rotate_other_flag (d : Direction) (k t : Int) (ht : t ≠ CLOCKWISE) :
    d.rotate k t = d.rotate k COUNTER_CLOCKWISE ∧
    d.rotate45 k t = d.rotate45 k COUNTER_CLOCKWISE := by
  have h1 : COUNTER_CLOCKWISE ≠ CLOCKWISE := by decide
  simp [rotate, rotate45, ht, h1]

/-- C02: counter-clockwise undoes clockwise and vice versa. -/
theorem C02_rotate_inverse (d : Direction) (hd : d.Valid) (k : Int) :
    (d.rotate k).rotate k COUNTER_CLOCKWISE = d ∧
    (d.rotate k COUNTER_CLOCKWISE).rotate k = d ∧
    (d.rotate45 k).rotate45 k COUNTER_CLOCKWISE = d ∧
    (d.rotate45 k COUNTER_CLOCKWISE).rotate45 k = d := by
  obtain ⟨h0, h8⟩ := hd
  refine ⟨?_, ?_, ?_, ?_⟩ <;> apply Direction.ext <;>
    simp [rotate, rotate45, add, Direction.new, CLOCKWISE, COUNTER_CLOCKWISE] <;> omega

/-- C02: turns compose additively, also with negative amounts. -/
theorem C02_rotate_compose (d : Direction) (j k : Int) :
    (d.rotate j).rotate k = d.rotate (j + k) ∧
    (d.rotate45 j).rotate45 k = d.rotate45 (j + k) ∧
    d.rotate45 (2 * k) = d.rotate k := by
  refine ⟨?_, ?_, ?_⟩ <;> apply Direction.ext <;>
    simp [rotate, rotate45, add, Direction.new, CLOCKWISE] <;> omega

/-- C02: full turns are the identity, and nothing smaller is. -/
theorem C02_rotate_full_turn (d : Direction) (hd : d.Valid) (k : Int) :
    (d.rotate k = d ↔ k % 4 = 0) ∧ (d.rotate45 k = d ↔ k % 8 = 0) := by
  obtain ⟨h0, h8⟩ := hd
  constructor <;> constructor <;> intro h
  · have := congrArg Direction.n h
    simp [rotate, add, Direction.new, CLOCKWISE] at this; omega
  · apply Direction.ext; simp [rotate, add, Direction.new, CLOCKWISE]; omega
  · have := congrArg Direction.n h
    simp [rotate45, add, Direction.new, CLOCKWISE] at this; omega
  · apply Direction.ext; simp [rotate45, add, Direction.new, CLOCKWISE]; omega

/-- C02: turning preserves validity. -/
theorem C02_rotate_valid (d : Direction) (k t : Int) :
    (d.rotate k t).Valid ∧ (d.rotate45 k t).Valid := by
  constructor <;> constructor <;> simp only [rotate, rotate45, Direction.new] <;> omega

example : ((Direction.new 2).rotate 6 COUNTER_CLOCKWISE).isLeft ∧
    ((Direction.new 6).rotate45 2).isUp := by decide

/-! ## C03 -/

theorem Direction.valid_cases {d : Direction} (hd : d.Valid) :
    d = ⟨0⟩ ∨ d = ⟨1⟩ ∨ d = ⟨2⟩ ∨ d = ⟨3⟩ ∨ d = ⟨4⟩ ∨ d = ⟨5⟩ ∨ d = ⟨6⟩ ∨ d = ⟨7⟩ := by
  obtain ⟨h0, h8⟩ := hd
  obtain ⟨n⟩ := d
  simp only [Direction.mk.injEq] at *
  omega

theorem Direction.rotate_mod4 (d : Direction) (k : Int) : d.rotate k = d.rotate (k % 4) := by
  apply Direction.ext; simp [Direction.rotate, add, Direction.new, CLOCKWISE]; omega

theorem Vec.rotate_mod4 (v : Vec) (k : Int) : v.rotate k = v.rotate (k % 4) := by
  simp [Vec.rotate]

theorem Direction.mod4_cases (k : Int) : k % 4 = 0 ∨ k % 4 = 1 ∨ k % 4 = 2 ∨ k % 4 = 3 := by omega

/-- C03: every valid direction has a step vector, and turning the direction by `k` quarter turns
turns its step vector by `k` quarter turns. -/
theorem C03_vector_rotates (d : Direction) (hd : d.Valid) (k : Int) :
    ∃ v, d.vector = some v ∧ (d.rotate k).vector = some (v.rotate k) := by
  rw [Direction.rotate_mod4]
  rcases Direction.valid_cases hd with h | h | h | h | h | h | h | h <;> subst h <;>
    rcases Direction.mod4_cases k with hk | hk | hk | hk <;>
    (refine ⟨_, rfl, ?_⟩; rw [Vec.rotate_mod4, hk]; decide)

/-- C03: the eight step vectors are different, non-zero, have coordinates in `{-1,0,1}`, and the
opposite direction has the opposite vector. -/
theorem C03_vector_distinct (d e : Direction) (hd : d.Valid) (he : e.Valid)
    (h : d.vector = e.vector) : d = e := by
  rcases Direction.valid_cases hd with h1 | h1 | h1 | h1 | h1 | h1 | h1 | h1 <;> subst h1 <;>
  rcases Direction.valid_cases he with h2 | h2 | h2 | h2 | h2 | h2 | h2 | h2 <;> subst h2 <;>
    first | rfl | (revert h; decide)

theorem C03_vector_unit (d : Direction) (hd : d.Valid) :
    ∃ x y : Int, d.vector = some ⟨.int x, .int y⟩ ∧ (x, y) ≠ (0, 0) ∧
      -1 ≤ x ∧ x ≤ 1 ∧ -1 ≤ y ∧ y ≤ 1 ∧
      (d.rotate 2).vector = some ⟨.int (-x), .int (-y)⟩ := by
  rcases Direction.valid_cases hd with h1 | h1 | h1 | h1 | h1 | h1 | h1 | h1 <;> subst h1 <;>
    exact ⟨_, _, rfl, by decide, by decide, by decide, by decide, by decide, by decide⟩

/-- C03: up is towards negative `y`, right towards positive `x` (Factorio's screen coordinates). -/
theorem C03_vector_named :
    up.vector = some ⟨.int 0, .int (-1)⟩ ∧ right.vector = some ⟨.int 1, .int 0⟩ ∧
    down.vector = some ⟨.int 0, .int 1⟩ ∧ left.vector = some ⟨.int (-1), .int 0⟩ := by decide

/-- C03: `is_up`, `is_right`, `is_down` and `is_left` say where the step vector points. -/
theorem C03_predicates (d : Direction) :
    (d.isUp = true ↔ d.vector = some ⟨.int 0, .int (-1)⟩) ∧ (d.isRight = true ↔ d.vector = some ⟨.int 1, .int 0⟩) ∧
    (d.isDown = true ↔ d.vector = some ⟨.int 0, .int 1⟩) ∧ (d.isLeft = true ↔ d.vector = some ⟨.int (-1), .int 0⟩) := by
  unfold isUp isRight isDown isLeft
  by_cases hd : d.Valid
  · rcases Direction.valid_cases hd with h | h | h | h | h | h | h | h <;> subst h <;> decide
  · have hn : ∀ k : Int, 0 ≤ k → k < 8 → d.n ≠ k := fun k h0 h8 h => hd ⟨by omega, by omega⟩
    have h0 := hn 0 (by decide) (by decide)
    have h1 := hn 1 (by decide) (by decide)
    have h2 := hn 2 (by decide) (by decide)
    have h3 := hn 3 (by decide) (by decide)
    have h4 := hn 4 (by decide) (by decide)
    have h5 := hn 5 (by decide) (by decide)
    have h6 := hn 6 (by decide) (by decide)
    have h7 := hn 7 (by decide) (by decide)
    simp [vector, h0, h1, h2, h3, h4, h5, h6, h7]

example : (Direction.new 13).Valid := by decide

end Verif
