import Verif.Py.Num
import Mathlib.Tactic.Push
import Mathlib.Algebra.Order.Field.Basic
import Mathlib.Data.Rat.Cast.Order
/-!
# Helper lemmas: Python `//` and `%` on numbers
-/
set_option autoImplicit false

namespace Verif
namespace Num

theorem divmod_spec (a b : Num) (hb : b.val ≠ 0) :
    ∃ q r : Num, a.floordiv b = .ok q ∧ a.mod b = .ok r ∧
      q.isInt = (a.isInt && b.isInt) ∧ r.isInt = (a.isInt && b.isInt) ∧
      (∃ z : Int, q.val = z) ∧ q.val * b.val + r.val = a.val ∧
      (0 < b.val → 0 ≤ r.val ∧ r.val < b.val) ∧ (b.val < 0 → b.val < r.val ∧ r.val ≤ 0) := by
  have real : ∀ x y : Rat, y ≠ 0 →
      (∃ z : Int, ((x / y).floor : Rat) = z) ∧
      ((x / y).floor : Rat) * y + (x - y * ((x / y).floor : Int)) = x ∧
      (0 < y → 0 ≤ x - y * ((x / y).floor : Int) ∧ x - y * ((x / y).floor : Int) < y) ∧
      (y < 0 → y < x - y * ((x / y).floor : Int) ∧ x - y * ((x / y).floor : Int) ≤ 0) := by
    intro x y hy
    have e : x = y * (x / y) := by rw [mul_comm]; exact (Rat.div_mul_cancel hy).symm
    have h1 : ((x / y).floor : Rat) ≤ x / y := Rat.floor_le _
    have h2 : x / y - 1 < ((x / y).floor : Rat) := Rat.lt_floor
    refine ⟨⟨_, rfl⟩, by grind, ?_, ?_⟩
    · intro hp
      have t := mul_le_mul_of_nonneg_left h1 hp.le
      have u := mul_lt_mul_of_pos_left h2 hp
      rw [← e] at t
      rw [mul_sub, ← e, mul_one] at u
      constructor <;> grind
    · intro hn
      have t := mul_le_mul_of_nonpos_left h1 hn.le
      have u := mul_lt_mul_of_neg_left h2 hn
      rw [← e] at t
      rw [mul_sub, ← e, mul_one] at u
      constructor <;> grind
  match a, b, hb with
  | int x, int y, hb =>
    have hy : y ≠ 0 := by intro h; apply hb; simp [h]
    refine ⟨int (x.fdiv y), int (x.fmod y), ?_, ?_, rfl, rfl, ⟨_, rfl⟩, ?_, ?_, ?_⟩
    · simp [floordiv, hy]
    · simp [mod, hy]
    · have h := Int.mul_fdiv_add_fmod x y
      have : ((y * x.fdiv y + x.fmod y : Int) : Rat) = (x : Rat) := by rw [h]
      simp only [val_int]
      push_cast at this
      rw [mul_comm]; exact this
    · intro hp
      simp only [val_int] at hp ⊢
      have hp' : 0 < y := by exact_mod_cast hp
      exact ⟨by exact_mod_cast Int.fmod_nonneg_of_pos x hp', by exact_mod_cast Int.fmod_lt_of_pos x hp'⟩
    · intro hn
      simp only [val_int] at hn ⊢
      have hn' : y < 0 := by exact_mod_cast hn
      have h1 := Int.fmod_nonneg_of_pos (-x) (b := -y) (by omega)
      have h2 := Int.fmod_lt_of_pos (-x) (b := -y) (by omega)
      rw [Int.neg_fmod_neg] at h1 h2
      exact ⟨by exact_mod_cast (by omega : y < x.fmod y), by exact_mod_cast (by omega : x.fmod y ≤ 0)⟩
  | int x, flt y, hb =>
    exact ⟨_, _, if_neg hb, if_neg hb, rfl, rfl, real _ _ hb⟩
  | flt x, int y, hb =>
    exact ⟨_, _, if_neg hb, if_neg hb, rfl, rfl, real _ _ hb⟩
  | flt x, flt y, hb =>
    exact ⟨_, _, if_neg hb, if_neg hb, rfl, rfl, real _ _ hb⟩

end Num
end Verif
