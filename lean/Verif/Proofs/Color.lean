import Verif.Spec.Color
/-!
# Helper lemmas: colour components
-/
set_option autoImplicit false

namespace Verif
namespace Color

theorem clamp_eq (v : Num) :
    clamp v = if v.val < 0 then .int 0 else if v.val < 1 then v else .int 1 := by
  unfold clamp
  by_cases h1 : v.val < 1
  · by_cases h0 : v.val < 0 <;> simp [Num.lt, h1, h0]
  · have h0 : ¬ v.val < 0 := by grind
    simp [Num.lt, h1, h0]; decide +kernel

theorem clamp_val (v : Num) : (clamp v).val = nearest v.val := by
  rw [clamp_eq]; unfold nearest
  split
  · simp
  · split
    · grind
    · simp; grind

theorem clamp_range (v : Num) : 0 ≤ (clamp v).val ∧ (clamp v).val ≤ 1 := by
  rw [clamp_val]; unfold nearest; grind

theorem clamp_clamp (v : Num) : clamp (clamp v) = clamp v := by
  have h := clamp_range v
  by_cases h1 : (clamp v).val < 1
  · rw [clamp_eq (clamp v), if_neg (by grind), if_pos h1]
  · rw [clamp_eq (clamp v), if_neg (by grind), if_neg h1]
    rw [clamp_eq] at h1 ⊢
    split
    · next h => simp [h] at h1; exact absurd (by decide +kernel) h1
    · split
      · next h2 h3 => simp [h2, h3] at h1
      · rfl

end Color
end Verif
