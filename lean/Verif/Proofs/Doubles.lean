import Verif.Proofs.Floats
import Verif.Proofs.Round
/-!
# Rounding to 53 bits leaves numbers of 53 bits as they are
-/
set_option autoImplicit false

namespace Verif
open Spec

/-- A number of few bits is a whole multiple of the last place. -/
theorem ulp_dvd {q : Rat} {m : Int} {k : Nat} (hm : m.natAbs ≤ 2 ^ 53) (hq : q = (m : Rat) / ((2 ^ k : Nat) : Rat))
    {e : Int} (he : pow2 e ≤ |q|) : ∃ z : Int, q / pow2 (e - 52) = z := by
  rw [pow2_eq] at he ⊢
  have hk : q = (m : Rat) * (2 : Rat) ^ (-(k : Int)) := by
    rw [hq, zpow_neg, zpow_natCast]
    push_cast
    rfl
  have hz : q / (2 : Rat) ^ (e - 52) = m * (2 : Rat) ^ (52 - e - k) := by
    rw [hk, mul_div_assoc, ← zpow_sub₀ (by norm_num)]
    congr 2
    omega
  rw [hz]
  have habs : |q| = (m.natAbs : Rat) * (2 : Rat) ^ (-(k : Int)) := by
    rw [hk, abs_mul, abs_of_pos (zpow_pos (by norm_num : (0 : Rat) < 2) _)]
    congr 1
    rw [Nat.cast_natAbs, Int.cast_abs]
  have hle : (2 : Rat) ^ (e + k) ≤ m.natAbs := by
    rw [habs] at he
    rw [zpow_add₀ (by norm_num)]
    have hp : (0 : Rat) < (2 : Rat) ^ (k : Int) := zpow_pos (by norm_num) _
    calc (2 : Rat) ^ e * (2 : Rat) ^ (k : Int) ≤ ((m.natAbs : Rat) * (2 : Rat) ^ (-(k : Int))) * (2 : Rat) ^ (k : Int) :=
          mul_le_mul_of_nonneg_right he hp.le
      _ = m.natAbs := by
        rw [mul_assoc, ← zpow_add₀ (by norm_num)]
        simp
  have hm' : (m.natAbs : Rat) ≤ (2 : Rat) ^ (53 : Int) := by
    have : (m.natAbs : Rat) ≤ ((2 ^ 53 : Nat) : Rat) := by exact_mod_cast hm
    refine this.trans (le_of_eq ?_)
    norm_num
  have hek : e + k ≤ 53 := by
    have := hle.trans hm'
    exact (zpow_le_zpow_iff_right₀ (by norm_num)).1 this
  by_cases h52 : e + k ≤ 52
  · obtain ⟨n, hn⟩ := Int.eq_ofNat_of_zero_le (show 0 ≤ 52 - e - k by omega)
    refine ⟨m * 2 ^ n, ?_⟩
    rw [hn]
    push_cast
    rw [zpow_natCast]
  · have h53 : e + k = 53 := by omega
    rw [h53] at hle
    have heq : m.natAbs = 2 ^ 53 := by
      have := le_antisymm hm' hle
      have h' : (m.natAbs : Rat) = ((2 ^ 53 : Nat) : Rat) := by rw [this]; norm_num
      exact_mod_cast h'
    have : (52 - e - k : Int) = -1 := by omega
    rw [this]
    rcases Int.natAbs_eq m with h | h
    · refine ⟨2 ^ 52, ?_⟩
      rw [h, heq]
      norm_num
    · refine ⟨-2 ^ 52, ?_⟩
      rw [h, heq]
      norm_num

theorem nearestDouble_few {q : Rat} (h : FewBits q) : nearestDouble q = q := by
  obtain ⟨m, k, hm, hk, hq⟩ := h
  rcases eq_or_ne q 0 with rfl | h0
  · exact nearestDouble_zero
  · rw [nearestDouble_nonzero h0]
    have key : ∃ z : Int, q / pow2 (lastPlace |q|) = z := by
      by_cases hl : -1022 ≤ leading |q|
      · have : lastPlace |q| = leading |q| - 52 := by unfold lastPlace; omega
        rw [this]
        exact ulp_dvd hm hq (leading_le (abs_pos.2 h0))
      · have : lastPlace |q| = -1074 := by unfold lastPlace; omega
        rw [this, hq]
        refine ⟨m * 2 ^ (1074 - k), ?_⟩
        have e : pow2 (-1074) = 1 / (2 : Rat) ^ 1074 := by rw [pow2_eq, zpow_neg, one_div]; rfl
        have e2 : (2 : Rat) ^ 1074 = 2 ^ (1074 - k) * 2 ^ k := by rw [← pow_add]; congr 1; omega
        rw [e, e2]
        have : (2 : Rat) ^ k ≠ 0 := by positivity
        push_cast
        field_simp
    obtain ⟨z, hz⟩ := key
    rw [hz, halfEven_int, ← hz, div_mul_cancel₀]
    exact (pow2_pos _).ne'

end Verif
