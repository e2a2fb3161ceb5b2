import Verif.Props.LuaJson
import Verif.Props.LuaParse
import Verif.Proofs.LuaNumber
/-!
# Properties C58 and C73 with the numbers of Lua
-/
set_option autoImplicit false

namespace Verif
open Spec Lua Json

/-- C58: integers of up to 14 digits are written so that Python reads the same integer. -/
theorem C58_integer (f : FloatText) {z : Int} (h : |z| < 10 ^ 14) : NumText f (tostring (z : Rat)) (.int z) :=
  .inl ⟨z, tostring_int h, rfl⟩

/-- C58: of the floats that are not such integers, exactly those that have a decimal of 14 digits are written so that
Python reads the same float. -/
theorem C58_float_iff {q : Rat} (h : Binary64 q) (hz : ∀ z : Int, |z| < 10 ^ 14 → q ≠ z) :
    NumText pyFloats (tostring q) (.flt q) ↔ ∃ y, HasDigits 14 y ∧ ¬ TooLarge y ∧ Rounded y q := by
  rw [← value14_iff h]
  constructor
  · rintro (⟨z, -, e⟩ | ⟨-, p, hp, e⟩)
    · cases e
    · cases e
      have : (readDecimal (tostring q)).bind toDouble = some q := hp
      rwa [read_tostring, Option.bind_some] at this
  · intro hv
    rcases text_cases q with ⟨z, h1, -, h3⟩ | ⟨h1, h2, -⟩
    · rw [h3, toDouble_of_nearest (binary_int h1) (nearest_self (binary_int h1))] at hv
      exact absurd (Option.some.inj hv).symm (hz z h1)
    · refine .inr ⟨h1, q, ?_, rfl⟩
      show (readDecimal (tostring q)).bind toDouble = some q
      rw [h2, Option.bind_some]
      exact hv

/-- C58: … and Python reads some number of the same value for exactly the floats that have a decimal of 14 digits. -/
theorem C58_number_iff {q : Rat} (h : Binary64 q) :
    (∃ n : Num, n.val = q ∧ NumText pyFloats (tostring q) n) ↔ ∃ y, HasDigits 14 y ∧ ¬ TooLarge y ∧ Rounded y q := by
  constructor
  · rintro ⟨n, hn, ⟨z, hz, rfl⟩ | ⟨-, p, hp, rfl⟩⟩
    · have e := read_tostring q
      rw [hz, readDecimal_int] at e
      have e1 : value14 q = q := (Option.some.inj e).symm.trans hn
      have := value14_digits q
      rw [e1] at this
      exact ⟨q, this, binary_small h, rounded_self h⟩
    · have hq : p = q := hn
      subst hq
      rw [← value14_iff h]
      have : (readDecimal (tostring p)).bind toDouble = some p := hp
      rwa [read_tostring, Option.bind_some] at this
  · intro hy
    by_cases hz : ∃ z : Int, |z| < 10 ^ 14 ∧ q = z
    · obtain ⟨z, h1, rfl⟩ := hz
      exact ⟨.int z, rfl, C58_integer pyFloats h1⟩
    · exact ⟨.flt q, rfl, (C58_float_iff h (fun z h1 h2 => hz ⟨z, h1, h2⟩)).2 hy⟩

/-- C58 does not hold for numbers with more digits: a third comes back as another number. -/
theorem C58_third_false : ∃ q, Binary64 q ∧ loads pyFloats (tostring q) ≠ .ok (.flt q) ∧
    ∃ p, p ≠ q ∧ loads pyFloats (tostring q) = .ok (.flt p) :=
  ⟨6004799503160661 / 18014398509481984, ⟨6004799503160661, -54, by decide, by decide, by decide, by norm_num⟩,
    by decide +kernel, nearestDouble (33333333333333 / 100000000000000), by decide +kernel, by decide +kernel⟩

/-- C73: the gatherer reads its own text of a number as the same number for exactly the floats that have a decimal of 14
digits. -/
theorem C73_number_iff {q : Rat} (h : Binary64 q) :
    ExactNum tostring tonumber q ↔ ∃ y, HasDigits 14 y ∧ ¬ TooLarge y ∧ Rounded y q := by
  rw [← value14_iff h]
  unfold ExactNum tonumber
  rw [read_tostring, Option.bind_some]
  refine ⟨fun h => h.2, fun hv => ⟨?_, hv⟩⟩
  rcases text_cases q with ⟨z, -, h2, -⟩ | ⟨h1, -, -⟩
  · rw [h2]
    unfold Json.intText
    have hd : Digits (Nat.toDigits 10 z.natAbs) := ⟨Nat.toDigits_ne_nil, toDigits_digits _⟩
    split
    · exact ⟨['-'], _, [], [], by simp, .inr rfl, hd, .inl rfl, .inl rfl⟩
    · exact ⟨[], _, [], [], by simp, .inl rfl, hd, .inl rfl, .inl rfl⟩
  · exact numeral_of h1

/-! ### The hypotheses can be met -/

/-- `0.1`, `1e+14` and `7`. -/
example : ∀ q ∈ [nearestDouble (1 / 10), 10 ^ 14, 7], Binary64 q ∧ ∃ y, HasDigits 14 y ∧ ¬ TooLarge y ∧ Rounded y q := by
  have h : ∀ (y q : Rat) (d : Nat) (e : Int), toDouble y = some q → d < 10 ^ 14 → |y| = d * (10 : Rat) ^ e →
      Binary64 q ∧ ∃ y, HasDigits 14 y ∧ ¬ TooLarge y ∧ Rounded y q := by
    intro y q d e h1 h2 h3
    obtain ⟨h4, h5⟩ := (toDouble_some _ _).1 h1
    exact ⟨h5.1, y, ⟨d, e, h2, h3⟩, h4, h5⟩
  simp only [List.mem_cons, List.not_mem_nil, or_false, forall_eq_or_imp, forall_eq]
  exact ⟨h (1 / 10) _ 1 (-1) (by decide +kernel) (by decide) (by norm_num),
    h (10 ^ 14) _ 1 14 (by decide +kernel) (by decide) (by norm_num), h 7 _ 7 0 (by decide +kernel) (by decide) (by norm_num)⟩

example : tostring 7 = "7".toList ∧ tostring (nearestDouble (1 / 10)) = "0.1".toList ∧ tostring (10 ^ 14) = "1e+14".toList ∧
    tostring (-25 / 2) = "-12.5".toList ∧ tostring 123456789012345 = "1.2345678901234e+14".toList := by decide +kernel

example : |(-25 : Int)| < 10 ^ 14 := by decide

/-- `0.1` is no integer. -/
example : ∀ z : Int, |z| < 10 ^ 14 → nearestDouble (1 / 10) ≠ z := by
  intro z _ e
  have h1 : nearestDouble (1 / 10) < 1 := by decide +kernel
  have h2 : 0 < nearestDouble (1 / 10) := by decide +kernel
  rw [e] at h1 h2
  have h3 : z < 1 := by exact_mod_cast h1
  have h4 : 0 < z := by exact_mod_cast h2
  omega

end Verif
