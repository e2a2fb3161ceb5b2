import Verif.Proofs.Shortest
import Verif.Model.LuaNumber
import Verif.Spec.LuaParse
/-!
# Helper lemmas: which numbers keep their value in the text that Lua writes
-/
set_option autoImplicit false

namespace Verif.Lua
open Spec

theorem halfEven_half (x : Rat) : |(halfEven x : Rat) - x| ≤ 1 / 2 := by
  have f1 : (x.floor : Rat) ≤ x := Rat.floor_le x
  have f2 : x < x.floor + 1 := by
    have := Rat.lt_floor_add_one x
    push_cast at this
    exact this
  unfold halfEven
  dsimp only
  split
  · rw [abs_of_nonpos (by linarith)]; linarith
  · split
    · push_cast
      rw [abs_of_nonneg (by linarith)]; linarith
    · split
      · rw [abs_of_nonpos (by linarith)]; linarith
      · push_cast
        rw [abs_of_nonneg (by linarith)]; linarith

theorem floor_shift (x : Rat) (k : Int) : (x + k).floor = x.floor + k := by
  apply le_antisymm
  · have : (((x + k).floor - k : Int) : Rat) ≤ x := by
      have := Rat.floor_le (x + k)
      push_cast
      linarith
    have := Rat.le_floor_iff.2 this
    omega
  · apply Rat.le_floor_iff.2
    have := Rat.floor_le x
    push_cast
    linarith

theorem halfEven_shift (x : Rat) (k : Int) : halfEven (x + ((2 * k : Int) : Rat)) = halfEven x + 2 * k := by
  unfold halfEven
  dsimp only
  rw [floor_shift]
  have e : x + ((2 * k : Int) : Rat) - ((x.floor + 2 * k : Int) : Rat) = x - x.floor := by push_cast; ring
  rw [e]
  have e2 : (x.floor + 2 * k) % 2 = x.floor % 2 := by omega
  rw [e2]
  split
  · rfl
  · split
    · ring
    · split
      · rfl
      · ring

/-- A number is at most half of the last place away from its float. -/
theorem near_place {y q : Rat} (h : Binary64 q) (hq : 0 < q) (hy : toDouble y = some q) :
    |y - q| ≤ pow2 (lastPlace q) / 2 := by
  have hy0 := toDouble_pos hy hq
  have hn := toDouble_nearest hy
  rw [nearestDouble_nonzero hy0.ne', abs_of_pos hy0] at hn
  obtain ⟨m, hm, hm0, h53, h52, -⟩ := float_units h hq
  have hle : lastPlace y ≤ lastPlace q := by
    rcases le_or_gt y q with h1 | h1
    · exact lastPlace_mono hy0 h1
    · by_contra hgt
      rw [not_le] at hgt
      have hge := lastPlace_ge q
      have hlo := lastPlace_lo hy0 (by omega)
      have h1 : ((2 ^ 52 : Int) : Rat) * pow2 (lastPlace y) ≤ q := by
        have := roundAt_lo hlo
        rwa [hn] at this
      have h2 := lastPlace_hi hq
      rw [← pow2_split] at h1 h2
      have h3 : pow2 (lastPlace q + (53 : Nat)) ≤ pow2 (lastPlace y + (52 : Nat)) := pow2_mono (by push_cast; omega)
      linarith
  have hp := pow2_pos (lastPlace y)
  have hh := halfEven_half (y / pow2 (lastPlace y))
  have e : y - q = -(((halfEven (y / pow2 (lastPlace y)) : Int) : Rat) - y / pow2 (lastPlace y)) * pow2 (lastPlace y) := by
    rw [← hn]
    field_simp
    ring
  have hmono := pow2_mono hle
  rw [e, abs_mul, abs_neg, abs_of_pos hp]
  nlinarith

/-- The floats beside a float below `2 ^ -1021` are equally far away. -/
theorem reflect {y q : Rat} (h : Binary64 q) (hq : 0 < q) (hy : toDouble y = some q) (hl : lastPlace q = -1074) :
    toDouble (2 * q - y) = some q := by
  have hy0 := toDouble_pos hy hq
  have hn := toDouble_nearest hy
  have hnear := near_place h hq hy
  rw [hl] at hnear
  obtain ⟨m, hm, hm0, h53, -, -⟩ := float_units h hq
  rw [hl] at hm
  have hu := pow2_pos (-1074)
  have hm1 : (1 : Rat) ≤ m := by exact_mod_cast hm0
  have hm2 : (m : Rat) ≤ ((2 ^ 53 - 1 : Int) : Rat) := by exact_mod_cast (show m ≤ 2 ^ 53 - 1 by omega)
  have place : ∀ z : Rat, |z - q| ≤ pow2 (-1074) / 2 → 0 < z ∧ lastPlace z = -1074 := by
    intro z hz
    obtain ⟨z1, z2⟩ := abs_le.1 hz
    have hz0 : 0 < z := by
      have : pow2 (-1074) ≤ q := by rw [hm]; nlinarith
      linarith
    refine ⟨hz0, ?_⟩
    by_contra hne
    have hge := lastPlace_ge z
    have hlo := lastPlace_lo hz0 (by omega)
    rw [← pow2_split] at hlo
    have h3 : pow2 (-1074 + (53 : Nat)) ≤ pow2 (lastPlace z + (52 : Nat)) := pow2_mono (by push_cast; omega)
    have h4 := h3.trans hlo
    rw [pow2_split] at h4
    have h5 : q ≤ ((2 ^ 53 - 1 : Int) : Rat) * pow2 (-1074) := by
      rw [hm]; exact mul_le_mul_of_nonneg_right hm2 hu.le
    generalize pow2 (-1074) = u at *
    push_cast at h4 h5
    linarith
  obtain ⟨-, ly⟩ := place y hnear
  have e2 : 2 * q - y - q = -(y - q) := by ring
  obtain ⟨hz0, lz⟩ := place (2 * q - y) (by rw [e2, abs_neg]; exact hnear)
  refine toDouble_of_nearest h ?_
  rw [nearestDouble_nonzero hy0.ne', abs_of_pos hy0, ly] at hn
  rw [nearestDouble_nonzero hz0.ne', abs_of_pos hz0, lz]
  generalize pow2 (-1074) = u at *
  have hc : halfEven (y / u) = m := by
    have : ((halfEven (y / u) : Int) : Rat) = (m : Rat) := mul_right_cancel₀ hu.ne' (hn.trans hm)
    exact_mod_cast this
  have hd : (2 * q - y) / u = -(y / u + ((2 * -m : Int) : Rat)) := by
    rw [hm]
    field_simp
    push_cast
    ring
  rw [hd, halfEven_neg, halfEven_shift, hc, show -(m + 2 * -m) = m by ring]
  exact hm.symm

theorem hasDigits_of {c n : Nat} (hn : n ≠ 0) (hc : c ≤ 10 ^ n) (e : Int) : HasDigits n ((c : Rat) * pow10 e) := by
  have hu := pow10_pos e
  rw [HasDigits, abs_of_nonneg (mul_nonneg (by positivity) hu.le)]
  rcases Nat.lt_or_ge c (10 ^ n) with h | h
  · exact ⟨c, _, h, by rw [pow10_eq]⟩
  · have : c = 10 ^ n := by omega
    refine ⟨1, n + e, Nat.one_lt_pow hn (by decide), ?_⟩
    rw [this, pow10_eq, zpow_add₀ (by norm_num), zpow_natCast]
    push_cast
    ring

/-- The number that the text shows. -/
def shown (q : Rat) : Rat := (digits14 q : Rat) * pow10 (leading10 q - 13)

theorem unit14 (e : Int) : pow10 (e - 13) = pow10 (e + 1 - (14 : Nat)) := by
  have : e - 13 = e + 1 - (14 : Nat) := by push_cast; ring
  rw [this]

theorem top14 (e : Int) : pow10 (e + 1) = 10 ^ 14 * pow10 (e + 1 - (14 : Nat)) := by
  have : e + 1 = ((14 : Nat) : Int) + (e + 1 - (14 : Nat)) := by ring
  conv_lhs => rw [this, pow10_eq, zpow_add₀ (by norm_num), zpow_natCast]
  rw [pow10_eq]

theorem digits14_cases {q : Rat} (hq : 0 < q) :
    let t := pow10 (leading10 q + 1 - (14 : Nat))
    let f := (q / t).floor.toNat
    (digits14 q = f ∧ q - f * t ≤ t / 2) ∨ (digits14 q = f + 1 ∧ ((f + 1 : Nat) : Rat) * t - q ≤ t / 2) := by
  intro t f
  have ht : pow10 (leading10 q - 13) = t := unit14 _
  have hu : 0 < t := pow10_pos _
  have f0 : 0 ≤ (q / t).floor := by
    have := Rat.floor_monotone (div_pos hq hu).le
    rwa [show Rat.floor 0 = 0 by decide +kernel] at this
  have fi : ((f : Nat) : Int) = (q / t).floor := Int.toNat_of_nonneg f0
  have fc : ((f : Nat) : Rat) = ((q / t).floor : Rat) := by exact_mod_cast congrArg (Int.cast (R := Rat)) fi
  have half := halfEven_half (q / t)
  have e0 : q = q / t * t := by field_simp
  have hcase : halfEven (q / t) = (f : Int) ∨ halfEven (q / t) = (f : Int) + 1 := by
    rw [fi]
    unfold halfEven
    dsimp only
    split
    · exact .inl rfl
    · split
      · exact .inr rfl
      · split
        · exact .inl rfl
        · exact .inr rfl
  unfold digits14
  rw [ht]
  rcases hcase with h | h
  · left
    rw [h] at half ⊢
    refine ⟨by simp, ?_⟩
    have h1 := (abs_le.1 half).1
    push_cast at h1
    generalize q / t = x at *
    rw [e0]
    nlinarith
  · right
    rw [h] at half ⊢
    refine ⟨by omega, ?_⟩
    have h1 := (abs_le.1 half).2
    push_cast at h1 ⊢
    generalize q / t = x at *
    rw [e0]
    nlinarith

theorem shown_digits {q : Rat} (hq : 0 < q) : HasDigits 14 (shown q) := by
  obtain ⟨-, -, hc, -⟩ := grid hq 14 (by decide)
  refine hasDigits_of (by decide) ?_ _
  rcases digits14_cases hq with ⟨h, -⟩ | ⟨h, -⟩ <;> rw [h]
  · exact hc.le
  · exact hc

/-- A float that has a decimal of 14 digits is the float of the number shown. -/
theorem shown_exact {y q : Rat} (h : Binary64 q) (hq : 0 < q) (hd : HasDigits 14 y) (hy : toDouble y = some q) :
    toDouble (shown q) = some q := by
  obtain ⟨f1, f2, -, f4⟩ := grid hq 14 (by decide)
  have hcase := digits14_cases hq
  have hyp := f4 y hd (toDouble_pos hy hq)
  have hnear := near_place h hq hy
  obtain ⟨m, hm, hm0, h53, h52, -⟩ := float_units h hq
  have ht := unit14 (leading10 q)
  have htop : q < 10 ^ 14 * pow10 (leading10 q + 1 - (14 : Nat)) := by
    rw [← top14]
    exact (leading10_bounds hq).2
  have hu := pow10_pos (leading10 q + 1 - (14 : Nat))
  unfold shown
  rw [ht]
  dsimp only at *
  generalize pow10 (leading10 q + 1 - (14 : Nat)) = t at *
  generalize (q / t).floor.toNat = f at *
  -- the decimal on the side of `y`
  have low : y ≤ (f : Rat) * t → toDouble ((f : Rat) * t) = some q := fun h1 => toDouble_between h hy (.inl ⟨h1, f1⟩)
  have high : ((f + 1 : Nat) : Rat) * t ≤ y → toDouble (((f + 1 : Nat) : Rat) * t) = some q := fun h1 =>
    toDouble_between h hy (.inr ⟨f2.le, h1⟩)
  have e1 : ((f + 1 : Nat) : Rat) * t = (f : Rat) * t + t := by push_cast; ring
  by_cases hl : lastPlace q = -1074
  · have hr := reflect h hq hy hl
    rcases hcase with ⟨c1, c2⟩ | ⟨c1, c2⟩ <;> rw [c1]
    · rcases hyp with h1 | h1
      · exact low h1
      · refine toDouble_between h hr (.inl ⟨?_, f1⟩)
        rw [e1] at h1
        linarith
    · rcases hyp with h1 | h1
      · refine toDouble_between h hr (.inr ⟨f2.le, ?_⟩)
        rw [e1] at c2 ⊢
        linarith
      · exact high h1
  · have hge := lastPlace_ge q
    have hm52 := h52 (by omega)
    have hp := pow2_pos (lastPlace q)
    have hs : pow2 (lastPlace q) < t := by
      have h1 : ((2 ^ 52 : Int) : Rat) * pow2 (lastPlace q) ≤ q := by
        refine le_trans ?_ hm.ge
        exact mul_le_mul_of_nonneg_right (by exact_mod_cast hm52) hp.le
      generalize pow2 (lastPlace q) = u at *
      norm_num at h1 htop
      linarith
    obtain ⟨n1, n2⟩ := abs_le.1 hnear
    rcases hcase with ⟨c1, c2⟩ | ⟨c1, c2⟩ <;> rw [c1]
    · rcases hyp with h1 | h1
      · exact low h1
      · rw [e1] at h1
        linarith
    · rcases hyp with h1 | h1
      · rw [e1] at c2
        linarith
      · exact high h1

/-! ## The text -/

theorem leading_value {l : List Char} (h : Leading l) :
    10 ^ (l.length - 1) ≤ Nat.ofDigitChars 10 l 0 ∧ Nat.ofDigitChars 10 l 0 < 10 ^ l.length ∧
    Nat.toDigits 10 (Nat.ofDigitChars 10 l 0) = l := by
  induction l using List.reverseRecOn with
  | nil => exact absurd rfl h.ne
  | append_singleton r c ih =>
    obtain ⟨hd, -, hh⟩ := h
    obtain ⟨d, rfl⟩ := (digit_iff c).1 (hd c (by simp))
    have hv : Nat.ofDigitChars 10 (r ++ [Nat.digitChar d]) 0 = 10 * Nat.ofDigitChars 10 r 0 + d := by
      rw [Nat.ofDigitChars_append, Nat.ofDigitChars_cons, Nat.ofDigitChars_nil, digit_val]
    rw [hv]
    rcases eq_or_ne r [] with rfl | hr
    · have h0 : (d : Nat) ≠ 0 := by
        intro e
        apply hh
        rw [e]
        rfl
      have := d.isLt
      refine ⟨?_, ?_, ?_⟩
      · simp
        omega
      · simp
      · simp only [Nat.ofDigitChars_nil, Nat.mul_zero, Nat.zero_add, List.nil_append]
        exact Nat.toDigits_of_lt_base d.isLt
    · obtain ⟨a, b, e⟩ := ih ⟨fun x hx => hd x (List.mem_append_left _ hx), hr, by
        cases r with
        | nil => exact absurd rfl hr
        | cons x r => exact hh⟩
      have hlen : 0 < r.length := List.length_pos_iff.2 hr
      have hpos : 0 < Nat.ofDigitChars 10 r 0 := lt_of_lt_of_le (Nat.pos_of_ne_zero (by positivity)) a
      have hdlt := d.isLt
      refine ⟨?_, ?_, ?_⟩
      · rw [List.length_append, List.length_singleton, Nat.add_sub_cancel, show r.length = r.length - 1 + 1 by omega,
          Nat.pow_succ]
        omega
      · rw [List.length_append, List.length_singleton, Nat.pow_succ]
        omega
      · rw [← Nat.toDigits_append_toDigits (by decide) hpos d.isLt, e, Nat.toDigits_of_lt_base d.isLt]

theorem trimZeros_last (l : List Char) : (trimZeros l).getLast? ≠ some '0' := by
  unfold trimZeros
  rw [List.getLast?_reverse]
  intro h
  have := List.head?_dropWhile_not (· == '0') l.reverse
  rw [h] at this
  simp at this

theorem last_value {l : List Char} (h : Leading l) (hl : l.getLast? ≠ some '0') : Nat.ofDigitChars 10 l 0 % 10 ≠ 0 := by
  rcases List.eq_nil_or_concat l with rfl | ⟨r, c, rfl⟩
  · exact absurd rfl h.ne
  · obtain ⟨d, rfl⟩ := (digit_iff c).1 (h.digits c (by simp))
    rw [List.concat_eq_append, Nat.ofDigitChars_append, Nat.ofDigitChars_cons, Nat.ofDigitChars_nil, digit_val]
    have h0 : (d : Nat) ≠ 0 := by
      intro e
      apply hl
      rw [e]
      simp
    have := d.isLt
    omega

theorem digits14_ne {q : Rat} (hq : 0 < q) : digits14 q ≠ 0 := by
  intro h0
  have hlo := (leading10_bounds hq).1
  have hu := pow10_pos (leading10 q + 1 - (14 : Nat))
  have e : pow10 (leading10 q) = 10 ^ 13 * pow10 (leading10 q + 1 - (14 : Nat)) := by
    have : leading10 q = ((13 : Nat) : Int) + (leading10 q + 1 - (14 : Nat)) := by push_cast; ring
    conv_lhs => rw [this, pow10_eq, zpow_add₀ (by norm_num), zpow_natCast]
    rw [pow10_eq]
  rw [e] at hlo
  rcases digits14_cases hq with ⟨h, h'⟩ | ⟨h, -⟩
  · rw [← h, h0] at h'
    generalize pow10 (leading10 q + 1 - (14 : Nat)) = t at *
    norm_num at h' hlo
    linarith
  · omega

/-- The text is that of a whole number below `10 ^ 14` if the number shown is one. -/
theorem pos_text {q : Rat} (hq : 0 < q) :
    (∃ n : Nat, n < 10 ^ 14 ∧ tostringPos q = Nat.toDigits 10 n ∧ shown q = n) ∨
    (FloatLit (tostringPos q) ∧ (tostringPos q).head? ≠ some '-' ∧ readUnsigned (tostringPos q) = some (shown q) ∧
      ∀ n : Nat, n < 10 ^ 14 → shown q ≠ n) := by
  obtain ⟨hl, z, hlen, hv⟩ := trim_leading (digits14_ne hq)
  have hlast := last_value hl (trimZeros_last _)
  obtain ⟨b1, b2, b3⟩ := leading_value hl
  have hs : shown q = (Nat.ofDigitChars 10 (trimZeros (Nat.toDigits 10 (digits14 q))) 0 : Rat) *
      (10 : Rat) ^ (leading10 q - 13 + (Nat.toDigits 10 (digits14 q)).length -
        (trimZeros (Nat.toDigits 10 (digits14 q))).length) := by
    unfold shown
    rw [hlen, show leading10 q - 13 + (((trimZeros (Nat.toDigits 10 (digits14 q))).length + z : Nat) : Int) -
      (trimZeros (Nat.toDigits 10 (digits14 q))).length = (z : Int) + (leading10 q - 13) by push_cast; ring,
      zpow_add₀ (by norm_num), zpow_natCast, pow10_eq]
    conv_lhs => rw [hv]
    push_cast
    ring
  unfold tostringPos
  dsimp only
  rw [hs]
  generalize leading10 q - 13 + ((Nat.toDigits 10 (digits14 q)).length : Int) = k at *
  generalize trimZeros (Nat.toDigits 10 (digits14 q)) = ds at *
  obtain ⟨l1, l2, l3⟩ := layout_ok hl 14 k
  have hdlen : 0 < ds.length := List.length_pos_iff.2 hl.ne
  unfold layoutNum
  by_cases hk : 0 < k ∧ k ≤ 14 ∧ ds.length ≤ k.toNat
  · left
    rw [if_pos hk]
    obtain ⟨k0, k14, kl⟩ := hk
    have hlead : Leading (ds ++ List.replicate (k.toNat - ds.length) '0') := by
      refine ⟨?_, by simp [hl.ne], ?_⟩
      · intro c hc
        rcases List.mem_append.1 hc with hc | hc
        · exact hl.digits c hc
        · exact zeros_digits _ c hc
      · have := hl.head
        cases ds with
        | nil => exact absurd rfl hl.ne
        | cons x r => exact this
    obtain ⟨-, c2, c3⟩ := leading_value hlead
    have hval : Nat.ofDigitChars 10 (ds ++ List.replicate (k.toNat - ds.length) '0') 0 =
        10 ^ (k.toNat - ds.length) * Nat.ofDigitChars 10 ds 0 := by
      rw [Nat.ofDigitChars_append, Nat.ofDigitChars_replicate_zero]
    refine ⟨_, ?_, c3.symm, ?_⟩
    · refine lt_of_lt_of_le c2 (Nat.pow_le_pow_right (by decide) ?_)
      simp
      omega
    · rw [hval, show k - (ds.length : Int) = ((k.toNat - ds.length : Nat) : Int) by omega, zpow_natCast]
      push_cast
      ring
  · right
    rw [if_neg hk]
    refine ⟨l1, l2, l3, ?_⟩
    intro n hn e
    have t10 : ∀ e : Int, (0 : Rat) < (10 : Rat) ^ e := fun e => zpow_pos (by norm_num) _
    have hN : (0 : Rat) < (Nat.ofDigitChars 10 ds 0 : Rat) := by
      exact_mod_cast lt_of_lt_of_le (Nat.pos_of_ne_zero (by positivity)) b1
    rcases le_or_gt k 0 with h0 | h0
    · -- below one
      have h1 : (Nat.ofDigitChars 10 ds 0 : Rat) * (10 : Rat) ^ (k - (ds.length : Int)) < 1 := by
        have h2 : (Nat.ofDigitChars 10 ds 0 : Rat) < (10 : Rat) ^ (ds.length : Int) := by
          rw [zpow_natCast]; exact_mod_cast b2
        have h3 := mul_lt_mul_of_pos_right h2 (t10 (k - (ds.length : Int)))
        rw [← zpow_add₀ (by norm_num), show (ds.length : Int) + (k - ds.length) = k by ring] at h3
        exact h3.trans_le (zpow_le_one_of_nonpos₀ (by norm_num) h0)
      have h4 := mul_pos hN (t10 (k - (ds.length : Int)))
      rw [e] at h1 h4
      have h5 : n < 1 := by exact_mod_cast h1
      have h6 : 0 < n := by exact_mod_cast h4
      omega
    · rcases le_or_gt k 14 with h14 | h14
      · -- digits after the point
        have hlt : k.toNat < ds.length := by
          by_contra hc
          exact hk ⟨h0, h14, by omega⟩
        have e2 : Nat.ofDigitChars 10 ds 0 = n * 10 ^ (ds.length - k.toNat) := by
          have : (Nat.ofDigitChars 10 ds 0 : Rat) = (n : Rat) * (10 : Rat) ^ ((ds.length - k.toNat : Nat) : Int) := by
            rw [← e, mul_assoc, ← zpow_add₀ (by norm_num),
              show k - (ds.length : Int) + ((ds.length - k.toNat : Nat) : Int) = 0 by omega, zpow_zero, mul_one]
          rw [zpow_natCast] at this
          exact_mod_cast this
        apply hlast
        rw [e2, show ds.length - k.toNat = ds.length - k.toNat - 1 + 1 by omega, Nat.pow_succ, ← Nat.mul_assoc]
        exact Nat.mul_mod_left _ _
      · -- too large
        have h1 : (10 : Rat) ^ (((14 : Nat) : Int)) ≤ (Nat.ofDigitChars 10 ds 0 : Rat) * (10 : Rat) ^ (k - (ds.length : Int)) := by
          have h2 : (10 : Rat) ^ ((ds.length - 1 : Nat) : Int) ≤ (Nat.ofDigitChars 10 ds 0 : Rat) := by
            rw [zpow_natCast]; exact_mod_cast b1
          have h3 := mul_le_mul_of_nonneg_right h2 (t10 (k - (ds.length : Int))).le
          rw [← zpow_add₀ (by norm_num)] at h3
          refine le_trans (zpow_le_zpow_right₀ (by norm_num) ?_) h3
          omega
        rw [e, zpow_natCast] at h1
        have : (10 : Nat) ^ 14 ≤ n := by exact_mod_cast h1
        omega

/-- The number shown, for any number. -/
def value14 (q : Rat) : Rat := if q = 0 then 0 else if q < 0 then -shown (-q) else shown q

theorem intLit_numeral {l : List Char} (h : Leading l) : Numeral l :=
  ⟨[], l, [], [], by simp, .inl rfl, ⟨h.ne, h.digits⟩, .inl rfl, .inl rfl⟩

theorem numeral_of {l : List Char} (h : FloatLit l) : Numeral l := by
  obtain ⟨sg, i, fr, ex, e, hsg, hi, hf, hx, -⟩ := h
  refine ⟨sg, i, fr, ex, by rw [e]; simp, hsg, ?_, hf, hx⟩
  rcases hi with rfl | ⟨c, r, rfl, -, hc, hr⟩
  · exact ⟨by simp, by simp⟩
  · refine ⟨by simp, fun x hx => ?_⟩
    rcases List.mem_cons.1 hx with rfl | hx
    · exact hc
    · exact hr x hx

theorem natAbs_neg {z : Int} (h : z < 0) : ((z.natAbs : Nat) : Rat) = -(z : Rat) := by
  rw [Nat.cast_natAbs, abs_of_neg h]
  push_cast
  rfl

theorem natAbs_pos {z : Int} (h : 0 ≤ z) : ((z.natAbs : Nat) : Rat) = (z : Rat) := by
  rw [Nat.cast_natAbs, abs_of_nonneg h]

theorem readUnsigned_nat (n : Nat) : readUnsigned (Nat.toDigits 10 n) = some (n : Rat) := by
  refine (readUnsigned_iff _ _).2 ⟨Nat.toDigits 10 n, [], n, 0, by simp, .inl ⟨n, ?_, rfl⟩, .inl ⟨rfl, rfl⟩, by simp⟩
  have := run_of (toDigits_digits n) Nat.toDigits_ne_nil
  rwa [Nat.ofDigitChars_ten_toDigits] at this

theorem readDecimal_digits {l : List Char} {c : Char} {r : List Char} (e : l = c :: r) (hc : c.isDigit = true) :
    readDecimal l = readUnsigned l := by
  subst e
  unfold readDecimal
  split
  · rename_i e
    injection e with e _
    subst e
    exact absurd hc (by decide)
  · rename_i e
    injection e with e _
    subst e
    exact absurd hc (by decide)
  · rfl

theorem readDecimal_nat (n : Nat) : readDecimal (Nat.toDigits 10 n) = some (n : Rat) := by
  have hne : Nat.toDigits 10 n ≠ [] := Nat.toDigits_ne_nil
  cases h : Nat.toDigits 10 n with
  | nil => exact absurd h hne
  | cons c r =>
    rw [readDecimal_digits rfl (toDigits_digits n c (by rw [h]; simp)), ← h]
    exact readUnsigned_nat n

theorem readDecimal_int (z : Int) : readDecimal (Json.intText z) = some (z : Rat) := by
  unfold Json.intText
  split
  · rename_i h
    show (readUnsigned _).map (fun q => -q) = _
    rw [readUnsigned_nat]
    simp only [Option.map_some, Option.some.injEq]
    rw [natAbs_neg h]
    ring
  · rename_i h
    rw [readDecimal_nat]
    rw [natAbs_pos (not_lt.1 h)]

/-- What the text of a number is. -/
theorem text_cases (q : Rat) :
    (∃ z : Int, |z| < 10 ^ 14 ∧ tostring q = Json.intText z ∧ value14 q = z) ∨
    (FloatLit (tostring q) ∧ readDecimal (tostring q) = some (value14 q) ∧ ∀ z : Int, |z| < 10 ^ 14 → value14 q ≠ z) := by
  unfold tostring value14
  split
  · exact .inl ⟨0, by norm_num, rfl, by simp⟩
  · rename_i h0
    split
    · rename_i hn
      rcases pos_text (show 0 < -q by linarith) with ⟨n, h1, h2, h3⟩ | ⟨h1, h2, h3, h4⟩
      · left
        have hn0 : n ≠ 0 := by
          rintro rfl
          have := mul_pos (show (0 : Rat) < digits14 (-q) by
            exact_mod_cast Nat.pos_of_ne_zero (digits14_ne (show 0 < -q by linarith))) (pow10_pos (leading10 (-q) - 13))
          have h5 : shown (-q) = 0 := by rw [h3]; simp
          unfold shown at h5
          linarith
        refine ⟨-n, ?_, ?_, by rw [h3]; simp⟩
        · rw [abs_neg, abs_of_nonneg (by omega)]
          exact_mod_cast h1
        · rw [h2]
          unfold Json.intText
          rw [if_pos (by omega)]
          simp
      · right
        refine ⟨?_, ?_, ?_⟩
        · obtain ⟨sg, i, fr, ex, e, hsg, hi, hf, hx, hne⟩ := h1
          have hsg' : sg = [] := by
            rcases hsg with rfl | rfl
            · rfl
            · rw [e] at h2
              exact absurd rfl h2
          subst hsg'
          exact ⟨['-'], i, fr, ex, by rw [e]; simp, .inr rfl, hi, hf, hx, hne⟩
        · show (readUnsigned _).map (fun q => -q) = _
          rw [h3]
          rfl
        · intro z hz e
          have hpos : 0 < shown (-q) := mul_pos (by
            exact_mod_cast Nat.pos_of_ne_zero (digits14_ne (show 0 < -q by linarith))) (pow10_pos _)
          have hz0 : (z : Rat) < 0 := by rw [← e]; linarith
          have hz1 : z < 0 := by exact_mod_cast hz0
          refine h4 z.natAbs ?_ ?_
          · rw [abs_of_neg hz1] at hz
            omega
          · rw [natAbs_neg hz1, ← e]
            ring
    · rename_i hn
      have hpos : 0 < q := lt_of_le_of_ne (not_lt.1 hn) (Ne.symm h0)
      rcases pos_text hpos with ⟨n, h1, h2, h3⟩ | ⟨h1, h2, h3, h4⟩
      · left
        refine ⟨n, ?_, ?_, by rw [h3]; simp⟩
        · rw [abs_of_nonneg (by omega)]
          exact_mod_cast h1
        · rw [h2]
          unfold Json.intText
          rw [if_neg (by omega)]
          simp
      · right
        refine ⟨h1, by rw [readDecimal_pos h2 h1]; exact h3, ?_⟩
        intro z hz e
        have hp : 0 < shown q := mul_pos (by exact_mod_cast Nat.pos_of_ne_zero (digits14_ne hpos)) (pow10_pos _)
        have hz0 : (0 : Rat) < z := by rw [← e]; exact hp
        have hz1 : 0 < z := by exact_mod_cast hz0
        refine h4 z.natAbs ?_ ?_
        · rw [abs_of_pos hz1] at hz
          omega
        · rw [natAbs_pos hz1.le, ← e]

theorem read_tostring (q : Rat) : readDecimal (tostring q) = some (value14 q) := by
  rcases text_cases q with ⟨z, -, h2, h3⟩ | ⟨-, h, -⟩
  · rw [h2, readDecimal_int, h3]
  · exact h

theorem value14_digits (q : Rat) : HasDigits 14 (value14 q) := by
  unfold value14
  split
  · exact ⟨0, 0, by decide, by simp⟩
  · rename_i h0
    split
    · exact hasDigits_neg.2 (shown_digits (by linarith))
    · rename_i hn
      exact shown_digits (lt_of_le_of_ne (not_lt.1 hn) (Ne.symm h0))

theorem value14_exact {q y : Rat} (h : Binary64 q) (hd : HasDigits 14 y) (hy : toDouble y = some q) :
    toDouble (value14 q) = some q := by
  unfold value14
  split
  · rename_i h0
    subst h0
    decide +kernel
  · rename_i h0
    split
    · rename_i hn
      have := shown_exact (binary_neg h) (by linarith) (hasDigits_neg.2 hd) (y := -y) (by rw [toDouble_neg, hy]; rfl)
      rw [toDouble_neg, this]
      simp
    · rename_i hn
      exact shown_exact h (lt_of_le_of_ne (not_lt.1 hn) (Ne.symm h0)) hd hy

/-- Which floats keep their value. -/
theorem value14_iff {q : Rat} (h : Binary64 q) : toDouble (value14 q) = some q ↔
    ∃ y, HasDigits 14 y ∧ ¬ TooLarge y ∧ Rounded y q := by
  constructor
  · intro hv
    obtain ⟨h1, h2⟩ := (toDouble_some _ _).1 hv
    exact ⟨_, value14_digits q, h1, h2⟩
  · rintro ⟨y, h1, h2, h3⟩
    exact value14_exact h h1 ((toDouble_some _ _).2 ⟨h2, h3⟩)

theorem binary_int {z : Int} (h : |z| < 10 ^ 14) : Binary64 (z : Rat) :=
  ⟨z, 0, lt_trans h (by norm_num), by decide, by decide, by simp⟩

theorem int_digits {z : Int} (h : |z| < 10 ^ 14) : HasDigits 14 (z : Rat) := by
  refine ⟨z.natAbs, 0, ?_, ?_⟩
  · have : (z.natAbs : Int) = |z| := Int.natCast_natAbs z
    omega
  · rw [zpow_zero, mul_one, Nat.cast_natAbs, Int.cast_abs]

theorem shown_self {q : Rat} (hq : 0 < q) (hd : HasDigits 14 q) : shown q = q := by
  obtain ⟨f1, f2, -, f4⟩ := grid hq 14 (by decide)
  have hcase := digits14_cases hq
  have hu := pow10_pos (leading10 q + 1 - (14 : Nat))
  have hy := f4 q hd hq
  unfold shown
  rw [unit14]
  dsimp only at *
  generalize pow10 (leading10 q + 1 - (14 : Nat)) = t at *
  generalize (q / t).floor.toNat = f at *
  have e1 : ((f + 1 : Nat) : Rat) * t = (f : Rat) * t + t := by push_cast; ring
  have e : q = (f : Rat) * t := by
    rcases hy with h | h
    · exact le_antisymm h f1
    · exact absurd f2 (not_lt.2 h)
  rcases hcase with ⟨h, -⟩ | ⟨h, h'⟩
  · rw [h, ← e]
  · rw [e1] at h'
    linarith

theorem value14_self {q : Rat} (hd : HasDigits 14 q) : value14 q = q := by
  unfold value14
  split
  · rename_i h0
    exact h0.symm
  · rename_i h0
    split
    · rename_i hn
      rw [shown_self (by linarith) (hasDigits_neg.2 hd)]
      ring
    · rename_i hn
      exact shown_self (lt_of_le_of_ne (not_lt.1 hn) (Ne.symm h0)) hd

theorem tostring_int {z : Int} (h : |z| < 10 ^ 14) : tostring (z : Rat) = Json.intText z := by
  have hv := value14_self (int_digits h)
  rcases text_cases (z : Rat) with ⟨n, h1, h2, h3⟩ | ⟨h1, h2, h3⟩
  · rw [h3] at hv
    have : n = z := by exact_mod_cast hv
    rw [h2, this]
  · exact absurd hv (h3 z h)

end Verif.Lua
