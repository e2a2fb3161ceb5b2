import Verif.Py.Round
import Verif.Spec.Doubles
import Mathlib.Algebra.Order.Field.Power
import Mathlib.Data.Rat.Cast.Order
import Mathlib.Tactic.NormNum
import Mathlib.Tactic.NormNum.Inv
import Mathlib.Tactic.NormNum.Pow
import Mathlib.Tactic.Positivity
import Mathlib.Tactic.Linarith
import Mathlib.Tactic.Ring
import Mathlib.Tactic.FieldSimp
/-!
# Helper lemmas: rounding to binary64
-/
set_option autoImplicit false

namespace Verif
open Spec

theorem pow2_eq (e : Int) : pow2 e = (2 : Rat) ^ e := by
  unfold pow2
  split
  · rename_i h
    obtain ⟨n, rfl⟩ := Int.eq_ofNat_of_zero_le h
    simp
  · rename_i h
    obtain ⟨n, hn⟩ := Int.eq_ofNat_of_zero_le (show 0 ≤ -e by omega)
    obtain rfl : e = -(n : Int) := by omega
    simp

theorem leading_le {q : Rat} (h : 0 < q) : pow2 (leading q) ≤ q := by
  unfold leading
  dsimp only
  split
  · assumption
  · rw [pow2_eq]
    have hn : q.num.natAbs ≠ 0 := by
      have := Rat.num_pos.2 h
      omega
    have h1 : 2 ^ q.num.natAbs.log2 ≤ q.num.natAbs := Nat.log2_self_le hn
    have h2 : q.den < 2 ^ (q.den.log2 + 1) := Nat.lt_log2_self
    have hq : q = (q.num.natAbs : Rat) / (q.den : Rat) := by
      conv_lhs => rw [← Rat.num_div_den q]
      congr 1
      have := Rat.num_pos.2 h
      rw [Nat.cast_natAbs, abs_of_pos this]
    rw [hq]
    have e1 : ((q.num.natAbs.log2 : Int) - q.den.log2 - 1) = (q.num.natAbs.log2 : Int) - ((q.den.log2 + 1 : Nat) : Int) := by
      push_cast; omega
    have hq' : ((q.num.natAbs : Rat) / (q.den : Rat)).num.natAbs = q.num.natAbs := by rw [← hq]
    have hd' : ((q.num.natAbs : Rat) / (q.den : Rat)).den = q.den := by rw [← hq]
    rw [hq', hd', e1, zpow_sub₀ (by norm_num), zpow_natCast, zpow_natCast]
    have hd : (0 : Rat) < q.den := by exact_mod_cast q.den_pos
    rw [div_le_div_iff₀ (by positivity) hd]
    have h1' : ((2 : Rat) ^ q.num.natAbs.log2) ≤ (q.num.natAbs : Rat) := by exact_mod_cast h1
    have h2' : (q.den : Rat) ≤ (2 : Rat) ^ (q.den.log2 + 1) := by exact_mod_cast h2.le
    exact mul_le_mul h1' h2' hd.le (by positivity)

theorem halfEven_int (z : Int) : halfEven (z : Rat) = z := by
  unfold halfEven
  rw [Rat.floor_intCast]
  simp

theorem lt_leading {q : Rat} (h : 0 < q) : q < pow2 (leading q + 1) := by
  have hn : q.num.natAbs ≠ 0 := by
    have := Rat.num_pos.2 h
    omega
  have h1 : q.num.natAbs < 2 ^ (q.num.natAbs.log2 + 1) := Nat.lt_log2_self
  have h2 : 2 ^ q.den.log2 ≤ q.den := Nat.log2_self_le q.den_pos.ne'
  have hq : q = (q.num.natAbs : Rat) / (q.den : Rat) := by
    conv_lhs => rw [← Rat.num_div_den q]
    congr 1
    have := Rat.num_pos.2 h
    rw [Nat.cast_natAbs, abs_of_pos this]
  unfold leading
  dsimp only
  split
  · rw [pow2_eq]
    have hd : (0 : Rat) < q.den := by exact_mod_cast q.den_pos
    have e1 : ((q.num.natAbs.log2 : Int) - q.den.log2 + 1) = ((q.num.natAbs.log2 + 1 : Nat) : Int) - q.den.log2 := by
      push_cast; omega
    rw [e1, zpow_sub₀ (by norm_num), zpow_natCast, zpow_natCast]
    have h1' : (q.num.natAbs : Rat) < (2 : Rat) ^ (q.num.natAbs.log2 + 1) := by exact_mod_cast h1
    have h2' : (2 : Rat) ^ q.den.log2 ≤ (q.den : Rat) := by exact_mod_cast h2
    have key : (q.num.natAbs : Rat) / (q.den : Rat) < (2 : Rat) ^ (q.num.natAbs.log2 + 1) / 2 ^ q.den.log2 := by
      rw [div_lt_div_iff₀ hd (by positivity)]
      exact mul_lt_mul h1' h2' (by positivity) (by positivity)
    rw [← hq] at key
    exact key
  · rename_i hlt
    rw [Int.sub_add_cancel]
    exact not_le.1 hlt

theorem halfEven_mono {p q : Rat} (h : p ≤ q) : halfEven p ≤ halfEven q := by
  have hp : ∀ x : Rat, x.floor ≤ halfEven x ∧ halfEven x ≤ x.floor + 1 := by
    intro x
    unfold halfEven
    dsimp only
    split
    · omega
    · split
      · omega
      · split <;> omega
  have hf : p.floor ≤ q.floor := Rat.floor_monotone h
  by_cases hlt : p.floor < q.floor
  · have := (hp p).2
    have := (hp q).1
    omega
  · have he : p.floor = q.floor := by omega
    unfold halfEven
    dsimp only
    rw [he]
    split_ifs <;> first | omega | (exfalso; linarith)

theorem leading_mono {p q : Rat} (hp : 0 < p) (h : p ≤ q) : leading p ≤ leading q := by
  have h1 := leading_le hp
  have h2 := lt_leading (hp.trans_le h)
  rw [pow2_eq] at h1 h2
  have := (h1.trans h).trans_lt h2
  have := (zpow_lt_zpow_iff_right₀ (by norm_num : (1 : Rat) < 2)).1 this
  omega

theorem pow2_pos (e : Int) : 0 < pow2 e := by rw [pow2_eq]; exact zpow_pos (by norm_num) _

theorem pow2_mono {d e : Int} (h : d ≤ e) : pow2 d ≤ pow2 e := by
  rw [pow2_eq, pow2_eq]
  exact zpow_le_zpow_right₀ (by norm_num) h

theorem pow2_split (e : Int) (n : Nat) : pow2 (e + n) = (((2 ^ n : Int)) : Rat) * pow2 e := by
  rw [pow2_eq, pow2_eq, zpow_add₀ (by norm_num), zpow_natCast]
  push_cast
  ring

/-- Rounding to a multiple of `2 ^ e` does not pass another multiple of it. -/
theorem roundAt_lo {q : Rat} {e : Int} {z : Int} (hz : (z : Rat) * pow2 e ≤ q) :
    (z : Rat) * pow2 e ≤ (halfEven (q / pow2 e) : Rat) * pow2 e := by
  have := halfEven_mono ((le_div_iff₀ (pow2_pos e)).2 hz)
  rw [halfEven_int] at this
  exact mul_le_mul_of_nonneg_right (by exact_mod_cast this) (pow2_pos e).le

theorem roundAt_hi {q : Rat} {e : Int} {z : Int} (hz : q ≤ (z : Rat) * pow2 e) :
    (halfEven (q / pow2 e) : Rat) * pow2 e ≤ (z : Rat) * pow2 e := by
  have := halfEven_mono ((div_le_iff₀ (pow2_pos e)).2 hz)
  rw [halfEven_int] at this
  exact mul_le_mul_of_nonneg_right (by exact_mod_cast this) (pow2_pos e).le

theorem lastPlace_ge (q : Rat) : -1074 ≤ lastPlace q := by unfold lastPlace; omega

theorem lastPlace_mono {p q : Rat} (hp : 0 < p) (h : p ≤ q) : lastPlace p ≤ lastPlace q := by
  have := leading_mono hp h
  unfold lastPlace
  omega

/-- A number is below 2^53 units of its last place, … -/
theorem lastPlace_hi {q : Rat} (h : 0 < q) : q < (((2 ^ 53 : Int)) : Rat) * pow2 (lastPlace q) := by
  rw [← pow2_split]
  refine (lt_leading h).trans_le (pow2_mono ?_)
  unfold lastPlace
  omega

/-- … and not below 2^52 of them if the last place is not the least there is. -/
theorem lastPlace_lo {q : Rat} (h : 0 < q) (hl : -1074 < lastPlace q) :
    (((2 ^ 52 : Int)) : Rat) * pow2 (lastPlace q) ≤ q := by
  rw [← pow2_split]
  refine le_trans (pow2_mono ?_) (leading_le h)
  unfold lastPlace at hl ⊢
  omega

theorem nearestDouble_nonzero {q : Rat} (h : q ≠ 0) :
    nearestDouble q = (halfEven (q / pow2 (lastPlace |q|)) : Rat) * pow2 (lastPlace |q|) := by
  unfold nearestDouble
  rw [if_neg h]
  dsimp only
  have habs : (if q < 0 then -q else q) = |q| := by
    split
    · rw [abs_of_neg ‹_›]
    · rw [abs_of_nonneg (not_lt.1 ‹_›)]
  rw [habs]

theorem nearestDouble_zero : nearestDouble 0 = 0 := by unfold nearestDouble; rw [if_pos rfl]

theorem nearestDouble_nonneg {x : Rat} (hx : 0 ≤ x) : 0 ≤ nearestDouble x := by
  rcases eq_or_ne x 0 with rfl | h0
  · rw [nearestDouble_zero]
  · rw [nearestDouble_nonzero h0]
    simpa using roundAt_lo (q := x) (e := lastPlace |x|) (z := 0) (by simpa using hx)

theorem nearestDouble_nonpos {x : Rat} (hx : x ≤ 0) : nearestDouble x ≤ 0 := by
  rcases eq_or_ne x 0 with rfl | h0
  · rw [nearestDouble_zero]
  · rw [nearestDouble_nonzero h0]
    simpa using roundAt_hi (q := x) (e := lastPlace |x|) (z := 0) (by simpa using hx)

theorem nearestDouble_mono {p q : Rat} (h : p ≤ q) : nearestDouble p ≤ nearestDouble q := by
  have same : ∀ e, (halfEven (p / pow2 e) : Rat) * pow2 e ≤ (halfEven (q / pow2 e) : Rat) * pow2 e := by
    intro e
    have := halfEven_mono (div_le_div_of_nonneg_right h (pow2_pos e).le)
    exact mul_le_mul_of_nonneg_right (by exact_mod_cast this) (pow2_pos e).le
  have step : ∀ {d e : Int}, d < e → (((2 ^ 53 : Int)) : Rat) * pow2 d ≤ (((2 ^ 52 : Int)) : Rat) * pow2 e := by
    intro d e hde
    rw [← pow2_split, ← pow2_split]
    exact pow2_mono (by push_cast; omega)
  rcases le_or_gt p 0 with hp | hp
  · rcases le_or_gt 0 q with hq | hq
    · exact (nearestDouble_nonpos hp).trans (nearestDouble_nonneg hq)
    · have hp' : p < 0 := h.trans_lt hq
      have ap : 0 < |p| := abs_pos.2 hp'.ne
      have aq : 0 < |q| := abs_pos.2 hq.ne
      have hle : lastPlace |q| ≤ lastPlace |p| := lastPlace_mono aq (by
        rw [abs_of_neg hq, abs_of_neg hp']; linarith)
      rw [nearestDouble_nonzero hp'.ne, nearestDouble_nonzero hq.ne]
      rcases eq_or_lt_of_le hle with e | e
      · rw [e]
        exact same _
      · have a := lastPlace_lo ap (by have := lastPlace_ge |q|; omega)
        have b := (lastPlace_hi aq).le
        have c := step e
        have a' := roundAt_hi (q := p) (e := lastPlace |p|) (z := -2 ^ 52) (by
          rw [abs_of_neg hp'] at a ⊢; push_cast at a ⊢; linarith)
        have b' := roundAt_lo (q := q) (e := lastPlace |q|) (z := -2 ^ 53) (by
          rw [abs_of_neg hq] at b ⊢; push_cast at b ⊢; linarith)
        push_cast at a' b' c
        linarith
  · have hq : 0 < q := hp.trans_le h
    have hle : lastPlace |p| ≤ lastPlace |q| := lastPlace_mono (abs_pos.2 hp.ne') (by
      rw [abs_of_pos hp, abs_of_pos hq]; exact h)
    rw [nearestDouble_nonzero hp.ne', nearestDouble_nonzero hq.ne']
    rcases eq_or_lt_of_le hle with e | e
    · rw [e]
      exact same _
    · have a := (lastPlace_hi (abs_pos.2 hp.ne')).le
      have b := lastPlace_lo (abs_pos.2 hq.ne') (by have := lastPlace_ge |p|; omega)
      have c := step e
      rw [abs_of_pos hp] at a c e ⊢
      rw [abs_of_pos hq] at b c e ⊢
      exact (roundAt_hi a).trans (c.trans (roundAt_lo b))

/-! ## The nearest float -/

/-- No integer is nearer, and one as near is odd where this one is even. -/
theorem halfEven_near (x : Rat) (z : Int) (hz : z ≠ halfEven x) :
    |(halfEven x : Rat) - x| < |(z : Rat) - x| ∨
    (|(halfEven x : Rat) - x| = |(z : Rat) - x| ∧ halfEven x % 2 = 0 ∧ z % 2 = 1 ∧ |(z : Rat) - x| = 1 / 2) := by
  have f1 : (x.floor : Rat) ≤ x := Rat.floor_le x
  have f2 : x < x.floor + 1 := by
    have := Rat.lt_floor_add_one x
    push_cast at this
    exact this
  generalize hf : x.floor = f at f1 f2
  have far : ∀ {y : Int}, (y ≤ f - 1 ∨ f + 2 ≤ y) → 1 < |(y : Rat) - x| ∨ (|(y : Rat) - x| = 1 ∧ x = f) := by
    intro y hy
    rcases hy with hy | hy
    · have : (y : Rat) ≤ f - 1 := by exact_mod_cast hy
      rcases eq_or_lt_of_le f1 with e | e
      · rcases eq_or_lt_of_le this with e' | e'
        · right
          refine ⟨?_, e.symm⟩
          rw [e', ← e]
          norm_num
        · left
          rw [abs_of_neg (by linarith)]
          linarith
      · left
        rw [abs_of_neg (by linarith)]
        linarith
    · have : (f : Rat) + 2 ≤ y := by exact_mod_cast hy
      left
      rw [abs_of_pos (by linarith)]
      linarith
  have a0 : |(f : Rat) - x| = x - f := by rw [abs_of_nonpos (by linarith)]; ring
  have a1 : |((f + 1 : Int) : Rat) - x| = f + 1 - x := by push_cast; rw [abs_of_pos (by linarith)]
  have near : ∀ {h : Int}, (h = f ∨ h = f + 1) → halfEven x = h → |(h : Rat) - x| ≤ 1 / 2 →
      (∀ y, (y = f ∨ y = f + 1) → y ≠ h → |(h : Rat) - x| < |(y : Rat) - x| ∨
        (|(h : Rat) - x| = |(y : Rat) - x| ∧ h % 2 = 0 ∧ y % 2 = 1 ∧ |(y : Rat) - x| = 1 / 2)) →
      |(halfEven x : Rat) - x| < |(z : Rat) - x| ∨
      (|(halfEven x : Rat) - x| = |(z : Rat) - x| ∧ halfEven x % 2 = 0 ∧ z % 2 = 1 ∧ |(z : Rat) - x| = 1 / 2) := by
    intro h hh he hb hy
    rw [he] at hz ⊢
    by_cases hzf : z = f ∨ z = f + 1
    · exact hy z hzf hz
    · left
      rcases far (y := z) (by omega) with h' | ⟨h', -⟩
      · linarith
      · linarith
  have hdef : halfEven x = if x - f < 1/2 then f else if 1/2 < x - f then f + 1 else if f % 2 = 0 then f else f + 1 := by
    unfold halfEven
    dsimp only
    rw [hf]
  split_ifs at hdef with c1 c2 c3
  · refine near (.inl rfl) hdef (by rw [a0]; linarith) ?_
    rintro y (rfl | rfl) hy
    · exact absurd rfl hy
    · left
      rw [a0, a1]
      linarith
  · refine near (.inr rfl) hdef (by rw [a1]; linarith) ?_
    rintro y (rfl | rfl) hy
    · left
      rw [a0, a1]
      linarith
    · exact absurd rfl hy
  · have hx : x - f = 1 / 2 := by linarith
    refine near (.inl rfl) hdef (by rw [a0]; linarith) ?_
    rintro y (rfl | rfl) hy
    · exact absurd rfl hy
    · right
      rw [a0, a1]
      exact ⟨by linarith, c3, by omega, by linarith⟩
  · have hx : x - f = 1 / 2 := by linarith
    refine near (.inr rfl) hdef (by rw [a1]; linarith) ?_
    rintro y (rfl | rfl) hy
    · right
      rw [a0, a1]
      exact ⟨by linarith, by omega, by omega, by linarith⟩
    · exact absurd rfl hy

/-- The significand of the rounded number. -/
theorem signif_le {q : Rat} (h : q ≠ 0) : |halfEven (q / pow2 (lastPlace |q|))| ≤ 2 ^ 53 ∧
    (-1074 < lastPlace |q| → 2 ^ 52 ≤ |halfEven (q / pow2 (lastPlace |q|))|) := by
  have ap := abs_pos.2 h
  have hp := pow2_pos (lastPlace |q|)
  have mono : ∀ {z : Int}, (z : Rat) ≤ q / pow2 (lastPlace |q|) → z ≤ halfEven (q / pow2 (lastPlace |q|)) := by
    intro z hz
    have := halfEven_mono hz
    rwa [halfEven_int] at this
  have mono' : ∀ {z : Int}, q / pow2 (lastPlace |q|) ≤ (z : Rat) → halfEven (q / pow2 (lastPlace |q|)) ≤ z := by
    intro z hz
    have := halfEven_mono hz
    rwa [halfEven_int] at this
  have hi := (lastPlace_hi ap).le
  rw [abs_le] at hi
  refine ⟨abs_le.2 ⟨mono ?_, mono' ?_⟩, fun hl => ?_⟩
  · rw [le_div_iff₀ hp]
    push_cast at hi ⊢
    linarith [hi.1]
  · rw [div_le_iff₀ hp]
    exact hi.2
  · have lo := lastPlace_lo ap hl
    rw [le_abs] at lo ⊢
    rcases lo with lo | lo
    · left
      exact mono ((le_div_iff₀ hp).2 lo)
    · right
      have := mono' (z := -2 ^ 52) (by
        rw [div_le_iff₀ hp]
        push_cast at lo ⊢
        linarith)
      omega

/-- An odd multiple of the last place does not end in a zero bit. -/
theorem not_evenLast {z j : Int} (ho : z % 2 = 1) (hb : j = -1074 ∨ 2 ^ 52 ≤ |z|) :
    ¬ EvenLast ((z : Rat) * (2 : Rat) ^ j) := by
  rintro ⟨m, i, e, hm, hi, hd⟩
  have two : ∀ k : Int, (0 : Rat) < 2 ^ k := fun k => zpow_pos (by norm_num) _
  rcases le_or_gt j i with h | h
  · obtain ⟨n, hn⟩ := Int.eq_ofNat_of_zero_le (show 0 ≤ i - j by omega)
    have : (z : Rat) = ((2 * m * 2 ^ n : Int) : Rat) := by
      have e1 : (2 : Rat) ^ i = 2 ^ n * 2 ^ j := by
        rw [← zpow_natCast, ← zpow_add₀ (by norm_num)]; congr 1; omega
      rw [e1, ← mul_assoc] at e
      have := mul_right_cancel₀ (two j).ne' e
      rw [this]
      push_cast
      ring
    have hz : z = 2 * m * 2 ^ n := by exact_mod_cast this
    have : z = 2 * (m * 2 ^ n) := by rw [hz]; ring
    omega
  · obtain ⟨n, hn⟩ := Int.eq_ofNat_of_zero_le (show 0 ≤ j - i - 1 by omega)
    have hb' : 2 ^ 52 ≤ |z| := hb.resolve_left (by omega)
    have : ((z * (2 * 2 ^ n) : Int) : Rat) = ((2 * m : Int) : Rat) := by
      have e1 : (2 : Rat) ^ j = (2 * 2 ^ n) * 2 ^ i := by
        rw [← zpow_natCast, ← zpow_one_add₀ (by norm_num), ← zpow_add₀ (by norm_num)]; congr 1; omega
      rw [e1, ← mul_assoc] at e
      have := mul_right_cancel₀ (two i).ne' e
      rw [← this]
      push_cast
      ring
    have hz : z * (2 * 2 ^ n) = 2 * m := by exact_mod_cast this
    rw [← hz, abs_mul] at hm
    have h1 : (2 : Int) ≤ |2 * 2 ^ n| := by
      rw [abs_of_pos (by positivity)]
      have : (1 : Int) ≤ 2 ^ n := one_le_pow₀ (by norm_num)
      omega
    have h2 : |z| * 2 ≤ |z| * |2 * 2 ^ n| := mul_le_mul_of_nonneg_left h1 (abs_nonneg z)
    have h3 : |z| = 2 ^ 52 := by omega
    rcases abs_choice z with h | h <;> omega

theorem nearestDouble_rounded {q : Rat} (hr : |nearestDouble q| < pow2 1024) : Rounded q (nearestDouble q) := by
  rcases eq_or_ne q 0 with rfl | h0
  · rw [nearestDouble_zero]
    refine ⟨⟨0, 0, by norm_num, by norm_num, by norm_num, by simp⟩, fun p _ hp => .inl ?_⟩
    simpa using hp
  · have ap := abs_pos.2 h0
    rw [nearestDouble_nonzero h0] at hr ⊢
    obtain ⟨hs, hs'⟩ := signif_le h0
    have hup := lastPlace_hi ap
    have hlow := lastPlace_lo ap
    have hge := lastPlace_ge |q|
    have near := halfEven_near (q / pow2 (lastPlace |q|))
    generalize lastPlace |q| = L at *
    generalize hh : halfEven (q / pow2 L) = s at *
    have hp := pow2_pos L
    have scale : ∀ z : Int, |(z : Rat) * pow2 L - q| = |(z : Rat) - q / pow2 L| * pow2 L := by
      intro z
      rw [← abs_of_pos hp, ← abs_mul, abs_of_pos hp, sub_mul, div_mul_cancel₀ _ hp.ne']
    refine ⟨?_, fun p hbp hne => ?_⟩
    · -- it is a float
      have hL : s = 0 ∨ ((|s| : Int) : Rat) * pow2 L < pow2 1024 := by
        right
        rwa [abs_mul, abs_of_pos hp, ← Int.cast_abs] at hr
      by_cases h53 : |s| < 2 ^ 53
      · rcases eq_or_lt_of_le hge with e | e
        · exact ⟨s, L, h53, hge, by omega, by rw [pow2_eq]⟩
        · refine ⟨s, L, h53, hge, ?_, by rw [pow2_eq]⟩
          have h52 := hs' e
          rcases hL with rfl | hL
          · norm_num at h52
          · have : ((2 ^ 52 : Int) : Rat) * pow2 L < pow2 1024 := lt_of_le_of_lt
              (mul_le_mul_of_nonneg_right (by exact_mod_cast h52) hp.le) hL
            rw [← pow2_split, pow2_eq, pow2_eq] at this
            have := (zpow_lt_zpow_iff_right₀ (by norm_num : (1 : Rat) < 2)).1 this
            push_cast at this
            omega
      · have h53' : |s| = 2 ^ 53 := by omega
        have hlt : L + 53 < 1024 := by
          rcases hL with rfl | hL
          · norm_num at h53'
          · rw [h53'] at hL
            rw [← pow2_split, pow2_eq, pow2_eq] at hL
            have := (zpow_lt_zpow_iff_right₀ (by norm_num : (1 : Rat) < 2)).1 hL
            push_cast at this
            omega
        obtain ⟨t, rfl⟩ : ∃ t, s = 2 * t := by
          rcases abs_choice s with h | h
          · exact ⟨2 ^ 52, by omega⟩
          · exact ⟨-2 ^ 52, by omega⟩
        refine ⟨t, L + 1, ?_, by omega, by omega, ?_⟩
        · rw [abs_mul] at h53'
          norm_num at h53'
          omega
        · rw [pow2_eq, zpow_add₀ (by norm_num)]
          push_cast
          ring
    · obtain ⟨m, j, hm, hj, -, rfl⟩ := hbp
      rcases le_or_gt L j with hjL | hjL
      · -- a multiple of the last place
        obtain ⟨n, hn⟩ := Int.eq_ofNat_of_zero_le (show 0 ≤ j - L by omega)
        have e1 : (2 : Rat) ^ j = 2 ^ n * 2 ^ L := by
          rw [← zpow_natCast, ← zpow_add₀ (by norm_num)]; congr 1; omega
        have e2 : (m : Rat) * (2 : Rat) ^ j = ((m * 2 ^ n : Int) : Rat) * pow2 L := by
          rw [e1, pow2_eq]; push_cast; ring
        rw [e2] at hne ⊢
        have hz : m * 2 ^ n ≠ s := fun e => hne (by rw [e])
        rw [scale, scale]
        rcases near _ hz with h | ⟨h, he, ho, hd⟩
        · left
          exact mul_lt_mul_of_pos_right h hp
        · right
          refine ⟨by rw [h], ?_, ?_⟩
          · refine ⟨s / 2, L, ?_, ?_, hge, ?_⟩
            · rw [pow2_eq]
              congr 2
              omega
            · rw [show 2 * (s / 2) = s by omega]
              exact hs
            · rw [show 2 * (s / 2) = s by omega]
              rcases eq_or_lt_of_le hge with e | e
              · exact .inl e.symm
              · exact .inr (hs' e)
          · rw [pow2_eq]
            refine not_evenLast ho ?_
            rcases eq_or_lt_of_le hge with e | e
            · exact .inl e.symm
            · right
              have hq := hlow e
              have hq' : ((2 ^ 52 : Int) : Rat) ≤ |q / pow2 L| := by
                rw [abs_div, abs_of_pos hp, le_div_iff₀ hp]
                exact hq
              generalize m * 2 ^ n = z at *
              have : |q / pow2 L| - |(z : Rat)| ≤ |q / pow2 L - z| := abs_sub_abs_le_abs_sub _ _
              rw [abs_sub_comm, hd] at this
              have h2 : ((2 ^ 52 : Int) : Rat) - 1 / 2 ≤ ((|z| : Int) : Rat) := by
                rw [Int.cast_abs]; linarith
              by_contra hc
              have h3 : |z| ≤ 2 ^ 52 - 1 := by omega
              have h4 : ((|z| : Int) : Rat) ≤ ((2 ^ 52 - 1 : Int) : Rat) := by exact_mod_cast h3
              push_cast at h2 h4
              linarith
      · -- nearer to zero than 2^52 units of the last place
        left
        have hq := hlow (by omega)
        have hsm : |(m : Rat) * (2 : Rat) ^ j| < ((2 ^ 52 : Int) : Rat) * pow2 L := by
          rw [abs_mul, abs_of_pos (zpow_pos (by norm_num : (0 : Rat) < 2) j), ← Int.cast_abs]
          have h1 : ((|m| : Int) : Rat) < ((2 ^ 53 : Int) : Rat) := by exact_mod_cast hm
          have h2 : ((2 ^ 53 : Int) : Rat) * 2 ^ j ≤ ((2 ^ 52 : Int) : Rat) * pow2 L := by
            rw [← pow2_eq, ← pow2_split, ← pow2_split]
            exact pow2_mono (by push_cast; omega)
          exact lt_of_lt_of_le (mul_lt_mul_of_pos_right h1 (zpow_pos (by norm_num) _)) h2
        have key : |(s : Rat) * pow2 L - q| ≤ |q| - ((2 ^ 52 : Int) : Rat) * pow2 L := by
          rcases le_or_gt 0 q with h | h
          · rw [abs_of_nonneg h] at hq ⊢
            have : |(s : Rat) * pow2 L - q| ≤ |((2 ^ 52 : Int) : Rat) * pow2 L - q| := by
              rw [scale, scale]
              refine mul_le_mul_of_nonneg_right ?_ hp.le
              by_cases e : (2 ^ 52 : Int) = s
              · rw [e]
              · rcases near _ e with h | h
                · exact h.le
                · exact h.1.le
            refine this.trans (le_of_eq ?_)
            rw [abs_of_nonpos (by linarith)]
            ring
          · rw [abs_of_neg h] at hq ⊢
            have : |(s : Rat) * pow2 L - q| ≤ |((-2 ^ 52 : Int) : Rat) * pow2 L - q| := by
              rw [scale, scale]
              refine mul_le_mul_of_nonneg_right ?_ hp.le
              by_cases e : (-2 ^ 52 : Int) = s
              · rw [e]
              · rcases near _ e with h | h
                · exact h.le
                · exact h.1.le
            refine this.trans (le_of_eq ?_)
            push_cast at hq ⊢
            rw [abs_of_nonneg (by linarith)]
            ring
        have tri : |q| - |(m : Rat) * (2 : Rat) ^ j| ≤ |(m : Rat) * (2 : Rat) ^ j - q| := by
          rw [abs_sub_comm]
          exact abs_sub_abs_le_abs_sub _ _
        linarith

theorem rounded_unique {q c d : Rat} (hc : Rounded q c) (hd : Rounded q d) : c = d := by
  by_contra hne
  rcases hc.2 d hd.1 (Ne.symm hne) with h | ⟨h, h1, h2⟩
  · rcases hd.2 c hc.1 hne with h' | ⟨h', -, -⟩
    · linarith
    · linarith
  · rcases hd.2 c hc.1 hne with h' | ⟨-, h3, -⟩
    · linarith
    · exact h2 h3

/-! ## The range of floats -/

theorem halfEven_neg (x : Rat) : halfEven (-x) = -halfEven x := by
  by_contra hne
  have e1 : |((-halfEven (-x) : Int) : Rat) - x| = |(halfEven (-x) : Rat) - -x| := by
    rw [← abs_neg]; push_cast; congr 1; ring
  have e2 : |((-halfEven x : Int) : Rat) - -x| = |(halfEven x : Rat) - x| := by
    rw [← abs_neg]; push_cast; congr 1; ring
  have a := halfEven_near x (-halfEven (-x)) (by omega)
  have b := halfEven_near (-x) (-halfEven x) (fun h => hne h.symm)
  rw [e1] at a
  rw [e2] at b
  rcases a with a | ⟨a, a1, a2, -⟩
  · rcases b with b | ⟨b, -, -, -⟩ <;> linarith
  · rcases b with b | ⟨-, b1, -, -⟩
    · linarith
    · omega

theorem nearestDouble_neg (q : Rat) : nearestDouble (-q) = -nearestDouble q := by
  rcases eq_or_ne q 0 with rfl | h
  · rw [neg_zero, nearestDouble_zero, neg_zero]
  · rw [nearestDouble_nonzero h, nearestDouble_nonzero (neg_ne_zero.2 h), abs_neg, neg_div, halfEven_neg]
    push_cast
    ring

theorem nearestDouble_abs (q : Rat) : |nearestDouble q| = nearestDouble |q| := by
  rcases le_or_gt 0 q with h | h
  · rw [abs_of_nonneg h, abs_of_nonneg (nearestDouble_nonneg h)]
  · rw [abs_of_neg h, abs_of_nonpos (nearestDouble_nonpos h.le), nearestDouble_neg]

theorem lastPlace_eq {q : Rat} {e : Int} (he : -1074 ≤ e) (h1 : pow2 (e + 52) ≤ q) (h2 : q < pow2 (e + 53)) :
    lastPlace q = e := by
  have hq : 0 < q := (pow2_pos _).trans_le h1
  have a := leading_le hq
  have b := lt_leading hq
  rw [pow2_eq] at *
  have c := (zpow_lt_zpow_iff_right₀ (by norm_num : (1 : Rat) < 2)).1 (a.trans_lt h2)
  have d := (zpow_lt_zpow_iff_right₀ (by norm_num : (1 : Rat) < 2)).1 (h1.trans_lt b)
  unfold lastPlace
  omega

theorem limit_eq : (2 : Rat) ^ (1024 : Int) - (2 : Rat) ^ (970 : Int) = (((2 ^ 54 - 1 : Int)) : Rat) * pow2 970 := by
  have : pow2 (970 + (54 : Nat)) = _ := pow2_split 970 54
  rw [← pow2_eq, ← pow2_eq]
  rw [show (1024 : Int) = 970 + (54 : Nat) by norm_num, this]
  push_cast
  ring

theorem pow2_971 : pow2 971 = 2 * pow2 970 := by
  have := pow2_split 970 1
  norm_num at this
  exact this

theorem pow2_1024 : pow2 1024 = ((2 ^ 54 : Int) : Rat) * pow2 970 := pow2_split 970 54

theorem nearest_limit : nearestDouble ((2 : Rat) ^ (1024 : Int) - (2 : Rat) ^ (970 : Int)) = pow2 1024 := by
  have hp := pow2_pos 970
  have hpos : (0 : Rat) < (((2 ^ 54 - 1 : Int)) : Rat) * pow2 970 := mul_pos (by norm_num) hp
  have hl : lastPlace ((((2 ^ 54 - 1 : Int)) : Rat) * pow2 970) = 971 := by
    refine lastPlace_eq (by norm_num) ?_ ?_
    · have : pow2 (971 + 52) = ((2 ^ 53 : Int) : Rat) * pow2 970 := pow2_split 970 53
      rw [this]
      exact mul_le_mul_of_nonneg_right (by norm_num) hp.le
    · have : pow2 (971 + 53) = ((2 ^ 54 : Int) : Rat) * pow2 970 := pow2_split 970 54
      rw [this]
      exact mul_lt_mul_of_pos_right (by norm_num) hp
  rw [limit_eq, nearestDouble_nonzero hpos.ne', abs_of_pos hpos, hl, pow2_971, pow2_1024]
  have : (((2 ^ 54 - 1 : Int)) : Rat) * pow2 970 / (2 * pow2 970) = ((2 ^ 54 - 1 : Int) : Rat) / 2 := by
    field_simp
  rw [this]
  have h2 : halfEven (((2 ^ 54 - 1 : Int) : Rat) / 2) = 2 ^ 53 := by decide +kernel
  rw [h2]
  push_cast
  ring

theorem tooLarge_iff (q : Rat) : TooLarge q ↔ pow2 1024 ≤ |nearestDouble q| := by
  rw [nearestDouble_abs]
  unfold TooLarge
  have hpos : (0 : Rat) < (2 : Rat) ^ (1024 : Int) - (2 : Rat) ^ (970 : Int) := by
    rw [limit_eq]
    exact mul_pos (by norm_num) (pow2_pos 970)
  have hq := abs_nonneg q
  generalize |q| = a at *
  constructor
  · intro h
    rw [← nearest_limit]
    exact nearestDouble_mono h
  · intro h
    by_contra hc
    rw [not_le] at hc
    refine absurd h (not_le.2 ?_)
    have hp := pow2_pos 970
    rcases eq_or_ne a 0 with rfl | h0
    · rw [nearestDouble_zero]; exact pow2_pos _
    · have ha : 0 < a := lt_of_le_of_ne hq h0.symm
      rw [nearestDouble_nonzero h0, abs_of_pos ha]
      have hlt : a < pow2 1024 := by
        refine hc.trans_le ?_
        rw [limit_eq, pow2_1024]
        exact mul_le_mul_of_nonneg_right (by norm_num) hp.le
      have hL : lastPlace a ≤ 971 := by
        have b := (leading_le ha).trans_lt hlt
        rw [pow2_eq, pow2_eq] at b
        have := (zpow_lt_zpow_iff_right₀ (by norm_num : (1 : Rat) < 2)).1 b
        unfold lastPlace
        omega
      rcases eq_or_lt_of_le hL with e | e
      · rw [e]
        have hx : a / pow2 971 < ((2 ^ 53 : Int) : Rat) - 1 / 2 := by
          rw [div_lt_iff₀ (pow2_pos _), pow2_971]
          rw [limit_eq] at hc
          push_cast at hc ⊢
          linarith
        have hh : halfEven (a / pow2 971) ≤ 2 ^ 53 - 1 := by
          by_contra hn
          have hn' : (2 ^ 53 - 1 : Int) ≠ halfEven (a / pow2 971) := by omega
          have hge : ((2 ^ 53 : Int) : Rat) ≤ (halfEven (a / pow2 971) : Rat) := by
            have : (2 ^ 53 : Int) ≤ halfEven (a / pow2 971) := by omega
            exact_mod_cast this
          have d1 : |(halfEven (a / pow2 971) : Rat) - a / pow2 971| = halfEven (a / pow2 971) - a / pow2 971 := by
            rw [abs_of_pos (by linarith)]
          have d2 : |((2 ^ 53 - 1 : Int) : Rat) - a / pow2 971| < halfEven (a / pow2 971) - a / pow2 971 := by
            rw [abs_lt]
            push_cast at hx hge ⊢
            constructor <;> linarith
          rcases halfEven_near _ _ hn' with h | h
          · linarith
          · linarith [h.1]
        have : (halfEven (a / pow2 971) : Rat) ≤ ((2 ^ 53 - 1 : Int) : Rat) := by exact_mod_cast hh
        have h3 : (halfEven (a / pow2 971) : Rat) * pow2 971 ≤ ((2 ^ 53 - 1 : Int) : Rat) * pow2 971 :=
          mul_le_mul_of_nonneg_right this (pow2_pos _).le
        refine h3.trans_lt ?_
        rw [pow2_1024, pow2_971]
        push_cast
        linarith
      · have hi := (lastPlace_hi ha).le
        have h1 := roundAt_hi hi
        refine h1.trans_lt ?_
        rw [← pow2_split]
        refine lt_of_le_of_lt (pow2_mono (show lastPlace a + (53 : Nat) ≤ 1023 by push_cast; omega)) ?_
        rw [pow2_eq, pow2_eq]
        exact (zpow_lt_zpow_iff_right₀ (by norm_num)).2 (by norm_num)

theorem toDouble_some (q d : Rat) : toDouble q = some d ↔ ¬ TooLarge q ∧ Rounded q d := by
  rw [tooLarge_iff, not_le]
  unfold toDouble
  dsimp only
  simp only [← abs_lt]
  constructor
  · intro h
    split at h
    · rename_i hr
      cases h
      exact ⟨hr, nearestDouble_rounded hr⟩
    · cases h
  · rintro ⟨hr, hd⟩
    rw [if_pos hr, rounded_unique (nearestDouble_rounded hr) hd]

theorem toDouble_none (q : Rat) : toDouble q = none ↔ TooLarge q := by
  rw [tooLarge_iff]
  unfold toDouble
  dsimp only
  simp only [← abs_lt]
  rw [← not_lt]
  split <;> simp_all

end Verif
