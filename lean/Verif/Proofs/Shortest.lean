import Verif.Proofs.Repr
import Verif.Spec.FloatText
import Verif.Spec.Printed
/-!
# Helper lemmas: the text of a float is the shortest that is read as it
-/
set_option autoImplicit false

namespace Verif
open Spec

theorem toDouble_nearest {y q : Rat} (h : toDouble y = some q) : nearestDouble y = q := by
  obtain ⟨hs, hr⟩ := (toDouble_some _ _).1 h
  rw [tooLarge_iff, not_le] at hs
  exact rounded_unique (nearestDouble_rounded hs) hr

theorem toDouble_of_nearest {x q : Rat} (hq : Binary64 q) (h : nearestDouble x = q) : toDouble x = some q := by
  have hs := binary_small hq
  rw [tooLarge_iff, not_le, nearest_self hq] at hs
  have hx : |nearestDouble x| < pow2 1024 := by rw [h]; exact hs
  refine (toDouble_some _ _).2 ⟨by rw [tooLarge_iff, not_le]; exact hx, ?_⟩
  have := nearestDouble_rounded hx
  rwa [h] at this

/-- Numbers between a float and a number that is rounded to it are rounded to it. -/
theorem toDouble_between {x y q : Rat} (hq : Binary64 q) (hy : toDouble y = some q)
    (h : (y ≤ x ∧ x ≤ q) ∨ (q ≤ x ∧ x ≤ y)) : toDouble x = some q := by
  refine toDouble_of_nearest hq ?_
  have hy' := toDouble_nearest hy
  have hs := nearest_self hq
  rcases h with ⟨h1, h2⟩ | ⟨h1, h2⟩
  · have a := nearestDouble_mono h1
    have b := nearestDouble_mono h2
    rw [hy'] at a
    rw [hs] at b
    exact le_antisymm b a
  · have a := nearestDouble_mono h1
    have b := nearestDouble_mono h2
    rw [hs] at a
    rw [hy'] at b
    exact le_antisymm b a

/-- The decimals of `n` digits next to a positive number. -/
theorem grid {q : Rat} (hq : 0 < q) (n : Nat) (hn : n ≠ 0) :
    let u := pow10 (leading10 q + 1 - n)
    let c := (q / u).floor.toNat
    (c : Rat) * u ≤ q ∧ q < ((c + 1 : Nat) : Rat) * u ∧ c < 10 ^ n ∧
    ∀ y, HasDigits n y → 0 < y → y ≤ (c : Rat) * u ∨ ((c + 1 : Nat) : Rat) * u ≤ y := by
  intro u c
  obtain ⟨hlo, hhi⟩ := leading10_bounds hq
  have hu : 0 < u := pow10_pos _
  have hdiv : 0 ≤ q / u := (div_pos hq hu).le
  have f0 : 0 ≤ (q / u).floor := by
    have := Rat.floor_monotone hdiv
    rwa [show Rat.floor 0 = 0 by decide +kernel] at this
  have fi : ((c : Nat) : Int) = (q / u).floor := Int.toNat_of_nonneg f0
  have fc : ((c : Nat) : Rat) = ((q / u).floor : Rat) := by exact_mod_cast congrArg (Int.cast (R := Rat)) fi
  have f1 : (c : Rat) * u ≤ q := by rw [fc]; exact (le_div_iff₀ hu).1 (Rat.floor_le _)
  have f2 : q < ((c + 1 : Nat) : Rat) * u := by
    have := Rat.lt_floor_add_one (q / u)
    push_cast at this ⊢
    rw [fc]
    exact (div_lt_iff₀ hu).1 this
  have top : pow10 (leading10 q + 1) = (10 : Rat) ^ n * u := by
    show _ = _ * pow10 _
    rw [pow10_eq, pow10_eq, ← zpow_natCast, ← zpow_add₀ (by norm_num)]
    congr 1
    ring
  have bottom : pow10 (leading10 q) = (10 : Rat) ^ (n - 1) * u := by
    show _ = _ * pow10 _
    rw [pow10_eq, pow10_eq, ← zpow_natCast, ← zpow_add₀ (by norm_num)]
    congr 1
    have : ((n - 1 : Nat) : Int) = (n : Int) - 1 := by omega
    rw [this]
    ring
  have hc : c < 10 ^ n := by
    have h1 : (c : Rat) * u < (10 : Rat) ^ n * u := by rw [← top]; exact lt_of_le_of_lt f1 hhi
    have h2 := lt_of_mul_lt_mul_right h1 hu.le
    exact_mod_cast h2
  have hc' : 10 ^ (n - 1) ≤ c := by
    have h1 : (((10 ^ (n - 1) : Nat) : Int) : Rat) ≤ q / u := by
      rw [le_div_iff₀ hu]
      push_cast
      rw [← bottom]
      exact hlo
    have h2 := Rat.le_floor_iff.2 h1
    rw [← fi] at h2
    exact_mod_cast h2
  refine ⟨f1, f2, hc, ?_⟩
  rintro y ⟨d, e, hd, hy⟩ hy0
  rw [abs_of_pos hy0] at hy
  rcases le_or_gt (leading10 q + 1 - n) e with he | he
  · have : y = ((d * 10 ^ (e - (leading10 q + 1 - n)).toNat : Nat) : Rat) * u := by
      rw [hy]
      show _ = _ * pow10 _
      rw [pow10_eq]
      push_cast
      rw [mul_assoc, ← zpow_natCast, ← zpow_add₀ (by norm_num)]
      congr 2
      omega
    rw [this]
    generalize d * 10 ^ (e - (leading10 q + 1 - n)).toNat = k
    rcases Nat.lt_or_ge c k with hk | hk
    · right
      exact mul_le_mul_of_nonneg_right (by exact_mod_cast hk) hu.le
    · left
      exact mul_le_mul_of_nonneg_right (by exact_mod_cast hk) hu.le
  · left
    have t1 : y ≤ (10 : Rat) ^ ((n : Int) + e) := by
      rw [hy, zpow_add₀ (by norm_num), zpow_natCast]
      exact mul_le_mul_of_nonneg_right (by exact_mod_cast hd.le) (zpow_pos (by norm_num) _).le
    have t2 : (10 : Rat) ^ ((n : Int) + e) ≤ pow10 (leading10 q) := by
      rw [pow10_eq]
      exact zpow_le_zpow_right₀ (by norm_num) (by omega)
    refine t1.trans (t2.trans ?_)
    rw [bottom]
    exact mul_le_mul_of_nonneg_right (by exact_mod_cast hc') hu.le

theorem toDouble_pos {y q : Rat} (h : toDouble y = some q) (hq : 0 < q) : 0 < y := by
  by_contra hn
  have := nearestDouble_nonpos (not_lt.1 hn)
  rw [toDouble_nearest h] at this
  linarith

theorem pickDigits_least {q : Rat} (h : Binary64 q) (hq : 0 < q) {n : Nat} (hn : n ≠ 0) {y : Rat} (hy : HasDigits n y)
    (hr : toDouble y = some q) : pickDigits q n ≠ none := by
  obtain ⟨f1, f2, -, f4⟩ := grid hq n hn
  unfold pickDigits
  dsimp only at *
  rcases f4 y hy (toDouble_pos hr hq) with h1 | h1
  · rw [if_pos (toDouble_between h hr (.inl ⟨h1, f1⟩))]
    split <;> simp
  · split
    · split <;> simp
    · rw [if_pos (toDouble_between h hr (.inr ⟨f2.le, h1⟩))]
      simp

theorem pickDigits_nearest {q : Rat} (h : Binary64 q) (hq : 0 < q) {n c : Nat} (hn : n ≠ 0) (hc : pickDigits q n = some c)
    {y : Rat} (hy : HasDigits n y) (hr : toDouble y = some q) :
    |(c : Rat) * pow10 (leading10 q + 1 - n) - q| ≤ |y - q| := by
  obtain ⟨f1, f2, -, f4⟩ := grid hq n hn
  unfold pickDigits at hc
  dsimp only at *
  have g := f4 y hy (toDouble_pos hr hq)
  generalize pow10 (leading10 q + 1 - n) = u at *
  generalize (q / u).floor.toNat = d at *
  have low : y ≤ (d : Rat) * u → |(d : Rat) * u - q| ≤ |y - q| := by
    intro h1
    rw [abs_of_nonpos (by linarith), abs_of_nonpos (by linarith)]
    linarith
  have high : ((d + 1 : Nat) : Rat) * u ≤ y → |((d + 1 : Nat) : Rat) * u - q| ≤ |y - q| := by
    intro h1
    rw [abs_of_nonneg (by linarith), abs_of_nonneg (by linarith)]
    linarith
  have ed : |(d : Rat) * u - q| = q - (d : Rat) * u := by rw [abs_of_nonpos (by linarith)]; ring
  have eu : |((d + 1 : Nat) : Rat) * u - q| = ((d + 1 : Nat) : Rat) * u - q := abs_of_nonneg (by linarith)
  split at hc
  · rename_i hd
    split at hc
    · rename_i hup
      cases hc
      rcases g with g | g
      · have := low g
        refine le_trans ?_ this
        rw [eu, ed]
        rcases hup.2 with h1 | ⟨h1, -⟩
        · exact h1.le
        · exact h1.le
      · exact high g
    · rename_i hup
      cases hc
      rcases g with g | g
      · exact low g
      · have hu' := toDouble_between h hr (.inr ⟨f2.le, g⟩)
        refine le_trans ?_ (high g)
        rw [eu, ed]
        by_contra hlt
        exact hup ⟨hu', .inl (not_le.1 hlt)⟩
  · rename_i hd
    split at hc
    · cases hc
      rcases g with g | g
      · exact absurd (toDouble_between h hr (.inl ⟨g, f1⟩)) hd
      · exact high g
    · cases hc

theorem pickDigits_digits {q : Rat} (hq : 0 < q) {n c : Nat} (hn : n ≠ 0) (hc : pickDigits q n = some c) :
    HasDigits n ((c : Rat) * pow10 (leading10 q + 1 - n)) := by
  obtain ⟨-, -, f3, -⟩ := grid hq n hn
  unfold pickDigits at hc
  dsimp only at *
  have hu := pow10_pos (leading10 q + 1 - n)
  rw [HasDigits, abs_of_nonneg (mul_nonneg (by positivity) hu.le)]
  have key : c ≤ 10 ^ n := by
    split at hc
    · split at hc <;> cases hc <;> omega
    · split at hc
      · cases hc; omega
      · cases hc
  rcases Nat.lt_or_ge c (10 ^ n) with h | h
  · exact ⟨c, _, h, by rw [pow10_eq]⟩
  · have : c = 10 ^ n := by omega
    refine ⟨1, n + (leading10 q + 1 - n), Nat.one_lt_pow hn (by decide), ?_⟩
    rw [this, pow10_eq, zpow_add₀ (by norm_num), zpow_natCast]
    push_cast
    ring

/-- What `shortestDigits` gives. -/
theorem shortest {q : Rat} (h : Binary64 q) (hq : 0 < q) {c : Nat} {e : Int} (hs : shortestDigits q = some (c, e)) :
    ∃ n, n ≤ 17 ∧ HasDigits n ((c : Rat) * pow10 e) ∧ ∀ m y, HasDigits m y → toDouble y = some q →
      n ≤ m ∧ (m = n → |(c : Rat) * pow10 e - q| ≤ |y - q|) := by
  unfold shortestDigits at hs
  obtain ⟨l, i, l', hl, hi, hnone⟩ := List.findSome?_eq_some_iff.1 hs
  obtain ⟨c', hc, he⟩ := Option.map_eq_some_iff.1 hi
  obtain ⟨rfl, rfl⟩ := Prod.mk.inj he
  have hil : i = l.length := by
    have h1 : (List.range 17)[l.length]? = some i := by rw [hl]; simp
    rw [List.getElem?_range (by
      have := congrArg List.length hl
      simp at this
      omega)] at h1
    exact (Option.some.inj h1).symm
  have hi17 : i < 17 := by
    have := congrArg List.length hl
    simp at this
    omega
  have hexp : leading10 q + 1 - ((i + 1 : Nat) : Int) = leading10 q - i := by push_cast; ring
  refine ⟨i + 1, by omega, ?_, ?_⟩
  · have := pickDigits_digits hq (by omega) hc
    rwa [hexp] at this
  · intro m y hy hr
    have hm0 : m ≠ 0 := by
      rintro rfl
      obtain ⟨d, e, hd, hy'⟩ := hy
      have : d = 0 := by omega
      rw [this] at hy'
      have h0 := toDouble_pos hr hq
      simp at hy'
      linarith
    constructor
    · by_contra hlt
      have hmem : m - 1 ∈ l := by
        have h1 : (List.range 17)[m - 1]? = some (m - 1) := List.getElem?_range (by omega)
        rw [hl, List.getElem?_append_left (by omega)] at h1
        exact List.mem_of_getElem? h1
      have := Option.map_eq_none_iff.1 (hnone _ hmem)
      rw [show m - 1 + 1 = m by omega] at this
      exact pickDigits_least h hq hm0 hy hr this
    · rintro rfl
      have := pickDigits_nearest h hq (by omega) hc hy hr
      rwa [hexp] at this

theorem reprPos_value {q : Rat} (h : Binary64 q) (hq : 0 < q) : ∃ c e, shortestDigits q = some (c, e) ∧
    readUnsigned (reprPos q) = some ((c : Rat) * pow10 e) := by
  obtain ⟨c, e, hs, hc, hd⟩ := shortestDigits_some h hq
  refine ⟨c, e, hs, ?_⟩
  obtain ⟨hl, z, hlen, hv⟩ := trim_leading hc
  unfold reprPos
  rw [hs]
  dsimp only
  obtain ⟨a, b, r⟩ := layout_ok hl 16 (e + (Nat.toDigits 10 c).length)
  rw [r]
  refine congrArg some ?_
  rw [hlen, show e + (((trimZeros (Nat.toDigits 10 c)).length + z : Nat) : Int) - (trimZeros (Nat.toDigits 10 c)).length =
    (z : Int) + e by push_cast; ring, zpow_add₀ (by norm_num), zpow_natCast, pow10_eq]
  conv_rhs => rw [hv]
  push_cast
  ring

theorem hasDigits_neg {n : Nat} {x : Rat} : HasDigits n (-x) ↔ HasDigits n x := by
  unfold HasDigits
  rw [abs_neg]

theorem reprPos_shortest {q : Rat} (h : Binary64 q) (hq : 0 < q) : ∃ x n, readUnsigned (reprPos q) = some x ∧
    toDouble x = some q ∧ n ≤ 17 ∧ HasDigits n x ∧ ∀ m y, HasDigits m y → toDouble y = some q →
      n ≤ m ∧ (m = n → |x - q| ≤ |y - q|) := by
  obtain ⟨c, e, hs, hr⟩ := reprPos_value h hq
  obtain ⟨n, h1, h2, h3⟩ := shortest h hq hs
  refine ⟨_, n, hr, ?_, h1, h2, h3⟩
  have := (reprPos_ok h hq).2.2
  rwa [hr, Option.bind_some] at this

theorem floatRepr_shortest {q : Rat} (h : Binary64 q) (h0 : q ≠ 0) : ∃ x n, readDecimal (floatRepr q) = some x ∧
    toDouble x = some q ∧ n ≤ 17 ∧ HasDigits n x ∧ ∀ m y, HasDigits m y → toDouble y = some q →
      n ≤ m ∧ (m = n → |x - q| ≤ |y - q|) := by
  unfold floatRepr
  rw [if_neg h0]
  split
  · rename_i hn
    obtain ⟨x, n, h1, h2, h3, h4, h5⟩ := reprPos_shortest (binary_neg h) (by linarith)
    refine ⟨-x, n, ?_, ?_, h3, hasDigits_neg.2 h4, fun m y hm hy => ?_⟩
    · show (readUnsigned (reprPos (-q))).map (fun q => -q) = _
      rw [h1]
      rfl
    · rw [toDouble_neg, h2]
      simp
    · have := h5 m (-y) (hasDigits_neg.2 hm) (by rw [toDouble_neg, hy]; rfl)
      refine ⟨this.1, fun e => ?_⟩
      have := this.2 e
      rwa [show x - -q = -(-x - q) by ring, show -y - -q = -(y - q) by ring, abs_neg, abs_neg] at this
  · rename_i hn
    have hpos : 0 < q := lt_of_le_of_ne (not_lt.1 hn) (Ne.symm h0)
    obtain ⟨x, n, h1, h2⟩ := reprPos_shortest h hpos
    obtain ⟨a, b, -⟩ := reprPos_ok h hpos
    exact ⟨x, n, by rw [readDecimal_pos b a]; exact h1, h2⟩

mutual
theorem plain_of_py : ∀ v, PyJson v → Plain pyFloats v
  | .num (.flt q), h => by
    rw [Plain]
    rw [PyJson] at h
    exact floats_exact h
  | .list l, h => by
    rw [Plain]
    rw [PyJson] at h
    exact plainList_of_py l h
  | .dict d, h => by
    rw [Plain]
    rw [PyJson] at h
    exact ⟨h.1, plainDict_of_py d h.2⟩
  | .none, _ => by unfold Plain; trivial
  | .bool _, _ => by unfold Plain; trivial
  | .num (.int _), _ => by unfold Plain; trivial
  | .str _, _ => by unfold Plain; trivial
theorem plainList_of_py : ∀ l, PyJsonList l → PlainList pyFloats l
  | [], _ => by unfold PlainList; trivial
  | v :: l, h => by
    rw [PyJsonList] at h
    rw [PlainList]
    exact ⟨plain_of_py v h.1, plainList_of_py l h.2⟩
theorem plainDict_of_py : ∀ d, PyJsonDict d → PlainDict pyFloats d
  | [], _ => by unfold PlainDict; trivial
  | (_, v) :: d, h => by
    rw [PyJsonDict] at h
    rw [PlainDict]
    exact ⟨plain_of_py v h.1, plainDict_of_py d h.2⟩
end

theorem printed_of_py : ∀ n, PyNum n → PrintedExactly pyFloats n
  | .int _, _ => trivial
  | .flt _, h => floats_exact h

end Verif
