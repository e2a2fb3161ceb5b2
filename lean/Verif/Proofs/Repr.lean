import Verif.Proofs.Decimal
import Verif.Proofs.Json
import Verif.Py.Repr
/-!
# Helper lemmas: the text of a float is read back as the float
-/
set_option autoImplicit false

namespace Verif
open Spec

/-! ## Floats and the distances between them -/

theorem nearest_self {q : Rat} (h : Binary64 q) : nearestDouble q = q := by
  have hs := binary_small h
  rw [tooLarge_iff, not_le] at hs
  exact rounded_unique (nearestDouble_rounded hs) (rounded_self h)

/-- A positive float as a multiple of its last place. -/
theorem float_units {q : Rat} (h : Binary64 q) (hq : 0 < q) :
    ∃ m : Int, q = (m : Rat) * pow2 (lastPlace q) ∧ 0 < m ∧ m < 2 ^ 53 ∧ (-1074 < lastPlace q → 2 ^ 52 ≤ m) ∧
      lastPlace q ≤ 971 := by
  have e := nearest_self h
  rw [nearestDouble_nonzero hq.ne', abs_of_pos hq] at e
  have hp := pow2_pos (lastPlace q)
  refine ⟨halfEven (q / pow2 (lastPlace q)), e.symm, ?_, ?_, fun hl => ?_, ?_⟩
  · by_contra hc
    have : ((halfEven (q / pow2 (lastPlace q)) : Int) : Rat) ≤ 0 := by exact_mod_cast not_lt.1 hc
    have := mul_nonpos_of_nonpos_of_nonneg this hp.le
    linarith
  · have := lt_of_mul_lt_mul_right (show ((halfEven (q / pow2 (lastPlace q)) : Int) : Rat) * pow2 (lastPlace q) <
      ((2 ^ 53 : Int) : Rat) * pow2 (lastPlace q) by rw [e]; exact lastPlace_hi hq) hp.le
    exact_mod_cast this
  · have := le_of_mul_le_mul_right (show ((2 ^ 52 : Int) : Rat) * pow2 (lastPlace q) ≤
      ((halfEven (q / pow2 (lastPlace q)) : Int) : Rat) * pow2 (lastPlace q) by rw [e]; exact lastPlace_lo hq hl) hp
    exact_mod_cast this
  · have hs := binary_small h
    unfold TooLarge at hs
    rw [not_le, abs_of_pos hq] at hs
    have hlt : q < pow2 1024 := by
      have := pow2_pos 970
      rw [pow2_eq] at this ⊢
      exact hs.trans (sub_lt_self _ this)
    have b := (leading_le hq).trans_lt hlt
    rw [pow2_eq, pow2_eq] at b
    have := (zpow_lt_zpow_iff_right₀ (by norm_num : (1 : Rat) < 2)).1 b
    unfold lastPlace
    omega

/-- Other floats are one last place away, or half of it below a power of two. -/
theorem float_spacing {q r : Rat} {m : Int} (hm : q = (m : Rat) * pow2 (lastPlace q))
    (h52 : -1074 < lastPlace q → 2 ^ 52 ≤ m) (hr : Binary64 r) (hne : r ≠ q) :
    pow2 (lastPlace q) ≤ |r - q| ∨ (m = 2 ^ 52 ∧ pow2 (lastPlace q) / 2 ≤ |r - q|) := by
  generalize lastPlace q = L at *
  have hp := pow2_pos L
  obtain ⟨k, j, hk, hj, -, rfl⟩ := hr
  rcases le_or_gt L j with hjL | hjL
  · left
    obtain ⟨n, hn⟩ := Int.eq_ofNat_of_zero_le (show 0 ≤ j - L by omega)
    have e1 : (2 : Rat) ^ j = 2 ^ n * 2 ^ L := by
      rw [← zpow_natCast, ← zpow_add₀ (by norm_num)]; congr 1; omega
    have e2 : (k : Rat) * (2 : Rat) ^ j - q = ((k * 2 ^ n - m : Int) : Rat) * pow2 L := by
      rw [e1, hm, pow2_eq]; push_cast; ring
    have hz : k * 2 ^ n - m ≠ 0 := by
      intro hz
      rw [hz] at e2
      apply hne
      have : (k : Rat) * (2 : Rat) ^ j - q = 0 := by rw [e2]; simp
      linarith
    rw [e2, abs_mul, abs_of_pos hp, ← Int.cast_abs]
    have : (1 : Rat) ≤ ((|k * 2 ^ n - m| : Int) : Rat) := by exact_mod_cast Int.one_le_abs hz
    nlinarith
  · have hm52 := h52 (by omega)
    rcases eq_or_lt_of_le (show j ≤ L - 1 by omega) with e | e
    · have e1 : pow2 L = 2 * (2 : Rat) ^ j := by
        rw [pow2_eq, show L = 1 + j by omega, zpow_add₀ (by norm_num), zpow_one]
      have e2 : (k : Rat) * (2 : Rat) ^ j - q = ((k - 2 * m : Int) : Rat) * (2 : Rat) ^ j := by
        rw [hm, e1]; push_cast; ring
      have h2j : (0 : Rat) < (2 : Rat) ^ j := zpow_pos (by norm_num) _
      rw [e2, abs_mul, abs_of_pos h2j, ← Int.cast_abs, e1]
      have hk' := abs_lt.1 hk
      rcases eq_or_lt_of_le hm52 with h | h
      · right
        refine ⟨h.symm, ?_⟩
        have : (1 : Int) ≤ |k - 2 * m| := by
          rw [abs_of_neg (by omega)]; omega
        have : (1 : Rat) ≤ ((|k - 2 * m| : Int) : Rat) := by exact_mod_cast this
        nlinarith
      · left
        have : (2 : Int) ≤ |k - 2 * m| := by
          rw [abs_of_neg (by omega)]; omega
        have : (2 : Rat) ≤ ((|k - 2 * m| : Int) : Rat) := by exact_mod_cast this
        nlinarith
    · left
      have h1 : |(k : Rat) * (2 : Rat) ^ j| ≤ ((2 ^ 51 : Int) : Rat) * pow2 L := by
        rw [abs_mul, abs_of_pos (zpow_pos (by norm_num : (0 : Rat) < 2) j), ← Int.cast_abs]
        have h1 : ((|k| : Int) : Rat) ≤ ((2 ^ 53 : Int) : Rat) := by exact_mod_cast hk.le
        have h2 : ((2 ^ 53 : Int) : Rat) * 2 ^ j ≤ ((2 ^ 51 : Int) : Rat) * pow2 L := by
          rw [← pow2_eq, ← pow2_split, ← pow2_split]
          exact pow2_mono (by push_cast; omega)
        exact le_trans (mul_le_mul_of_nonneg_right h1 (zpow_pos (by norm_num) _).le) h2
      have h2 : ((2 ^ 52 : Int) : Rat) * pow2 L ≤ q := by
        rw [hm]
        exact mul_le_mul_of_nonneg_right (by exact_mod_cast hm52) hp.le
      have h3 := (abs_le.1 h1).2
      rw [abs_of_neg (by push_cast at h1 h2 h3 ⊢; nlinarith)]
      push_cast at h2 h3 ⊢
      nlinarith

/-- A number near enough to a float has this float. -/
theorem toDouble_back {p q : Rat} {m : Int} (h : Binary64 q) (hq : 0 < q) (hm : q = (m : Rat) * pow2 (lastPlace q))
    (h1 : |p - q| < pow2 (lastPlace q) / 2) (h2 : m = 2 ^ 52 → |p - q| < pow2 (lastPlace q) / 4) :
    toDouble p = some q := by
  obtain ⟨m', hm', -, h53, h52, h971⟩ := float_units h hq
  have hp := pow2_pos (lastPlace q)
  obtain rfl : m' = m := by
    rw [hm] at hm'
    have := mul_right_cancel₀ hp.ne' (hm.symm.trans (by rw [← hm] at hm'; exact hm'))
    exact_mod_cast this.symm
  refine (toDouble_some _ _).2 ⟨?_, h, fun r hr hne => .inl ?_⟩
  · unfold TooLarge
    rw [not_le, limit_eq]
    have hp70 := pow2_pos 970
    have hb : q + pow2 (lastPlace q) / 2 ≤ ((2 ^ 54 - 1 : Int) : Rat) * pow2 970 := by
      have h3 : pow2 (lastPlace q) ≤ 2 * pow2 970 := by
        rw [← pow2_971]; exact pow2_mono h971
      have h4 : (m' : Rat) ≤ ((2 ^ 53 - 1 : Int) : Rat) := by exact_mod_cast (show m' ≤ 2 ^ 53 - 1 by omega)
      have h5 : q ≤ ((2 ^ 53 - 1 : Int) : Rat) * pow2 (lastPlace q) := by
        refine hm.le.trans ?_
        exact mul_le_mul_of_nonneg_right h4 hp.le
      push_cast at h5 ⊢
      linarith
    have h6 := abs_lt.1 h1
    generalize ((2 ^ 54 - 1 : Int) : Rat) * pow2 970 = B at *
    have h7 : pow2 (lastPlace q) / 2 ≤ B := by linarith
    rw [abs_lt]
    constructor <;> linarith [h6.1, h6.2]
  · have tri : |r - q| ≤ |r - p| + |p - q| := abs_sub_le _ _ _
    rw [abs_sub_comm q p]
    rcases float_spacing hm h52 hr hne with h3 | ⟨h3, h4⟩
    · linarith
    · have := h2 h3
      linarith

/-! ## The number of digits -/

theorem tens_bounds : ∀ (fuel n : Nat), n ≠ 0 → n < 2 ^ (fuel + 1) → 10 ^ tens fuel n ≤ n ∧ n < 10 ^ (tens fuel n + 1) := by
  intro fuel
  induction fuel with
  | zero =>
    intro n h0 h
    rw [tens]
    omega
  | succ fuel ih =>
    intro n h0 h
    rw [tens]
    split
    · rename_i h'
      simp
      omega
    · obtain ⟨a, b⟩ := ih (n / 10) (by omega) (by rw [Nat.pow_succ] at h; omega)
      constructor
      · rw [Nat.pow_succ]
        omega
      · rw [Nat.pow_succ]
        omega

theorem log10_bounds {n : Nat} (h : n ≠ 0) : 10 ^ log10 n ≤ n ∧ n < 10 ^ (log10 n + 1) :=
  tens_bounds _ _ h Nat.lt_log2_self

theorem pow10_pos (e : Int) : 0 < pow10 e := by rw [pow10_eq]; exact zpow_pos (by norm_num) _

theorem leading10_bounds {q : Rat} (h : 0 < q) : pow10 (leading10 q) ≤ q ∧ q < pow10 (leading10 q + 1) := by
  have hn : q.num.natAbs ≠ 0 := by
    have := Rat.num_pos.2 h
    omega
  obtain ⟨a1, a2⟩ := log10_bounds hn
  obtain ⟨b1, b2⟩ := log10_bounds q.den_pos.ne'
  have hq : q = (q.num.natAbs : Rat) / (q.den : Rat) := by
    conv_lhs => rw [← Rat.num_div_den q]
    congr 1
    have := Rat.num_pos.2 h
    rw [Nat.cast_natAbs, abs_of_pos this]
  have hd : (0 : Rat) < q.den := by exact_mod_cast q.den_pos
  generalize hN : q.num.natAbs = N at *
  generalize hD : q.den = D at *
  have a1' : ((10 : Rat) ^ log10 N) ≤ (N : Rat) := by exact_mod_cast a1
  have a2' : (N : Rat) < (10 : Rat) ^ (log10 N + 1) := by exact_mod_cast a2
  have b1' : ((10 : Rat) ^ log10 D) ≤ (D : Rat) := by exact_mod_cast b1
  have b2' : (D : Rat) < (10 : Rat) ^ (log10 D + 1) := by exact_mod_cast b2
  have lo : pow10 ((log10 N : Int) - log10 D - 1) ≤ q := by
    rw [pow10_eq, show ((log10 N : Int) - log10 D - 1) = (log10 N : Int) - ((log10 D + 1 : Nat) : Int) by push_cast; ring,
      zpow_sub₀ (by norm_num), zpow_natCast, zpow_natCast, hq, div_le_div_iff₀ (by positivity) hd]
    exact mul_le_mul a1' b2'.le hd.le (by positivity)
  have hi : q < pow10 ((log10 N : Int) - log10 D + 1) := by
    rw [pow10_eq, show ((log10 N : Int) - log10 D + 1) = ((log10 N + 1 : Nat) : Int) - (log10 D : Int) by push_cast; ring,
      zpow_sub₀ (by norm_num), zpow_natCast, zpow_natCast, hq, div_lt_div_iff₀ hd (by positivity)]
    exact mul_lt_mul a2' b1' (by positivity) (by positivity)
  unfold leading10
  dsimp only
  split
  · rename_i hle
    rw [show q.num.natAbs = N from hN, show q.den = D from hD] at hle ⊢
    exact ⟨hle, hi⟩
  · rename_i hlt
    rw [show q.num.natAbs = N from hN, show q.den = D from hD] at hlt ⊢
    rw [Int.sub_add_cancel]
    exact ⟨lo, not_le.1 hlt⟩

/-! ## Choosing the digits -/

theorem pickDigits_some {q : Rat} {n c : Nat} (h : pickDigits q n = some c) :
    toDouble ((c : Rat) * pow10 (leading10 q + 1 - n)) = some q := by
  unfold pickDigits at h
  dsimp only at h
  split at h
  · split at h
    · rename_i h'
      cases h
      exact h'.1
    · cases h
      assumption
  · split at h
    · cases h
      assumption
    · cases h

/-- Seventeen digits are enough. -/
theorem pickDigits_17 {q : Rat} (h : Binary64 q) (hq : 0 < q) : pickDigits q 17 ≠ none := by
  obtain ⟨m, hm, hm0, h53, h52, -⟩ := float_units h hq
  have hp := pow2_pos (lastPlace q)
  have hlead := (leading10_bounds hq).1
  have hu := pow10_pos (leading10 q + 1 - (17 : Nat))
  have split16 : ∀ e : Int, pow10 e = 10 ^ 16 * pow10 (e + 1 - (17 : Nat)) := by
    intro e
    rw [pow10_eq, pow10_eq]
    have : (10 : Rat) ^ e = (10 : Rat) ^ (((16 : Nat) : Int) + (e + 1 - (17 : Nat))) := by congr 1; push_cast; omega
    rw [this, zpow_add₀ (by norm_num), zpow_natCast]
  have e17 := split16 (leading10 q)
  -- half a unit of the last digit is below half of the last place
  have half : ∀ p : Rat, |p - q| ≤ pow10 (leading10 q + 1 - (17 : Nat)) / 2 → toDouble p = some q := by
    intro p hpq
    refine toDouble_back h hq hm ?_ (fun h52' => ?_)
    · have h1 : (m : Rat) ≤ 2 ^ 53 := by exact_mod_cast h53.le
      have h2 : q ≤ 2 ^ 53 * pow2 (lastPlace q) := hm.le.trans (mul_le_mul_of_nonneg_right h1 hp.le)
      generalize pow2 (lastPlace q) = u at *
      generalize pow10 (leading10 q + 1 - (17 : Nat)) = t at *
      rw [e17] at hlead
      norm_num at h2 hlead
      linarith
    · have h1 : (m : Rat) ≤ 2 ^ 52 := by rw [h52']; norm_num
      have h2 : q ≤ 2 ^ 52 * pow2 (lastPlace q) := hm.le.trans (mul_le_mul_of_nonneg_right h1 hp.le)
      generalize pow2 (lastPlace q) = u at *
      generalize pow10 (leading10 q + 1 - (17 : Nat)) = t at *
      rw [e17] at hlead
      norm_num at h2 hlead
      linarith
  unfold pickDigits
  dsimp only
  generalize pow10 (leading10 q + 1 - (17 : Nat)) = t at *
  have hdiv : 0 ≤ q / t := (div_pos hq hu).le
  have f0 : 0 ≤ (q / t).floor := by
    have := Rat.floor_monotone hdiv
    rwa [show Rat.floor 0 = 0 by decide +kernel] at this
  have fc : (((q / t).floor.toNat : Nat) : Rat) = ((q / t).floor : Rat) := by
    have : (((q / t).floor.toNat : Nat) : Int) = (q / t).floor := Int.toNat_of_nonneg f0
    exact_mod_cast congrArg (Int.cast (R := Rat)) this
  have f1 : ((q / t).floor : Rat) * t ≤ q := (le_div_iff₀ hu).1 (Rat.floor_le _)
  have f2 : q < ((q / t).floor + 1 : Rat) * t := by
    have := Rat.lt_floor_add_one (q / t)
    push_cast at this
    exact (div_lt_iff₀ hu).1 this
  generalize (q / t).floor.toNat = c at *
  rw [← fc] at f1 f2
  have key : toDouble ((c : Rat) * t) = some q ∨ toDouble (((c + 1 : Nat) : Rat) * t) = some q := by
    rcases le_or_gt (q - (c : Rat) * t) (t / 2) with h | h
    · left
      refine half _ ?_
      rw [abs_of_nonpos (by linarith)]
      linarith
    · right
      refine half _ ?_
      push_cast
      rw [abs_of_nonneg (by linarith)]
      linarith
  split
  · split <;> simp
  · rename_i hn
    rw [if_pos (key.resolve_left hn)]
    simp

theorem shortestDigits_some {q : Rat} (h : Binary64 q) (hq : 0 < q) :
    ∃ (c : Nat) (e : Int), shortestDigits q = some (c, e) ∧ c ≠ 0 ∧ toDouble ((c : Rat) * pow10 e) = some q := by
  unfold shortestDigits
  cases hs : (List.range 17).findSome? (fun i => (pickDigits q (i + 1)).map (fun c => (c, leading10 q - i))) with
  | none =>
    rw [List.findSome?_eq_none_iff] at hs
    have := hs 16 (by decide)
    exact absurd (Option.map_eq_none_iff.1 this) (pickDigits_17 h hq)
  | some x =>
    obtain ⟨i, -, hi⟩ := List.exists_of_findSome?_eq_some hs
    obtain ⟨c, hc, rfl⟩ := Option.map_eq_some_iff.1 hi
    have := pickDigits_some hc
    rw [show leading10 q + 1 - ((i + 1 : Nat) : Int) = leading10 q - i by push_cast; ring] at this
    refine ⟨c, _, rfl, ?_, this⟩
    rintro rfl
    rw [Nat.cast_zero, zero_mul] at this
    have h0 : toDouble 0 = some 0 := by decide +kernel
    rw [h0] at this
    exact hq.ne (Option.some.inj this)

/-! ## The text -/

theorem run_of {l : List Char} (hd : ∀ c ∈ l, c.isDigit = true) (hne : l ≠ []) : DigitRun l (Nat.ofDigitChars 10 l 0) :=
  (readDigits_iff _ _).1 (readDigits_digits _ _ _ hd (fun h => absurd h hne))

theorem part_of {l : List Char} (hd : ∀ c ∈ l, c.isDigit = true) : DigitPart l (Nat.ofDigitChars 10 l 0) l.length := by
  rcases eq_or_ne l [] with rfl | hne
  · exact .inl ⟨rfl, rfl, rfl⟩
  · refine .inr ⟨run_of hd hne, ?_⟩
    rw [List.filter_eq_self.2]
    intro c hc
    have : c ≠ '_' := by rintro rfl; exact absurd (hd _ hc) (by decide)
    simp [this]

theorem zeros_digits (n : Nat) : ∀ c ∈ List.replicate n '0', c.isDigit = true := by
  intro c hc
  rw [(List.mem_replicate.1 hc).2]
  rfl

theorem toDigits_digits (n : Nat) : ∀ c ∈ Nat.toDigits 10 n, c.isDigit = true :=
  fun _ hc => Nat.isDigit_of_mem_toDigits (by decide) (by decide) hc

theorem two_digits (n : Nat) : (∀ c ∈ twoDigits n, c.isDigit = true) ∧ twoDigits n ≠ [] ∧
    Nat.ofDigitChars 10 (twoDigits n) 0 = n := by
  unfold twoDigits
  split
  · refine ⟨fun c hc => ?_, by simp, ?_⟩
    · rcases List.mem_cons.1 hc with rfl | hc
      · rfl
      · exact toDigits_digits n c hc
    · rw [Nat.ofDigitChars_cons]
      exact Nat.ofDigitChars_ten_toDigits
  · exact ⟨toDigits_digits n, Nat.toDigits_ne_nil, Nat.ofDigitChars_ten_toDigits⟩

/-- Digits with a nonzero digit before them. -/
structure Leading (ds : List Char) : Prop where
  digits : ∀ c ∈ ds, c.isDigit = true
  ne : ds ≠ []
  head : ds.head? ≠ some '0'

theorem Leading.intLit {ds : List Char} (h : Leading ds) : IntLit ds := by
  obtain ⟨hd, hne, hh⟩ := h
  cases ds with
  | nil => exact absurd rfl hne
  | cons c r =>
    exact .inr ⟨c, r, rfl, fun e => hh (by rw [e]; rfl), hd c (List.mem_cons_self ..),
      fun x hx => hd x (List.mem_cons_of_mem _ hx)⟩

/-- What `format_float_short` writes is in JSON's grammar and reads as the digits times the power of ten. -/
theorem layout_ok {ds : List Char} (h : Leading ds) (top k : Int) :
    FloatLit (layoutFloat top ds k) ∧ (layoutFloat top ds k).head? ≠ some '-' ∧
    readUnsigned (layoutFloat top ds k) = some ((Nat.ofDigitChars 10 ds 0 : Rat) * (10 : Rat) ^ (k - ds.length)) := by
  have hi := h.intLit
  obtain ⟨hd, hne, hh⟩ := h
  rw [readUnsigned_iff]
  have t10 : ∀ e : Int, (10 : Rat) ^ e ≠ 0 := fun e => zpow_ne_zero _ (by norm_num)
  have dig : ∀ {c : Char}, c.isDigit = true → some c ≠ some '-' := by
    intro c hc e
    cases e
    exact absurd hc (by decide)
  have hhead : ∀ r, (ds ++ r).head? ≠ some '-' := by
    intro r
    cases ds with
    | nil => exact absurd rfl hne
    | cons c l => exact dig (hd c (List.mem_cons_self ..))
  unfold layoutFloat
  split
  · -- with an exponent
    obtain ⟨td, tne, tv⟩ := two_digits (k - 1).natAbs
    have hsign : ∃ z : Int, Sign [if k - 1 < 0 then '-' else '+'] z ∧ k - 1 = z * ((k - 1).natAbs : Int) := by
      split
      · exact ⟨-1, .inr (.inr ⟨rfl, rfl⟩), by omega⟩
      · exact ⟨1, .inr (.inl ⟨rfl, rfl⟩), by omega⟩
    obtain ⟨z, hz, hk⟩ := hsign
    have hx : ExponentPart ('e' :: (if k - 1 < 0 then '-' else '+') :: twoDigits (k - 1).natAbs) (k - 1) := by
      refine .inr ⟨'e', [_], twoDigits (k - 1).natAbs, (k - 1).natAbs, z, .inl rfl, rfl, hz, ?_, hk⟩
      have := run_of td tne
      rwa [tv] at this
    have hl : ExpLit ('e' :: (if k - 1 < 0 then '-' else '+') :: twoDigits (k - 1).natAbs) := by
      refine ⟨'e', [if k - 1 < 0 then '-' else '+'], twoDigits (k - 1).natAbs, rfl, .inl rfl, ?_, tne, td⟩
      split
      · exact .inr (.inr rfl)
      · exact .inr (.inl rfl)
    split
    · rename_i d e r
      have hd1 : d.isDigit = true := hd d (by simp)
      have hr : ∀ c ∈ e :: r, c.isDigit = true := fun c hc => hd c (List.mem_cons_of_mem _ hc)
      refine ⟨⟨[], [d], '.' :: e :: r, _, rfl, .inl rfl, ?_, .inr ⟨e :: r, rfl, by simp, hr⟩, .inr hl, .inl (by simp)⟩,
        dig hd1, [d] ++ '.' :: (e :: r), _, _, k - 1, by simp, .inr ⟨[d], e :: r, _, _, _, _, rfl, .inl (by simp), part_of (by
          intro c hc; cases List.mem_singleton.1 hc; exact hd1), part_of hr, rfl⟩, hx, ?_⟩
      · by_cases h0 : d = '0'
        · exact .inl (by rw [h0])
        · exact .inr ⟨d, [], rfl, h0, hd1, by simp⟩
      · have e1 : Nat.ofDigitChars 10 (d :: e :: r) 0 = 10 ^ (e :: r).length * Nat.ofDigitChars 10 [d] 0 +
            Nat.ofDigitChars 10 (e :: r) 0 := by
          rw [show d :: e :: r = [d] ++ (e :: r) from rfl, Nat.ofDigitChars_append, Nat.ofDigitChars_eq_ofDigitChars_zero]
        rw [e1]
        have e2 : (10 : Rat) ^ (k - 1) = 10 ^ (e :: r).length * 10 ^ (k - ((d :: e :: r).length : Nat)) := by
          rw [← zpow_natCast, ← zpow_add₀ (by norm_num)]; congr 1; simp only [List.length_cons]; push_cast; ring
        rw [e2]
        have : (10 : Rat) ^ (e :: r).length ≠ 0 := pow_ne_zero _ (by norm_num)
        push_cast
        field_simp
    · rename_i hnot
      obtain ⟨d, rfl⟩ : ∃ d, ds = [d] := by
        cases ds with
        | nil => exact absurd rfl hne
        | cons d l =>
          cases l with
          | nil => exact ⟨d, rfl⟩
          | cons e r => exact absurd rfl (hnot d e r)
      refine ⟨⟨[], [d], [], _, rfl, .inl rfl, hi, .inl rfl, .inr hl, .inr (by simp)⟩, hhead _, [d], _, _, k - 1, rfl,
        .inl ⟨_, run_of hd hne, rfl⟩, hx, ?_⟩
      simp
  · split
    · -- below one
      rename_i hk
      have hz : ∀ c ∈ List.replicate (-k).toNat '0' ++ ds, c.isDigit = true := by
        intro c hc
        rcases List.mem_append.1 hc with hc | hc
        · exact zeros_digits _ c hc
        · exact hd c hc
      refine ⟨⟨[], ['0'], '.' :: (List.replicate (-k).toNat '0' ++ ds), [], by simp, .inl rfl, .inl rfl,
        .inr ⟨_, rfl, by simp [hne], hz⟩, .inl rfl, .inl (by simp)⟩, by simp, ['0'] ++ '.' :: (List.replicate (-k).toNat '0' ++ ds), [], _, 0, by simp,
        .inr ⟨['0'], _, 0, _, _, 1, rfl, .inl (by simp), .inr ⟨.one 0, rfl⟩, part_of hz, rfl⟩, .inl ⟨rfl, rfl⟩, ?_⟩
      rw [Nat.ofDigitChars_append, Nat.ofDigitChars_replicate_zero, Nat.mul_zero, List.length_append, List.length_replicate]
      rw [show k - (ds.length : Int) = -(((-k).toNat + ds.length : Nat) : Int) by push_cast; omega, zpow_neg, zpow_natCast]
      simp [div_eq_mul_inv]
    · rename_i hk
      split
      · -- a whole number
        rename_i hlen
        have hz : ∀ c ∈ ds ++ List.replicate (k.toNat - ds.length) '0', c.isDigit = true := by
          intro c hc
          rcases List.mem_append.1 hc with hc | hc
          · exact hd c hc
          · exact zeros_digits _ c hc
        have hlead : Leading (ds ++ List.replicate (k.toNat - ds.length) '0') := by
          refine ⟨hz, by simp [hne], ?_⟩
          cases ds with
          | nil => exact absurd rfl hne
          | cons c l => exact hh
        refine ⟨⟨[], ds ++ List.replicate (k.toNat - ds.length) '0', ['.', '0'], [], by simp, .inl rfl, hlead.intLit,
          .inr ⟨['0'], rfl, by decide, by decide⟩, .inl rfl, .inl (by simp)⟩, by rw [List.append_assoc]; exact hhead _,
          (ds ++ List.replicate (k.toNat - ds.length) '0') ++ '.' :: ['0'], [], _, 0, by simp,
          .inr ⟨_, ['0'], _, 0, 1, _, rfl, .inr (by simp), part_of hz, .inr ⟨.one 0, rfl⟩, rfl⟩, .inl ⟨rfl, rfl⟩, ?_⟩
        rw [Nat.ofDigitChars_append, Nat.ofDigitChars_replicate_zero]
        rw [show k - (ds.length : Int) = ((k.toNat - ds.length : Nat) : Int) by omega, zpow_natCast]
        push_cast
        simp
        ring
      · -- a point inside
        rename_i hlen
        have ht : ∀ c ∈ ds.take k.toNat, c.isDigit = true := fun c hc => hd c (List.mem_of_mem_take hc)
        have hdr : ∀ c ∈ ds.drop k.toNat, c.isDigit = true := fun c hc => hd c (List.mem_of_mem_drop hc)
        have hdne : ds.drop k.toNat ≠ [] := by
          intro e
          have := congrArg List.length e
          simp at this
          omega
        have hlead : Leading (ds.take k.toNat) := by
          cases ds with
          | nil => exact absurd rfl hne
          | cons c l =>
            obtain ⟨j, hj⟩ : ∃ j, k.toNat = j + 1 := ⟨k.toNat - 1, by omega⟩
            rw [hj] at ht ⊢
            exact ⟨ht, by simp, hh⟩
        refine ⟨⟨[], ds.take k.toNat, '.' :: ds.drop k.toNat, [], by simp, .inl rfl, hlead.intLit,
          .inr ⟨_, rfl, hdne, hdr⟩, .inl rfl, .inl (by simp)⟩, ?_, ds.take k.toNat ++ '.' :: ds.drop k.toNat, [], _, 0, by simp,
          .inr ⟨_, _, _, _, _, _, rfl, .inr hdne, part_of ht, part_of hdr, rfl⟩, .inl ⟨rfl, rfl⟩, ?_⟩
        · have := hlead.ne
          cases htk : ds.take k.toNat with
          | nil => exact absurd htk this
          | cons c l => exact dig (ht c (by rw [htk]; simp))
        · have e1 : Nat.ofDigitChars 10 ds 0 = 10 ^ (ds.drop k.toNat).length * Nat.ofDigitChars 10 (ds.take k.toNat) 0 +
              Nat.ofDigitChars 10 (ds.drop k.toNat) 0 := by
            conv_lhs => rw [← List.take_append_drop k.toNat ds]
            rw [Nat.ofDigitChars_append, Nat.ofDigitChars_eq_ofDigitChars_zero]
          rw [e1, show k - (ds.length : Int) = -(((ds.drop k.toNat).length : Nat) : Int) by rw [List.length_drop]; omega,
            zpow_neg, zpow_natCast]
          have : (10 : Rat) ^ (ds.drop k.toNat).length ≠ 0 := pow_ne_zero _ (by norm_num)
          push_cast
          field_simp

theorem trimZeros_split (l : List Char) : ∃ z, l = trimZeros l ++ List.replicate z '0' := by
  obtain ⟨a, ha, ha'⟩ := dropWhile_split (· == '0') l.reverse
  refine ⟨a.length, ?_⟩
  have := congrArg List.reverse ha
  rw [List.reverse_reverse, List.reverse_append] at this
  unfold trimZeros
  rw [List.eq_replicate_of_mem (l := a.reverse) (a := '0')] at this
  · rwa [List.length_reverse] at this
  · intro c hc
    simpa using ha' c (List.mem_reverse.1 hc)

/-- The digits of a positive number without the zeros at their end. -/
theorem trim_leading {c : Nat} (h : c ≠ 0) : Leading (trimZeros (Nat.toDigits 10 c)) ∧
    ∃ z, (Nat.toDigits 10 c).length = (trimZeros (Nat.toDigits 10 c)).length + z ∧
      c = 10 ^ z * Nat.ofDigitChars 10 (trimZeros (Nat.toDigits 10 c)) 0 := by
  obtain ⟨z, hz⟩ := trimZeros_split (Nat.toDigits 10 c)
  have hv : c = 10 ^ z * Nat.ofDigitChars 10 (trimZeros (Nat.toDigits 10 c)) 0 := by
    conv_lhs => rw [← Nat.ofDigitChars_ten_toDigits (n := c), hz, Nat.ofDigitChars_append, Nat.ofDigitChars_replicate_zero]
  have hlen : (Nat.toDigits 10 c).length = (trimZeros (Nat.toDigits 10 c)).length + z := by
    conv_lhs => rw [hz]
    simp
  refine ⟨⟨fun x hx => ?_, fun e => ?_, fun e => ?_⟩, z, hlen, hv⟩
  · refine toDigits_digits c x ?_
    rw [hz]
    exact List.mem_append_left _ hx
  · rw [e] at hv
    simp at hv
    exact h hv
  · have hl := Json.toDigits_lit c
    rcases hl with hl | ⟨a, r, hl, ha, -, -⟩
    · have := Nat.ofDigitChars_ten_toDigits (n := c)
      rw [hl] at this
      exact h (by rw [← this]; rfl)
    · generalize trimZeros (Nat.toDigits 10 c) = t at *
      rw [hl] at hz
      cases t with
      | nil => cases e
      | cons x t =>
        cases e
        injection hz with hx _
        exact ha hx

theorem reprPos_ok {q : Rat} (h : Binary64 q) (hq : 0 < q) :
    FloatLit (reprPos q) ∧ (reprPos q).head? ≠ some '-' ∧ (readUnsigned (reprPos q)).bind toDouble = some q := by
  obtain ⟨c, e, hs, hc, hd⟩ := shortestDigits_some h hq
  obtain ⟨hl, z, hlen, hv⟩ := trim_leading hc
  unfold reprPos
  rw [hs]
  dsimp only
  obtain ⟨a, b, r⟩ := layout_ok hl 16 (e + (Nat.toDigits 10 c).length)
  refine ⟨a, b, ?_⟩
  rw [r, Option.bind_some, ← hd]
  refine congrArg toDouble ?_
  rw [hlen, show e + (((trimZeros (Nat.toDigits 10 c)).length + z : Nat) : Int) - (trimZeros (Nat.toDigits 10 c)).length =
    (z : Int) + e by push_cast; ring, zpow_add₀ (by norm_num), zpow_natCast, pow10_eq]
  conv_rhs => rw [hv]
  push_cast
  ring

theorem readDecimal_pos {l : List Char} (h : l.head? ≠ some '-') (h' : FloatLit l) : readDecimal l = readUnsigned l := by
  obtain ⟨c, t, rfl, hc⟩ := Json.floatLit_head h'
  have hc' : c.isDigit = true := by
    rcases hc with rfl | hc
    · exact absurd rfl h
    · exact hc
  unfold readDecimal
  split
  · rename_i e
    injection e with e _
    subst e
    exact absurd hc' (by decide)
  · rename_i e
    injection e with e _
    subst e
    exact absurd hc' (by decide)
  · rfl

theorem toDouble_neg (q : Rat) : toDouble (-q) = (toDouble q).map (fun x => -x) := by
  unfold toDouble
  dsimp only
  rw [nearestDouble_neg]
  by_cases h : -pow2 1024 < nearestDouble q ∧ nearestDouble q < pow2 1024
  · rw [if_pos h, if_pos ⟨by linarith [h.2], by linarith [h.1]⟩]
    rfl
  · rw [if_neg h, if_neg (fun h' => h ⟨by linarith [h'.2], by linarith [h'.1]⟩)]
    rfl

theorem binary_neg {q : Rat} (h : Binary64 q) : Binary64 (-q) := by
  obtain ⟨m, j, h1, h2, h3, rfl⟩ := h
  exact ⟨-m, j, by rwa [abs_neg], h2, h3, by push_cast; ring⟩

/-- The text of every float is a JSON number and reads back as the float. -/
theorem floats_exact {q : Rat} (h : Binary64 q) : ExactFloat pyFloats q := by
  unfold ExactFloat
  show FloatLit (floatRepr q) ∧ (readDecimal (floatRepr q)).bind toDouble = some q
  unfold floatRepr
  split
  · rename_i h0
    subst h0
    refine ⟨⟨[], ['0'], ['.', '0'], [], rfl, .inl rfl, .inl rfl, .inr ⟨['0'], rfl, by decide, by decide⟩, .inl rfl,
      .inl (by simp)⟩, by decide +kernel⟩
  · rename_i h0
    split
    · rename_i hn
      obtain ⟨⟨sg, i, fr, ex, e, hsg, hi, hf, hx, hne⟩, hh, hr⟩ := reprPos_ok (binary_neg h) (by linarith)
      have hsg' : sg = [] := by
        rcases hsg with rfl | rfl
        · rfl
        · rw [e] at hh
          exact absurd rfl hh
      subst hsg'
      refine ⟨⟨['-'], i, fr, ex, by rw [e]; simp, .inr rfl, hi, hf, hx, hne⟩, ?_⟩
      show ((readUnsigned (reprPos (-q))).map (fun q => -q)).bind toDouble = some q
      cases hu : readUnsigned (reprPos (-q)) with
      | none => rw [hu] at hr; cases hr
      | some p =>
        rw [hu] at hr
        rw [Option.bind_some] at hr
        rw [Option.map_some, Option.bind_some, toDouble_neg, hr]
        simp
    · rename_i hn
      have hpos : 0 < q := lt_of_le_of_ne (not_lt.1 hn) (Ne.symm h0)
      obtain ⟨a, b, r⟩ := reprPos_ok h hpos
      exact ⟨a, by rw [readDecimal_pos b a]; exact r⟩

end Verif
