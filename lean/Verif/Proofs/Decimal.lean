import Verif.Proofs.Text
import Verif.Proofs.Round
/-!
# Helper lemmas: decimal texts
-/
set_option autoImplicit false

namespace Verif
open Spec

theorem pow10_eq (e : Int) : pow10 e = (10 : Rat) ^ e := by
  unfold pow10
  split
  · rename_i h
    obtain ⟨n, rfl⟩ := Int.eq_ofNat_of_zero_le h
    simp
  · rename_i h
    obtain ⟨n, hn⟩ := Int.eq_ofNat_of_zero_le (show 0 ≤ -e by omega)
    obtain rfl : e = -(n : Int) := by omega
    simp

theorem digits_count {l : List Char} (h : ∀ c ∈ l, c = '_' ∨ c.isDigit = true) :
    l.countP Char.isDigit = (l.filter (· ≠ '_')).length := by
  rw [← List.countP_eq_length_filter]
  refine List.countP_congr (fun c hc => ?_)
  rcases h c hc with rfl | h
  · decide
  · have : c ≠ '_' := by rintro rfl; exact absurd h (by decide)
    simp [h, this]

theorem readPart_iff (l : List Char) (n k : Nat) : readPart l = some (n, k) ↔ DigitPart l n k := by
  unfold readPart DigitPart
  constructor
  · intro h
    split at h
    · rename_i he
      rw [List.isEmpty_iff] at he
      cases h
      exact .inl ⟨he, rfl, rfl⟩
    · obtain ⟨m, hm, h⟩ := Option.map_eq_some_iff.1 h
      cases h
      have hr := (readDigits_iff _ _).1 hm
      exact .inr ⟨hr, digits_count hr.chars⟩
  · rintro (⟨rfl, rfl, rfl⟩ | ⟨h, rfl⟩)
    · rfl
    · rw [if_neg (by rw [List.isEmpty_iff]; exact h.ne), h.read, ← digits_count h.chars]
      rfl

theorem sign_mul {s : List Char} {n : Nat} {e : Int} :
    (s = [] ∧ e = n ∨ s = ['+'] ∧ e = n ∨ s = ['-'] ∧ e = -n) ↔ ∃ z, Sign s z ∧ e = z * n := by
  unfold Sign
  constructor
  · rintro (⟨rfl, rfl⟩ | ⟨rfl, rfl⟩ | ⟨rfl, rfl⟩)
    · exact ⟨1, .inl ⟨rfl, rfl⟩, by simp⟩
    · exact ⟨1, .inr (.inl ⟨rfl, rfl⟩), by simp⟩
    · exact ⟨-1, .inr (.inr ⟨rfl, rfl⟩), by simp⟩
  · rintro ⟨z, (⟨rfl, rfl⟩ | ⟨rfl, rfl⟩ | ⟨rfl, rfl⟩), rfl⟩
    · exact .inl ⟨rfl, by simp⟩
    · exact .inr (.inl ⟨rfl, by simp⟩)
    · exact .inr (.inr ⟨rfl, by simp⟩)

theorem readExponent_iff (l : List Char) (e : Int) : readExponent l = some e ↔ ExponentPart l e := by
  unfold ExponentPart
  cases l with
  | nil =>
    constructor
    · intro h
      cases h
      exact .inl ⟨rfl, rfl⟩
    · rintro (⟨-, rfl⟩ | ⟨c, s, m, n, z, -, h, -⟩)
      · rfl
      · cases h
  | cons c cs =>
    show (if c == 'e' || c == 'E' then parseDec cs else none) = some e ↔ _
    constructor
    · intro h
      split at h
      · rename_i hc
        rw [Bool.or_eq_true, beq_iff_eq, beq_iff_eq] at hc
        obtain ⟨s, m, n, hl, hm, hs⟩ := (parseDec_iff _ _).1 h
        obtain ⟨z, hz, he⟩ := sign_mul.1 hs
        exact .inr ⟨c, s, m, n, z, hc, by rw [hl]; rfl, hz, hm, he⟩
      · cases h
    · rintro (⟨h, -⟩ | ⟨c', s, m, n, z, hc, h, hz, hm, he⟩)
      · cases h
      · injection h with h1 h2
        subst h1 h2
        rw [if_pos (by rw [Bool.or_eq_true, beq_iff_eq, beq_iff_eq]; exact hc)]
        exact (parseDec_iff _ _).2 ⟨s, m, n, rfl, hm, sign_mul.2 ⟨z, hz, he⟩⟩

theorem takeWhile_run (a m : List Char) (ha : ∀ c ∈ a, inRun c = true) (hm : ∀ c, m.head? = some c → inRun c = false) :
    (a ++ m).takeWhile inRun = a := by
  have h1 := List.takeWhile_append_dropWhile (p := inRun) (l := a ++ m)
  rw [dropWhile_blanks _ _ _ ha hm] at h1
  exact List.append_cancel_right h1

theorem run_chars {l : List Char} {n : Nat} (h : DigitRun l n) : ∀ c ∈ l, inRun c = true := by
  intro c hc
  unfold inRun
  rcases h.chars c hc with rfl | h
  · decide
  · rw [h]; rfl

theorem part_chars {l : List Char} {n k : Nat} (h : DigitPart l n k) : ∀ c ∈ l, inRun c = true := by
  rcases h with ⟨rfl, -, -⟩ | ⟨h, -⟩
  · intro c hc; cases hc
  · exact run_chars h

theorem exponent_head {l : List Char} {e : Int} (h : ExponentPart l e) :
    ∀ c, l.head? = some c → inRun c = false ∧ c ≠ '.' := by
  intro c hc
  rcases h with ⟨rfl, -⟩ | ⟨x, s, m, n, z, hx, rfl, -⟩
  · cases hc
  · cases hc
    rcases hx with rfl | rfl <;> decide

theorem readUnsigned_iff (l : List Char) (q : Rat) : readUnsigned l = some q ↔
    ∃ (m x : List Char) (v : Rat) (e : Int), l = m ++ x ∧ Mantissa m v ∧ ExponentPart x e ∧ q = v * (10 : Rat) ^ e := by
  constructor
  · intro h
    unfold readUnsigned at h
    dsimp only at h
    have hsplit := List.takeWhile_append_dropWhile (p := inRun) (l := l)
    split at h
    · rename_i m hm
      split at h
      · cases h
      · rename_i hne
        simp only [Option.bind_eq_bind, Option.bind_eq_some_iff] at h
        obtain ⟨⟨n, j⟩, hn, ⟨f, k⟩, hf, e, he, h⟩ := h
        injection h with h
        have hsplit' := List.takeWhile_append_dropWhile (p := inRun) (l := m)
        refine ⟨l.takeWhile inRun ++ '.' :: m.takeWhile inRun, m.dropWhile inRun, _, e, ?_, .inr ⟨_, _, n, f, k, j, rfl,
          ?_, (readPart_iff _ _ _).1 hn, (readPart_iff _ _ _).1 hf, rfl⟩, (readExponent_iff _ _).1 he, ?_⟩
        · rw [List.append_assoc, List.cons_append, hsplit', ← hm, hsplit]
        · rw [Bool.and_eq_true, List.isEmpty_iff, List.isEmpty_iff] at hne
          exact Classical.not_and_iff_not_or_not.1 hne
        · rw [← h, pow10_eq, pow10_eq, zpow_neg, zpow_natCast, div_eq_mul_inv]
    · simp only [Option.bind_eq_bind, Option.bind_eq_some_iff] at h
      obtain ⟨n, hn, e, he, h⟩ := h
      injection h with h
      refine ⟨l.takeWhile inRun, l.dropWhile inRun, n, e, hsplit.symm, .inl ⟨n, (readDigits_iff _ _).1 hn, rfl⟩,
        (readExponent_iff _ _).1 he, ?_⟩
      rw [← h, pow10_eq]
  · rintro ⟨m, x, v, e, rfl, hm, hx, rfl⟩
    have hh := exponent_head hx
    have hx' := (readExponent_iff _ _).2 hx
    unfold readUnsigned
    dsimp only
    rcases hm with ⟨n, hn, rfl⟩ | ⟨a, b, n, f, k, j, rfl, hne, ha, hb, rfl⟩
    · rw [takeWhile_run _ _ (run_chars hn) (fun c hc => (hh c hc).1), dropWhile_blanks _ _ _ (run_chars hn)
        (fun c hc => (hh c hc).1)]
      split
      · rename_i y
        exact absurd rfl (hh '.' rfl).2
      · simp only [Option.bind_eq_bind, hn.read, hx', Option.bind_some, pow10_eq]
        rfl
    · have hd : ∀ c, ('.' :: (b ++ x)).head? = some c → inRun c = false := by
        intro c hc; cases hc; decide
      have e1 : a ++ '.' :: b ++ x = a ++ '.' :: (b ++ x) := by simp
      rw [e1, takeWhile_run _ _ (part_chars ha) hd, dropWhile_blanks _ _ _ (part_chars ha) hd]
      split
      · rename_i y hy
        injection hy with _ hy
        subst hy
        rw [takeWhile_run _ _ (part_chars hb) (fun c hc => (hh c hc).1), dropWhile_blanks _ _ _ (part_chars hb)
          (fun c hc => (hh c hc).1)]
        rw [if_neg (by
          rw [Bool.and_eq_true, List.isEmpty_iff, List.isEmpty_iff]
          rintro ⟨rfl, rfl⟩
          rcases hne with h | h <;> exact h rfl)]
        simp only [Option.bind_eq_bind, (readPart_iff _ _ _).2 ha, (readPart_iff _ _ _).2 hb, hx', Option.bind_some, pow10_eq,
          zpow_neg, zpow_natCast, div_eq_mul_inv]
        rfl
      · rename_i h
        exact absurd rfl (h _)

theorem mantissa_chars {l : List Char} {q : Rat} (h : Mantissa l q) : l ≠ [] ∧ ∀ c ∈ l, inRun c = true ∨ c = '.' := by
  rcases h with ⟨n, hn, -⟩ | ⟨a, b, n, f, k, j, rfl, -, ha, hb, -⟩
  · exact ⟨hn.ne, fun c hc => .inl (run_chars hn c hc)⟩
  · refine ⟨by simp, fun c hc => ?_⟩
    rcases List.mem_append.1 hc with hc | hc
    · exact .inl (part_chars ha c hc)
    · rcases List.mem_cons.1 hc with rfl | hc
      · exact .inr rfl
      · exact .inl (part_chars hb c hc)

theorem readDecimal_iff (l : List Char) (q : Rat) : readDecimal l = some q ↔
    ∃ (s m x : List Char) (z : Int) (v : Rat) (e : Int), l = s ++ m ++ x ∧ Sign s z ∧ Mantissa m v ∧ ExponentPart x e ∧
      q = z * v * (10 : Rat) ^ e := by
  constructor
  · intro h
    unfold readDecimal at h
    split at h
    · obtain ⟨p, hp, rfl⟩ := Option.map_eq_some_iff.1 h
      obtain ⟨m, x, v, e, rfl, hm, hx, rfl⟩ := (readUnsigned_iff _ _).1 hp
      exact ⟨['-'], m, x, -1, v, e, rfl, .inr (.inr ⟨rfl, rfl⟩), hm, hx, by push_cast; ring⟩
    · obtain ⟨m, x, v, e, rfl, hm, hx, rfl⟩ := (readUnsigned_iff _ _).1 h
      exact ⟨['+'], m, x, 1, v, e, rfl, .inr (.inl ⟨rfl, rfl⟩), hm, hx, by push_cast; ring⟩
    · obtain ⟨m, x, v, e, rfl, hm, hx, rfl⟩ := (readUnsigned_iff _ _).1 h
      exact ⟨[], m, x, 1, v, e, rfl, .inl ⟨rfl, rfl⟩, hm, hx, by push_cast; ring⟩
  · rintro ⟨s, m, x, z, v, e, rfl, hs, hm, hx, rfl⟩
    have hu := (readUnsigned_iff (m ++ x) (v * (10 : Rat) ^ e)).2 ⟨m, x, v, e, rfl, hm, hx, rfl⟩
    rcases hs with ⟨rfl, rfl⟩ | ⟨rfl, rfl⟩ | ⟨rfl, rfl⟩
    · obtain ⟨hne, hc⟩ := mantissa_chars hm
      cases m with
      | nil => exact absurd rfl hne
      | cons c m =>
        have hc' := hc c (List.mem_cons_self ..)
        simp only [List.nil_append, List.cons_append] at hu ⊢
        unfold readDecimal
        split
        · rename_i h
          injection h with h _
          subst h
          exact absurd hc' (by decide)
        · rename_i h
          injection h with h _
          subst h
          exact absurd hc' (by decide)
        · rw [hu]
          congr 1
          push_cast
          ring
    · show readUnsigned (m ++ x) = _
      rw [hu]
      congr 1
      push_cast
      ring
    · show (readUnsigned (m ++ x)).map _ = _
      rw [hu]
      show some _ = some _
      congr 1
      push_cast
      ring

theorem inRun_not_blank {c : Char} (h : inRun c = true) : isBlank c = false ∧ c.toNat < 128 := by
  unfold inRun at h
  rw [Bool.or_eq_true, beq_iff_eq] at h
  rcases h with h | rfl
  · exact ⟨not_blank_of_digit h, ascii_digit h⟩
  · decide

theorem exponent_chars {l : List Char} {e : Int} (h : ExponentPart l e) :
    ∀ c ∈ l, isBlank c = false ∧ c.toNat < 128 := by
  rcases h with ⟨rfl, -⟩ | ⟨x, s, m, n, z, hx, rfl, hs, hm, -⟩
  · intro c hc; cases hc
  · intro c hc
    rcases List.mem_append.1 hc with hc | hc
    · rcases List.mem_cons.1 hc with rfl | hc
      · rcases hx with rfl | rfl <;> decide
      · rcases hs with ⟨rfl, -⟩ | ⟨rfl, -⟩ | ⟨rfl, -⟩
        · cases hc
        all_goals
          simp at hc; subst hc; decide
    · exact inRun_not_blank (run_chars hm c hc)

/-- The text is ASCII and what is left without blanks is read as this number. -/
theorem decimal_iff (t : String) (q : Rat) : Decimal t q ↔
    t.toList.all (fun c => c.toNat < 128) = true ∧ readDecimal (stripBlanks t.toList) = some q := by
  constructor
  · rintro ⟨a, s, m, x, b, z, e, v, ht, ha, hb, hs, hm, hx, hq⟩
    have hmid : ∀ c ∈ s ++ m ++ x, isBlank c = false ∧ c.toNat < 128 := by
      intro c hc
      rcases List.mem_append.1 hc with hc | hc
      · rcases List.mem_append.1 hc with hc | hc
        · rcases hs with ⟨rfl, -⟩ | ⟨rfl, -⟩ | ⟨rfl, -⟩
          · cases hc
          all_goals
            simp at hc; subst hc; decide
        · rcases (mantissa_chars hm).2 c hc with h | rfl
          · exact inRun_not_blank h
          · decide
      · exact exponent_chars hx c hc
    have ht' : t.toList = a ++ (s ++ m ++ x) ++ b := by rw [ht]; simp
    refine ⟨?_, ?_⟩
    · rw [List.all_eq_true, ht']
      intro c hc
      have : c.toNat < 128 := by
        rcases List.mem_append.1 hc with hc | hc
        · rcases List.mem_append.1 hc with hc | hc
          · exact ascii_blank (ha c hc)
          · exact (hmid c hc).2
        · exact ascii_blank (hb c hc)
      simpa using this
    · rw [ht', strip_blanks a (s ++ m ++ x) b (fun c hc => (isBlank_iff c).2 (ha c hc))
        (fun c hc => (isBlank_iff c).2 (hb c hc)) (fun c hc => (hmid c hc).1)
        (by have := (mantissa_chars hm).1; simp [this])]
      exact (readDecimal_iff _ _).2 ⟨s, m, x, z, v, e, rfl, hs, hm, hx, hq⟩
  · rintro ⟨-, h⟩
    obtain ⟨s, m, x, z, v, e, hl, hs, hm, hx, hq⟩ := (readDecimal_iff _ _).1 h
    obtain ⟨a, b, hab, ha, hb⟩ := strip_split t.toList
    refine ⟨a, s, m, x, b, z, e, v, ?_, fun c hc => (isBlank_iff c).1 (ha c hc), fun c hc => (isBlank_iff c).1 (hb c hc),
      hs, hm, hx, hq⟩
    rw [hl] at hab
    simpa using hab

theorem decimal_unique {t : String} {p q : Rat} (hp : Decimal t p) (hq : Decimal t q) : p = q := by
  have a := ((decimal_iff _ _).1 hp).2
  have b := ((decimal_iff _ _).1 hq).2
  rw [a] at b
  exact Option.some.inj b

theorem pyFloatStr_iff (t : String) (d : Rat) : pyFloatStr t = .ok d ↔ ∃ q, Decimal t q ∧ ¬ TooLarge q ∧ Rounded q d := by
  constructor
  · intro h
    unfold pyFloatStr at h
    split at h
    · rename_i hall
      split at h
      · rename_i q hq
        split at h
        · rename_i r hr
          cases h
          exact ⟨q, (decimal_iff _ _).2 ⟨hall, hq⟩, (toDouble_some _ _).1 hr⟩
        · cases h
      · cases h
    · cases h
  · rintro ⟨q, hq, hr⟩
    obtain ⟨hall, hq⟩ := (decimal_iff _ _).1 hq
    unfold pyFloatStr
    rw [if_pos hall, hq]
    dsimp only
    rw [(toDouble_some _ _).2 hr]

/-! ## Values -/

theorem rounded_self {q : Rat} (h : Binary64 q) : Rounded q q := by
  refine ⟨h, fun p _ hp => .inl ?_⟩
  rw [sub_self, abs_zero]
  exact abs_pos.2 (sub_ne_zero.2 hp)

theorem binary_small {q : Rat} (h : Binary64 q) : ¬ TooLarge q := by
  obtain ⟨m, j, hm, -, hj, rfl⟩ := h
  unfold TooLarge
  rw [not_le, limit_eq, abs_mul, abs_of_pos (zpow_pos (by norm_num : (0 : Rat) < 2) j), ← Int.cast_abs]
  have h1 : ((|m| : Int) : Rat) ≤ ((2 ^ 53 - 1 : Int) : Rat) := by
    have : |m| ≤ 2 ^ 53 - 1 := by omega
    exact_mod_cast this
  have h2 : (2 : Rat) ^ j ≤ 2 * pow2 970 := by
    rw [← pow2_971, pow2_eq]
    exact zpow_le_zpow_right₀ (by norm_num) hj
  have h3 : ((|m| : Int) : Rat) * 2 ^ j ≤ ((2 ^ 53 - 1 : Int) : Rat) * (2 * pow2 970) :=
    mul_le_mul h1 h2 (zpow_pos (by norm_num) _).le (by norm_num)
  refine h3.trans_lt ?_
  have := pow2_pos 970
  push_cast
  linarith

theorem pyFloat_iff (v : Val) (d : Rat) : pyFloat v = .ok d ↔ FloatOf v d := by
  unfold pyFloat FloatOf
  split
  · rename_i z
    dsimp only
    rw [← toDouble_some]
    cases toDouble z <;> simp
  · simp [eq_comm]
  · simp [eq_comm]
  · exact pyFloatStr_iff _ _
  · rename_i h1 h2 h3 h4
    constructor
    · intro h; cases h
    · intro h
      split at h
      · exact absurd rfl (h1 _)
      · exact absurd rfl (h2 _)
      · exact absurd rfl (h3 _)
      · exact absurd rfl (h4 _)
      · exact h.elim

theorem floatOf_unique {v : Val} {c d : Rat} (hc : FloatOf v c) (hd : FloatOf v d) : c = d := by
  have a := (pyFloat_iff _ _).2 hc
  rw [(pyFloat_iff _ _).2 hd] at a
  exact (Except.ok.inj a).symm

theorem named_of_infNan {t : String} (h : isInfNan (stripBlanks t.toList) = true) : NamedFloat t := by
  obtain ⟨a, b, hab, ha, hb⟩ := strip_split t.toList
  generalize stripBlanks t.toList = l at *
  unfold isInfNan at h
  dsimp only at h
  have word : ∀ {m : List Char}, ["inf".toList, "infinity".toList, "nan".toList].contains (m.map Char.toLower) = true →
      m.map Char.toLower ∈ ["inf".toList, "infinity".toList, "nan".toList] := fun h => by
    rwa [List.contains_iff_mem] at h
  have mk : ∀ {s m : List Char} {z : Int}, l = s ++ m → Sign s z →
      m.map Char.toLower ∈ ["inf".toList, "infinity".toList, "nan".toList] → NamedFloat t := by
    intro s m z hl hs hm
    refine ⟨a, s, m, b, z, ?_, fun c hc => (isBlank_iff c).1 (ha c hc), fun c hc => (isBlank_iff c).1 (hb c hc), hs, hm⟩
    rw [hl] at hab
    simpa using hab
  split at h
  · exact mk (s := ['-']) rfl (.inr (.inr ⟨rfl, rfl⟩)) (word h)
  · exact mk (s := ['+']) rfl (.inr (.inl ⟨rfl, rfl⟩)) (word h)
  · exact mk (s := []) rfl (.inl ⟨rfl, rfl⟩) (word h)

end Verif
