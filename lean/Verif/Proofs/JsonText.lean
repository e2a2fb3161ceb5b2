import Verif.Spec.Codec
import Verif.Proofs.Dict
/-!
# Helper lemmas: strings and numbers in JSON text
-/
set_option autoImplicit false

namespace Verif.Json
open Spec

/-! ## Strings -/

theorem hexVal_digitChar {k : Nat} (h : k < 16) : hexVal (Nat.digitChar k) = some k := by
  have : ∀ k : Fin 16, hexVal (Nat.digitChar k) = some k.1 := by decide
  exact this ⟨k, h⟩

theorem hexVal4_hex4 {n : Nat} (h : n < 65536) (r : List Char) :
    scanUnits ('\\' :: 'u' :: hex4 n ++ r) = push n (scanUnits r) := by
  have h1 : hexVal4 (Nat.digitChar (n / 4096 % 16)) (Nat.digitChar (n / 256 % 16)) (Nat.digitChar (n / 16 % 16))
      (Nat.digitChar (n % 16)) = some n := by
    unfold hexVal4
    rw [hexVal_digitChar (by omega), hexVal_digitChar (by omega), hexVal_digitChar (by omega),
      hexVal_digitChar (by omega)]
    simp only [Option.some.injEq]
    omega
  show scanUnits ('\\' :: 'u' :: Nat.digitChar (n / 4096 % 16) :: Nat.digitChar (n / 256 % 16) ::
    Nat.digitChar (n / 16 % 16) :: Nat.digitChar (n % 16) :: r) = _
  rw [scanUnits, if_neg (by decide), if_pos rfl]
  simp only [if_true, h1]

/-- The UTF-16 code units of a character. -/
def units (c : Char) : List Nat :=
  if c.toNat < 65536 then [c.toNat] else [55296 + (c.toNat - 65536) / 1024, 56320 + (c.toNat - 65536) % 1024]

theorem char_range (c : Char) : c.toNat < 55296 ∨ 57343 < c.toNat ∧ c.toNat < 1114112 := c.valid

/-- Put code units in front. -/
def pushAll (us : List Nat) (r : Except Exc (List Nat × List Char)) : Except Exc (List Nat × List Char) :=
  us.foldr push r

theorem scanUnits_esc {c e : Char} {r : List Char} (h : unescape e = some c) (hu : e ≠ 'u') :
    scanUnits ('\\' :: e :: r) = push c.toNat (scanUnits r) := by
  rw [scanUnits.eq_def]
  dsimp only
  rw [if_neg (by decide), if_pos rfl]
  simp only [if_neg hu, h]

theorem scanUnits_escape (c : Char) (r : List Char) :
    scanUnits (escape c ++ r) = pushAll (units c) (scanUnits r) := by
  have small : ∀ c : Char, c.toNat < 65536 → pushAll (units c) (scanUnits r) = push c.toNat (scanUnits r) := by
    intro c hc
    unfold units
    rw [if_pos hc]
    rfl
  unfold escape
  split
  · subst c; rw [small _ (by decide)]; exact scanUnits_esc (c := '"') (e := '"') (by decide) (by decide)
  split
  · subst c; rw [small _ (by decide)]; exact scanUnits_esc (c := '\\') (e := '\\') (by decide) (by decide)
  split
  · subst c; rw [small _ (by decide)]; exact scanUnits_esc (c := '\n') (e := 'n') (by decide) (by decide)
  split
  · subst c; rw [small _ (by decide)]; exact scanUnits_esc (c := '\r') (e := 'r') (by decide) (by decide)
  split
  · subst c; rw [small _ (by decide)]; exact scanUnits_esc (c := '\t') (e := 't') (by decide) (by decide)
  split
  · subst c; rw [small _ (by decide)]; exact scanUnits_esc (c := Char.ofNat 8) (e := 'b') (by decide) (by decide)
  split
  · subst c; rw [small _ (by decide)]; exact scanUnits_esc (c := Char.ofNat 12) (e := 'f') (by decide) (by decide)
  rename_i h1 h2 h3 h4 h5 h6 h7
  dsimp only
  split
  · rename_i h
    rw [small _ (by omega)]
    show scanUnits (c :: r) = _
    rw [scanUnits.eq_def]
    dsimp only
    rw [if_neg h1, if_neg h2, if_neg (by omega)]
  split
  · rename_i h
    rw [small _ h]
    exact hexVal4_hex4 h r
  · rename_i h
    have hr := char_range c
    unfold units
    rw [if_neg h]
    rw [List.append_assoc, hexVal4_hex4 (by omega), hexVal4_hex4 (by omega)]
    rfl

theorem scanUnits_text (s : List Char) (r : List Char) :
    scanUnits (s.flatMap escape ++ '"' :: r) = .ok (s.flatMap units, r) := by
  induction s with
  | nil =>
    show scanUnits ('"' :: r) = _
    rw [scanUnits.eq_def]
    rfl
  | cons c s ih =>
    rw [List.flatMap_cons, List.append_assoc, scanUnits_escape, ih, List.flatMap_cons]
    unfold pushAll
    generalize s.flatMap units = l
    induction units c with
    | nil => rfl
    | cons u us ih => rw [List.foldr_cons, ih]; rfl

theorem ofNat_toNat (c : Char) : Char.ofNat c.toNat = c := by simp

theorem joinUnits_cons {c : Char} {l : List Nat} (h : c.toNat < 65536) :
    joinUnits (c.toNat :: l) = (joinUnits l).map (c :: ·) := by
  have hr := char_range c
  have h1 : isHigh c.toNat = false := by simp [isHigh]; omega
  have h2 : isLow c.toNat = false := by simp [isLow]; omega
  cases l with
  | nil => simp [joinUnits, h1, h2, ofNat_toNat, Except.map]
  | cons m l =>
    rw [joinUnits, h1, h2]
    simp only [Bool.false_eq_true, if_false, ofNat_toNat]
    cases joinUnits (m :: l) <;> rfl

theorem joinUnits_units (s : List Char) : joinUnits (s.flatMap units) = .ok s := by
  induction s with
  | nil => rfl
  | cons c s ih =>
    rw [List.flatMap_cons]
    by_cases h : c.toNat < 65536
    · have hu : units c = [c.toNat] := if_pos h
      rw [hu, List.singleton_append, joinUnits_cons h, ih]
      rfl
    · have hu : units c = [55296 + (c.toNat - 65536) / 1024, 56320 + (c.toNat - 65536) % 1024] := if_neg h
      rw [hu]
      have hr := char_range c
      show joinUnits (_ :: _ :: _) = _
      have h1 : isHigh (55296 + (c.toNat - 65536) / 1024) = true := by simp [isHigh]; omega
      have h2 : isLow (56320 + (c.toNat - 65536) % 1024) = true := by simp [isLow]; omega
      rw [joinUnits, h1, h2]
      simp only [if_true]
      rw [show List.append [] (List.flatMap units s) = List.flatMap units s from rfl, ih, ok_bind]
      have : 65536 + (55296 + (c.toNat - 65536) / 1024 - 55296) * 1024 +
          (56320 + (c.toNat - 65536) % 1024 - 56320) = c.toNat := by omega
      rw [this, ofNat_toNat]
      rfl

theorem scanStr_text (s : String) (r : List Char) :
    scanStr (s.toList.flatMap escape ++ ('"' :: r)) = .ok (s, r) := by
  unfold scanStr
  rw [scanUnits_text]
  simp only [ok_bind, joinUnits_units]
  simp

/-! ## Numbers -/

/-- What may follow a number in the text of a value: nothing that could continue it. -/
def Stop (r : List Char) : Prop := ∀ c ∈ r.head?, c = ',' ∨ c = ']' ∨ c = '}' ∨ c = '\n' ∨ c = ' ' ∨ c = '\t' ∨ c = '\r'

theorem Stop.notDigit {r : List Char} (h : Stop r) : digits r = [] ∧ afterDigits r = r := by
  cases r with
  | nil => exact ⟨rfl, rfl⟩
  | cons c r =>
    have : c.isDigit = false := by
      rcases h c rfl with rfl | rfl | rfl | rfl | rfl | rfl | rfl <;> decide
    simp [digits, afterDigits, List.takeWhile, List.dropWhile, this]

theorem digits_append {ds r : List Char} (h : ∀ x ∈ ds, x.isDigit = true) :
    digits (ds ++ r) = ds ++ digits r ∧ afterDigits (ds ++ r) = afterDigits r := by
  unfold digits afterDigits
  exact ⟨List.takeWhile_append_of_pos h, List.dropWhile_append_of_pos h⟩

theorem lexInt_lit {i r : List Char} (h : IntLit i) (hr : digits r = []) (hr' : afterDigits r = r) :
    lexInt (i ++ r) = some (i, r) := by
  rcases h with rfl | ⟨c, t, rfl, h0, hc, ht⟩
  · rfl
  · show lexInt (c :: (t ++ r)) = _
    rw [lexInt, if_neg h0, if_pos hc]
    obtain ⟨h1, h2⟩ := digits_append (r := r) ht
    rw [h1, h2, hr, hr', List.append_nil]

theorem Stop.lexFrac {r : List Char} (h : Stop r) : Json.lexFrac r = ([], r) := by
  cases r with
  | nil => rfl
  | cons c r =>
    rcases h c rfl with rfl | rfl | rfl | rfl | rfl | rfl | rfl <;> rfl

theorem Stop.lexExp {r : List Char} (h : Stop r) : Json.lexExp r = ([], r) := by
  cases r with
  | nil => rfl
  | cons c r =>
    rcases h c rfl with rfl | rfl | rfl | rfl | rfl | rfl | rfl <;> cases r <;> rfl

theorem lexFrac_lit {fr r : List Char} (h : FracLit fr) (hr : digits r = []) (hr' : afterDigits r = r) :
    lexFrac (fr ++ r) = (fr, r) := by
  obtain ⟨ds, rfl, hne, hd⟩ := h
  show lexFrac ('.' :: (ds ++ r)) = _
  obtain ⟨h1, h2⟩ := digits_append (r := r) hd
  rw [lexFrac, h1, h2, hr, hr', List.append_nil, if_neg (by simpa using hne)]

theorem lexExp_lit {ex r : List Char} (h : ExpLit ex) (hr : digits r = []) (hr' : afterDigits r = r) :
    lexExp (ex ++ r) = (ex, r) := by
  obtain ⟨c, s, ds, rfl, hc, hs, hne, hd⟩ := h
  obtain ⟨h1, h2⟩ := digits_append (r := r) hd
  have he : isExpChar c = true := by rcases hc with rfl | rfl <;> rfl
  obtain ⟨d, ds', rfl⟩ := List.exists_cons_of_ne_nil hne
  have hd0 : isSign d = false := by
    have := hd d (List.mem_cons_self ..)
    cases hcon : isSign d with
    | false => rfl
    | true =>
      simp only [isSign, Bool.or_eq_true, decide_eq_true_eq] at hcon
      rcases hcon with rfl | rfl <;> exact absurd this (by decide)
  rcases hs with rfl | rfl | rfl
  · show lexExp (c :: d :: (ds' ++ r)) = _
    have h1 : digits (d :: (ds' ++ r)) = _ := h1
    have h2 : afterDigits (d :: (ds' ++ r)) = _ := h2
    rw [lexExp, he, hd0, h1, h2, hr, hr']
    simp
  · show lexExp (c :: '+' :: (d :: ds' ++ r)) = _
    rw [lexExp, he, h1, h2, hr, hr']
    simp [isSign]
  · show lexExp (c :: '-' :: (d :: ds' ++ r)) = _
    rw [lexExp, he, h1, h2, hr, hr']
    simp [isSign]

theorem expLit_head {ex : List Char} (h : ExpLit ex) (r : List Char) :
    ∃ c t, ex ++ r = c :: t ∧ (c = 'e' ∨ c = 'E') := by
  obtain ⟨c, s, ds, rfl, hc, -⟩ := h
  exact ⟨c, s ++ ds ++ r, by simp, hc⟩

theorem exp_digits {ex r : List Char} (h : ex = [] ∨ ExpLit ex) (hr : Stop r) :
    digits (ex ++ r) = [] ∧ afterDigits (ex ++ r) = ex ++ r := by
  rcases h with rfl | h
  · exact hr.notDigit
  · obtain ⟨c, t, ht, hc⟩ := expLit_head h r
    rw [ht]
    rcases hc with rfl | rfl <;> exact ⟨rfl, rfl⟩

theorem frac_digits {fr ex r : List Char} (hf : fr = [] ∨ FracLit fr) (h : ex = [] ∨ ExpLit ex) (hr : Stop r) :
    digits (fr ++ (ex ++ r)) = [] ∧ afterDigits (fr ++ (ex ++ r)) = fr ++ (ex ++ r) := by
  rcases hf with rfl | ⟨ds, rfl, -⟩
  · rw [List.nil_append]
    exact exp_digits h hr
  · exact ⟨rfl, rfl⟩

theorem scanUnsigned_lit {f : FloatText} {neg : Bool} {i fr ex r : List Char} (hi : IntLit i)
    (hf : fr = [] ∨ FracLit fr) (he : ex = [] ∨ ExpLit ex) (hr : Stop r) :
    scanUnsigned f neg (i ++ (fr ++ (ex ++ r))) =
      if fr.isEmpty && ex.isEmpty then
        .ok (.int (if neg then -((Nat.ofDigitChars 10 i 0 : Nat) : Int) else (Nat.ofDigitChars 10 i 0 : Nat)), r)
      else
        match f.read ((if neg then ['-'] else []) ++ i ++ fr ++ ex) with
        | some q => .ok (.flt q, r)
        | none => .error .unmodelled := by
  unfold scanUnsigned
  obtain ⟨h1, h2⟩ := frac_digits hf he hr
  rw [lexInt_lit hi h1 h2]
  have h3 : lexFrac (fr ++ (ex ++ r)) = (fr, ex ++ r) := by
    rcases hf with rfl | hf
    · rcases he with rfl | he
      · exact hr.lexFrac
      · obtain ⟨c, t, ht, hc⟩ := expLit_head he r
        show lexFrac (ex ++ r) = ([], ex ++ r)
        rw [ht]
        rcases hc with rfl | rfl <;> rfl
    · obtain ⟨h1, h2⟩ := exp_digits he hr
      exact lexFrac_lit hf h1 h2
  have h4 : lexExp (ex ++ r) = (ex, r) := by
    rcases he with rfl | he
    · exact hr.lexExp
    · exact lexExp_lit he hr.notDigit.1 hr.notDigit.2
  simp only [h3, h4]
  rfl

theorem intLit_head {i : List Char} (h : IntLit i) : ∃ c t, i = c :: t ∧ c.isDigit = true := by
  rcases h with rfl | ⟨c, t, rfl, -, hc, -⟩
  · exact ⟨_, _, rfl, by decide⟩
  · exact ⟨c, t, rfl, hc⟩

theorem scanNum_digit {f : FloatText} {c : Char} {t : List Char} (h : c.isDigit = true) :
    scanNum f (c :: t) = scanUnsigned f false (c :: t) := by
  unfold scanNum
  split
  all_goals first
    | rfl
    | (rename_i heq
       injection heq with h1 h2
       subst h1
       exact absurd h (by decide))

theorem scanNum_neg {f : FloatText} {c : Char} {t : List Char} (h : c.isDigit = true) :
    scanNum f ('-' :: c :: t) = scanUnsigned f true (c :: t) := by
  unfold scanNum
  split
  · rename_i heq; injection heq with h1 h2; exact absurd h1 (by decide)
  · rename_i heq; injection heq with h1 h2; exact absurd h1 (by decide)
  · rename_i heq
    injection heq with h1 h2
    injection h2 with h2 h3
    subst h2
    exact absurd h (by decide)
  · rename_i heq; injection heq with h1 h2; subst h2; rfl
  · rename_i hne; exact absurd rfl (hne _)

theorem toDigits_lit (n : Nat) : IntLit (Nat.toDigits 10 n) := by
  induction n using Nat.strongRecOn with
  | ind n ih =>
    by_cases h : n < 10
    · rw [Nat.toDigits_of_lt_base h]
      by_cases h0 : n = 0
      · subst h0; exact .inl rfl
      · refine .inr ⟨_, [], rfl, ?_, ?_, by simp⟩
        · simpa using h0
        · rw [Nat.isDigit_digitChar]; simpa using h
    · have hle : 10 ≤ n := by omega
      rw [Nat.toDigits_of_base_le (by decide) hle]
      have hd := ih (n / 10) (by omega)
      have hz : Nat.toDigits 10 (n / 10) ≠ ['0'] := by
        intro hz
        have := Nat.ofDigitChars_ten_toDigits (n := n / 10)
        rw [hz] at this
        have h0 : Nat.ofDigitChars 10 ['0'] 0 = 0 := rfl
        omega
      rcases hd with hd | ⟨c, t, hd, h0, hc, ht⟩
      · exact absurd hd hz
      · rw [hd]
        refine .inr ⟨c, t ++ [Nat.digitChar (n % 10)], rfl, h0, hc, ?_⟩
        intro x hx
        rcases List.mem_append.1 hx with hx | hx
        · exact ht x hx
        · rw [List.mem_singleton] at hx
          subst hx
          rw [Nat.isDigit_digitChar]
          have : n % 10 < 10 := Nat.mod_lt _ (by decide)
          simpa using this

theorem scanNum_int {f : FloatText} {z : Int} {r : List Char} (hr : Stop r) :
    scanNum f (intText z ++ r) = .ok (.int z, r) := by
  have hi := toDigits_lit z.natAbs
  obtain ⟨c, t, hct, hc⟩ := intLit_head hi
  have hs := fun neg => scanUnsigned_lit (f := f) (neg := neg) (fr := []) (ex := []) hi (.inl rfl) (.inl rfl) hr
  simp only [List.nil_append, List.isEmpty_nil, Bool.and_self, if_true, Nat.ofDigitChars_ten_toDigits] at hs
  unfold intText
  split
  · rename_i hz
    rw [List.cons_append, hct, List.cons_append, scanNum_neg hc, ← List.cons_append, ← hct, hs true]
    simp only [if_true]
    have : -(z.natAbs : Int) = z := by omega
    rw [this]
  · rename_i hz
    rw [hct, List.cons_append, scanNum_digit hc, ← List.cons_append, ← hct, hs false]
    simp only [Bool.false_eq_true, if_false]
    have : (z.natAbs : Int) = z := by omega
    rw [this]

theorem scanNum_float {f : FloatText} {q : Rat} {r : List Char} (h : ExactFloat f q) (hr : Stop r) :
    scanNum f (f.repr q ++ r) = .ok (.flt q, r) := by
  obtain ⟨⟨sg, i, fr, ex, hl, hsg, hi, hf, he, hne⟩, hq⟩ := h
  have hnot : (fr.isEmpty && ex.isEmpty) = false := by
    rcases hne with hne | hne <;> simp [hne]
  have hs := fun neg => scanUnsigned_lit (f := f) (neg := neg) hi hf he hr
  rw [hnot] at hs
  simp only [Bool.false_eq_true, if_false] at hs
  obtain ⟨c, t, hct, hc⟩ := intLit_head hi
  rw [hl] at hq ⊢
  simp only [List.append_assoc] at hq ⊢
  rcases hsg with rfl | rfl
  · have := hs false
    simp only [Bool.false_eq_true, if_false, List.nil_append, List.append_assoc] at this hq ⊢
    rw [hq] at this
    rw [hct] at this ⊢
    rw [List.cons_append] at this ⊢
    rw [scanNum_digit hc, this]
  · have := hs true
    simp only [if_true, List.append_assoc] at this
    rw [hq] at this
    rw [hct] at this ⊢
    simp only [List.cons_append, List.nil_append] at this ⊢
    rw [scanNum_neg hc, this]

end Verif.Json
