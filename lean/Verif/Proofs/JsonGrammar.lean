import Verif.Spec.Json
import Verif.Proofs.JsonFuel
/-!
# Helper lemmas: `json.loads` reads exactly the JSON texts
-/
set_option autoImplicit false

namespace Verif.Json
open Spec

/-! ## Blanks -/

theorem isWs_iff (c : Char) : isWs c = true ↔ c = ' ' ∨ c = '\t' ∨ c = '\n' ∨ c = '\r' := by
  simp [isWs, or_assoc]

theorem skipWs_gap {a : List Char} (h : Gap a) (r : List Char) : skipWs (a ++ r) = skipWs r := by
  unfold skipWs
  exact List.dropWhile_append_of_pos fun c hc => (isWs_iff c).2 (h c hc)

theorem skipWs_split (cs : List Char) : ∃ a, cs = a ++ skipWs cs ∧ Gap a := by
  refine ⟨cs.takeWhile isWs, (List.takeWhile_append_dropWhile ..).symm, fun c hc => (isWs_iff c).1 ?_⟩
  exact List.all_eq_true.1 List.all_takeWhile c hc

theorem gap_append {a b : List Char} (ha : Gap a) (hb : Gap b) : Gap (a ++ b) := fun c hc => by
  rcases List.mem_append.1 hc with h | h
  · exact ha c h
  · exact hb c h

theorem gap_nil : Gap [] := fun _ h => by cases h

/-! ## Strings -/

theorem hexVal_iff (c : Char) (n : Nat) : hexVal c = some n ↔ HexDigit c n := by
  constructor
  · intro h
    have key : ∀ m : Nat, m < 128 → ∀ n, hexVal (Char.ofNat m) = some n →
        "0123456789abcdef".toList[n]? = some (Char.ofNat m) ∨ "0123456789ABCDEF".toList[n]? = some (Char.ofNat m) := by
      intro m hm n hn
      have : ∀ m : Fin 128, (match hexVal (Char.ofNat m) with
        | some n => decide ("0123456789abcdef".toList[n]? = some (Char.ofNat m) ∨
            "0123456789ABCDEF".toList[n]? = some (Char.ofNat m))
        | none => true) = true := by decide +kernel
      have := this ⟨m, hm⟩
      dsimp only at this
      rw [hn] at this
      exact of_decide_eq_true this
    have hc : c.toNat < 128 := by
      unfold hexVal at h
      dsimp only at h
      split at h
      · omega
      split at h
      · omega
      split at h
      · omega
      · cases h
    have := key c.toNat hc n (by rw [ofNat_toNat]; exact h)
    rwa [ofNat_toNat] at this
  · intro h
    have key : ∀ (l : List Char), l.length = 16 → (∀ i : Fin 16, (l[i.1]?).bind hexVal = some i.1) → l[n]? = some c →
        hexVal c = some n := by
      intro l hl hi h
      have hn : n < 16 := by
        have := (List.getElem?_eq_some_iff.1 h).1
        omega
      have := hi ⟨n, hn⟩
      dsimp only at this
      rw [h] at this
      exact this
    rcases h with h | h
    · exact key _ (by decide +kernel) (by decide +kernel) h
    · exact key _ (by decide +kernel) (by decide +kernel) h

/-- `t` is a way of writing the code units before the closing quote. -/
inductive UnitsText : List Nat → List Char → Prop
  | nil : UnitsText [] []
  | raw {c : Char} {us : List Nat} {t : List Char} : c ≠ '"' → c ≠ '\\' → 32 ≤ c.toNat → UnitsText us t →
      UnitsText (c.toNat :: us) (c :: t)
  | short {e c : Char} {us : List Nat} {t : List Char} : (e, c) ∈ shortEscapes → UnitsText us t →
      UnitsText (c.toNat :: us) ('\\' :: e :: t)
  | unit {n : Nat} {us : List Nat} {t u : List Char} : UnitText n t → UnitsText us u → UnitsText (n :: us) (t ++ u)

theorem unescape_iff (e c : Char) : unescape e = some c ↔ (e, c) ∈ shortEscapes := by
  unfold unescape shortEscapes
  constructor
  · intro h
    split at h
    · subst e; cases h; decide
    split at h
    · subst e; cases h; decide
    split at h
    · subst e; cases h; decide
    split at h
    · subst e; cases h; decide
    split at h
    · subst e; cases h; decide
    split at h
    · subst e; cases h; decide
    split at h
    · subst e; cases h; decide
    split at h
    · subst e; cases h; decide
    · cases h
  · intro h
    simp only [List.mem_cons, Prod.mk.injEq, List.not_mem_nil, or_false] at h
    rcases h with ⟨rfl, rfl⟩ | ⟨rfl, rfl⟩ | ⟨rfl, rfl⟩ | ⟨rfl, rfl⟩ | ⟨rfl, rfl⟩ | ⟨rfl, rfl⟩ | ⟨rfl, rfl⟩ | ⟨rfl, rfl⟩ <;> decide

theorem hexVal4_iff {a b c d : Char} {n : Nat} : hexVal4 a b c d = some n ↔ UnitText n ['\\', 'u', a, b, c, d] := by
  unfold hexVal4 UnitText
  constructor
  · intro h
    split at h
    · rename_i i j k l h1 h2 h3 h4
      cases h
      exact ⟨a, b, c, d, i, j, k, l, rfl, (hexVal_iff _ _).1 h1, (hexVal_iff _ _).1 h2, (hexVal_iff _ _).1 h3,
        (hexVal_iff _ _).1 h4, rfl⟩
    · cases h
  · rintro ⟨a', b', c', d', i, j, k, l, ht, h1, h2, h3, h4, rfl⟩
    cases ht
    rw [(hexVal_iff _ _).2 h1, (hexVal_iff _ _).2 h2, (hexVal_iff _ _).2 h3, (hexVal_iff _ _).2 h4]

theorem scanUnits_of_text {us : List Nat} {t : List Char} (h : UnitsText us t) (r : List Char) :
    scanUnits (t ++ '"' :: r) = .ok (us, r) := by
  induction h with
  | nil => rw [List.nil_append, scanUnits.eq_def]; rfl
  | @raw c us t h1 h2 h3 h ih =>
    rw [List.cons_append, scanUnits.eq_def]
    dsimp only
    rw [if_neg h1, if_neg h2, if_neg (by omega), ih]
    rfl
  | @short e c us t he h ih =>
    have hu : e ≠ 'u' := by rintro rfl; revert he; simp [shortEscapes]
    rw [List.cons_append, List.cons_append, scanUnits_esc ((unescape_iff e c).2 he) hu, ih]
    rfl
  | @unit n us t u hn h ih =>
    obtain ⟨a, b, c, d, i, j, k, l, rfl, h'⟩ := hn
    have h4 : hexVal4 a b c d = some n := hexVal4_iff.2 ⟨a, b, c, d, i, j, k, l, rfl, h'⟩
    show scanUnits ('\\' :: 'u' :: a :: b :: c :: d :: (u ++ '"' :: r)) = _
    rw [scanUnits, if_neg (by decide), if_pos rfl]
    simp only [if_true, h4, ih]
    rfl

theorem push_split {n : Nat} {x : Except Exc (List Nat × List Char)} {us : List Nat} {r : List Char}
    (h : push n x = .ok (us, r)) : ∃ vs, x = .ok (vs, r) ∧ us = n :: vs := by
  cases x with
  | error e => cases h
  | ok q => obtain ⟨vs, r'⟩ := q; cases h; exact ⟨vs, rfl, rfl⟩

theorem text_of_scanUnits : ∀ (n : Nat) (cs : List Char), cs.length ≤ n → ∀ {us r}, scanUnits cs = .ok (us, r) →
    ∃ t, cs = t ++ '"' :: r ∧ UnitsText us t := by
  intro n
  induction n with
  | zero =>
    intro cs hn us r h
    cases cs with
    | nil => rw [scanUnits] at h; cases h
    | cons c r => simp at hn
  | succ n ih =>
    intro cs hn us r h
    cases cs with
    | nil => rw [scanUnits] at h; cases h
    | cons c cs =>
      rw [scanUnits.eq_def] at h
      dsimp only at h
      simp only [List.length_cons] at hn
      split at h
      · subst c; cases h; exact ⟨[], rfl, .nil⟩
      · rename_i hq
        split at h
        · subst c
          split at h
          · cases h
          · rename_i c' r'
            split at h
            · subst c'
              split at h
              · rename_i a b c d r''
                split at h
                · rename_i m hm
                  obtain ⟨vs, hv, rfl⟩ := push_split h
                  simp only [List.length_cons] at hn
                  obtain ⟨t, rfl, ht⟩ := ih _ (by omega) hv
                  exact ⟨['\\', 'u', a, b, c, d] ++ t, rfl, .unit (hexVal4_iff.1 hm) ht⟩
                · cases h
              · cases h
            · split at h
              · rename_i x hx
                obtain ⟨vs, hv, rfl⟩ := push_split h
                simp only [List.length_cons] at hn
                obtain ⟨t, rfl, ht⟩ := ih _ (by omega) hv
                exact ⟨'\\' :: c' :: t, rfl, .short ((unescape_iff _ _).1 hx) ht⟩
              · cases h
        · rename_i hb
          split at h
          · cases h
          · rename_i h32
            obtain ⟨vs, hv, rfl⟩ := push_split h
            obtain ⟨t, rfl, ht⟩ := ih _ (by omega) hv
            exact ⟨c :: t, rfl, .raw hq hb (by omega) ht⟩

theorem joinUnits_char {c : Char} {l : List Nat} : joinUnits (c.toNat :: l) = (joinUnits l).map (c :: ·) := by
  have hr := char_range c
  have h1 : isHigh c.toNat = false := by simp [isHigh]; omega
  have h2 : isLow c.toNat = false := by simp [isLow]; omega
  cases l with
  | nil => simp [joinUnits, h1, h2, ofNat_toNat, Except.map]
  | cons m l =>
    rw [joinUnits, h1, h2]
    simp only [Bool.false_eq_true, if_false, ofNat_toNat]
    cases joinUnits (m :: l) <;> rfl

theorem joinUnits_pair {c : Char} {h l : Nat} {us : List Nat} (h1 : 0xD800 ≤ h) (h2 : h < 0xDC00) (h3 : 0xDC00 ≤ l)
    (h4 : l < 0xE000) (hc : c.toNat = 0x10000 + (h - 0xD800) * 0x400 + (l - 0xDC00)) :
    joinUnits (h :: l :: us) = (joinUnits us).map (c :: ·) := by
  have e1 : isHigh h = true := by simp [isHigh]; omega
  have e2 : isLow l = true := by simp [isLow]; omega
  rw [joinUnits, e1, e2]
  simp only [if_true]
  have : (65536 + (h - 55296) * 1024 + (l - 56320)) = c.toNat := by omega
  rw [this, ofNat_toNat]
  cases joinUnits us <;> rfl

/-- The text of a string is a text of code units that are joined to it. -/
theorem units_of_chars {s t : List Char} (h : CharsText s t) : ∃ us, UnitsText us t ∧ joinUnits us = .ok s := by
  induction h with
  | nil => exact ⟨[], .nil, rfl⟩
  | @cons c t s u hc h ih =>
    obtain ⟨us, h1, h2⟩ := ih
    cases hc with
    | raw c a1 a2 a3 => exact ⟨c.toNat :: us, .raw a1 a2 a3 h1, by rw [joinUnits_char, h2]; rfl⟩
    | short e c he => exact ⟨c.toNat :: us, .short he h1, by rw [joinUnits_char, h2]; rfl⟩
    | unit c t hu => exact ⟨c.toNat :: us, .unit hu h1, by rw [joinUnits_char, h2]; rfl⟩
    | pair c hi lo t v a1 a2 a3 a4 a5 a6 a7 =>
      refine ⟨hi :: lo :: us, ?_, by rw [joinUnits_pair a3 a4 a5 a6 a7, h2]; rfl⟩
      rw [List.append_assoc]
      exact .unit a1 (.unit a2 h1)

theorem unitText_lt {n : Nat} {t : List Char} (h : UnitText n t) : n < 65536 := by
  obtain ⟨a, b, c, d, i, j, k, l, rfl, h1, h2, h3, h4, rfl⟩ := h
  have key : ∀ {c n}, HexDigit c n → n < 16 := by
    rintro c n (h | h)
    · have := (List.getElem?_eq_some_iff.1 h).1
      have e : "0123456789abcdef".toList.length = 16 := by decide +kernel
      omega
    · have := (List.getElem?_eq_some_iff.1 h).1
      have e : "0123456789ABCDEF".toList.length = 16 := by decide +kernel
      omega
  have := key h1; have := key h2; have := key h3; have := key h4
  omega

theorem toNat_ofNat {n : Nat} (h : n < 55296 ∨ 57343 < n ∧ n < 1114112) : (Char.ofNat n).toNat = n := by
  have hv : n.isValidChar := h
  rw [Char.ofNat, dif_pos hv]
  rfl

/-- The first code unit of a text, if it is a surrogate, was written with an escape. -/
theorem units_head {n : Nat} {us : List Nat} {t : List Char} (h : UnitsText (n :: us) t) :
    (∃ c u, n = c.toNat ∧ t = u ∧ ∃ a b, u = a ++ b ∧ CharText c a ∧ UnitsText us b) ∨
      (∃ a b, t = a ++ b ∧ UnitText n a ∧ UnitsText us b ∧ (isHigh n = true ∨ isLow n = true)) := by
  cases h with
  | @raw c us t h1 h2 h3 h => exact .inl ⟨c, _, rfl, rfl, [c], t, rfl, .raw c h1 h2 h3, h⟩
  | @short e c us t he h => exact .inl ⟨c, _, rfl, rfl, ['\\', e], t, rfl, .short e c he, h⟩
  | @unit n us t u hn h =>
    have hlt := unitText_lt hn
    by_cases hs : isHigh n = true ∨ isLow n = true
    · exact .inr ⟨t, u, rfl, hn, h, hs⟩
    · have hv : n < 55296 ∨ 57343 < n ∧ n < 1114112 := by
        simp only [isHigh, isLow, Bool.and_eq_true, decide_eq_true_eq] at hs
        omega
      have e := toNat_ofNat hv
      refine .inl ⟨Char.ofNat n, _, e.symm, rfl, t, u, rfl, .unit _ _ ?_, h⟩
      rw [e]
      exact hn

theorem map_ok {α β : Type} {f : α → β} {x : Except Exc α} {b : β} (h : x.map f = .ok b) : ∃ a, x = .ok a ∧ f a = b := by
  cases x with
  | error e => cases h
  | ok a => cases h; exact ⟨a, rfl, rfl⟩

theorem chars_of_units : ∀ (n : Nat) (us : List Nat), us.length ≤ n → ∀ {t s}, UnitsText us t → joinUnits us = .ok s →
    CharsText s t := by
  intro n
  induction n with
  | zero =>
    intro us hn t s h hs
    cases us with
    | nil => cases h; cases hs; exact .nil
    | cons c r => simp at hn
  | succ n ih =>
    intro us hn t s h hs
    cases us with
    | nil => cases h; cases hs; exact .nil
    | cons m us =>
      simp only [List.length_cons] at hn
      rcases units_head h with ⟨c, u, rfl, rfl, a, b, rfl, h1, h2⟩ | ⟨a, b, rfl, h1, h2, h3⟩
      · rw [joinUnits_char] at hs
        obtain ⟨s', hs', rfl⟩ := map_ok hs
        exact .cons h1 (ih _ (by omega) h2 hs')
      · cases us with
        | nil =>
          rw [joinUnits, if_pos (by simpa using h3)] at hs
          cases hs
        | cons l us =>
          rw [joinUnits.eq_def] at hs
          dsimp only at hs
          split at hs
          · rename_i hh
            split at hs
            · rename_i hl
              rcases units_head h2 with ⟨c, u, rfl, -⟩ | ⟨a', b', rfl, h4, h5, -⟩
              · have hr := char_range c
                simp only [isLow, Bool.and_eq_true, decide_eq_true_eq] at hl
                omega
              · simp only [isHigh, isLow, Bool.and_eq_true, decide_eq_true_eq] at hh hl
                simp only [bind_eq_ok, pure_eq_ok, Except.ok.injEq] at hs
                obtain ⟨s, hs, rfl⟩ := hs
                rw [← List.append_assoc]
                simp only [List.length_cons] at hn
                refine .cons (.pair _ m l _ _ h1 h4 hh.1 hh.2 hl.1 hl.2 ?_) (ih _ (by omega) h5 hs)
                rw [toNat_ofNat (by omega)]
            · cases hs
          · rename_i hh
            rw [if_pos (by rcases h3 with h | h; exact absurd h hh; exact h)] at hs
            cases hs

theorem scanStr_of_text {s : String} {t : List Char} (h : CharsText s.toList t) (r : List Char) :
    scanStr (t ++ '"' :: r) = .ok (s, r) := by
  obtain ⟨us, h1, h2⟩ := units_of_chars h
  unfold scanStr
  rw [scanUnits_of_text h1]
  simp only [ok_bind, h2]
  simp

theorem text_of_scanStr {cs r : List Char} {s : String} (h : scanStr cs = .ok (s, r)) :
    ∃ t, cs = t ++ '"' :: r ∧ CharsText s.toList t := by
  unfold scanStr at h
  simp only [bind_eq_ok, pure_eq_ok, Except.ok.injEq] at h
  obtain ⟨⟨us, r'⟩, hq, l, hl, h⟩ := h
  cases h
  obtain ⟨t, rfl, ht⟩ := text_of_scanUnits _ _ (Nat.le_refl _) hq
  exact ⟨t, rfl, by simpa using chars_of_units _ _ (Nat.le_refl _) ht hl⟩

/-! ## Numbers -/

theorem digitsValue_eq (l : List Char) : Nat.ofDigitChars 10 l 0 = digitsValue l := rfl

theorem lexInt_split {cs i r : List Char} (h : lexInt cs = some (i, r)) : cs = i ++ r ∧ IntLit i := by
  cases cs with
  | nil => cases h
  | cons c cs =>
    rw [lexInt] at h
    split at h
    · subst c; cases h; exact ⟨rfl, .inl rfl⟩
    · rename_i h0
      split at h
      · rename_i hd
        cases h
        refine ⟨?_, .inr ⟨c, digits cs, rfl, h0, hd, fun x hx => List.all_eq_true.1 List.all_takeWhile x hx⟩⟩
        show c :: cs = c :: (digits cs ++ afterDigits cs)
        rw [show digits cs ++ afterDigits cs = cs from List.takeWhile_append_dropWhile]
      · cases h

theorem digits_split (cs : List Char) : cs = digits cs ++ afterDigits cs := List.takeWhile_append_dropWhile.symm

theorem digits_digits {cs : List Char} (h : (digits cs).isEmpty = false) : Digits (digits cs) :=
  ⟨(by intro h'; rw [h'] at h; cases h), fun x hx => List.all_eq_true.1 List.all_takeWhile x hx⟩

theorem lexFrac_split (cs : List Char) :
    cs = (lexFrac cs).1 ++ (lexFrac cs).2 ∧ ((lexFrac cs).1 = [] ∨ FracLit (lexFrac cs).1) := by
  unfold lexFrac
  split
  · rename_i r
    split
    · exact ⟨rfl, .inl rfl⟩
    · rename_i h
      refine ⟨?_, .inr ⟨_, rfl, digits_digits (by simpa using h)⟩⟩
      show '.' :: r = '.' :: (digits r ++ afterDigits r)
      rw [← digits_split]
  · exact ⟨rfl, .inl rfl⟩

theorem lexExp_split (cs : List Char) :
    cs = (lexExp cs).1 ++ (lexExp cs).2 ∧ ((lexExp cs).1 = [] ∨ ExpLit (lexExp cs).1) := by
  unfold lexExp
  split
  · exact ⟨rfl, .inl rfl⟩
  · exact ⟨rfl, .inl rfl⟩
  · rename_i e s r
    split
    · rename_i he
      have he : e = 'e' ∨ e = 'E' := by simpa [isExpChar] using he
      split
      · rename_i hs
        have hs : s = '+' ∨ s = '-' := by simpa [isSign] using hs
        split
        · exact ⟨rfl, .inl rfl⟩
        · rename_i h
          refine ⟨?_, .inr ⟨e, [s], digits r, rfl, he, by rcases hs with rfl | rfl <;> simp, digits_digits (by simpa using h)⟩⟩
          show e :: s :: r = e :: s :: (digits r ++ afterDigits r)
          rw [← digits_split]
      · split
        · exact ⟨rfl, .inl rfl⟩
        · rename_i h
          refine ⟨?_, .inr ⟨e, [], digits (s :: r), rfl, he, .inl rfl, digits_digits (by simpa using h)⟩⟩
          show e :: s :: r = e :: (digits (s :: r) ++ afterDigits (s :: r))
          rw [← digits_split]
    · exact ⟨rfl, .inl rfl⟩

theorem text_of_scanUnsigned {f : FloatText} {neg : Bool} {cs r : List Char} {v : Val}
    (h : scanUnsigned f neg cs = .ok (v, r)) :
    ∃ t, cs = t ++ r ∧ ValText f v ((if neg then ['-'] else []) ++ t) := by
  unfold scanUnsigned at h
  split at h
  · cases h
  · rename_i i r1 hi
    obtain ⟨rfl, hlit⟩ := lexInt_split hi
    obtain ⟨h1, h2⟩ := lexFrac_split r1
    obtain ⟨h3, h4⟩ := lexExp_split (lexFrac r1).2
    dsimp only at h
    rw [h1, h3]
    generalize (lexFrac r1).1 = fr at *
    generalize hr2 : (lexFrac r1).2 = r2 at *
    generalize (lexExp r2).1 = ex at *
    generalize hr3 : (lexExp r2).2 = r3 at *
    split at h
    · rename_i he
      cases h
      have : fr = [] ∧ ex = [] := by simpa using he
      obtain ⟨rfl, rfl⟩ := this
      refine ⟨i, by simp, .int _ _ ⟨i, hlit, ?_⟩⟩
      rw [digitsValue_eq]
      cases neg with
      | true => exact .inr ⟨rfl, rfl⟩
      | false => exact .inl ⟨rfl, rfl⟩
    · rename_i he
      split at h
      · rename_i q hq
        cases h
        refine ⟨i ++ fr ++ ex, by simp, ?_⟩
        rw [← List.append_assoc, ← List.append_assoc]
        refine .flt q _ ⟨if neg then ['-'] else [], i, fr, ex, rfl, ?_, hlit, h2, h4, ?_⟩ hq
        · cases neg <;> simp
        · by_cases hf : fr = []
          · refine .inr fun hx => he ?_
            simp [hf, hx]
          · exact .inl hf
      · cases h

theorem text_of_scanNum {f : FloatText} {cs r : List Char} {v : Val} (h : scanNum f cs = .ok (v, r)) :
    ∃ t, cs = t ++ r ∧ ValText f v t := by
  unfold scanNum at h
  split at h
  · cases h
  · cases h
  · cases h
  · obtain ⟨t, rfl, ht⟩ := text_of_scanUnsigned h
    exact ⟨'-' :: t, rfl, ht⟩
  · obtain ⟨t, rfl, ht⟩ := text_of_scanUnsigned h
    exact ⟨t, rfl, ht⟩

theorem scanNum_intText {f : FloatText} {z : Int} {t r : List Char} (h : IntText z t) (hr : Stop r) :
    scanNum f (t ++ r) = .ok (.int z, r) := by
  obtain ⟨i, hi, h⟩ := h
  obtain ⟨c, u, hct, hc⟩ := intLit_head hi
  have hs := fun neg => scanUnsigned_lit (f := f) (neg := neg) (fr := []) (ex := []) hi (.inl rfl) (.inl rfl) hr
  simp only [List.nil_append, List.isEmpty_nil, Bool.and_self, if_true, digitsValue_eq] at hs
  rcases h with ⟨rfl, rfl⟩ | ⟨rfl, rfl⟩
  · rw [hct, List.cons_append, scanNum_digit hc, ← List.cons_append, ← hct, hs false]
    simp
  · rw [List.cons_append, hct, List.cons_append, scanNum_neg hc, ← List.cons_append, ← hct, hs true]
    simp

theorem scanNum_floatText {f : FloatText} {q : Rat} {t r : List Char} (h : FloatLit t) (hq : f.read t = some q)
    (hr : Stop r) : scanNum f (t ++ r) = .ok (.flt q, r) :=
  scanNum_float (f := { f with repr := fun _ => t }) (q := q) ⟨h, hq⟩ hr

theorem intText_start {z : Int} {t : List Char} (h : IntText z t) : ∃ c u, t = c :: u ∧ (c = '-' ∨ c.isDigit = true) := by
  obtain ⟨i, hi, h⟩ := h
  obtain ⟨c, u, hct, hc⟩ := intLit_head hi
  rcases h with ⟨rfl, -⟩ | ⟨rfl, -⟩
  · exact ⟨c, u, hct, .inr hc⟩
  · exact ⟨_, _, rfl, .inl rfl⟩

/-! ## Collecting keys -/

theorem eraseDups_mem_nodup : ∀ (n : Nat) (l : List String), l.length ≤ n →
    (∀ x, x ∈ l.eraseDups ↔ x ∈ l) ∧ l.eraseDups.Nodup := by
  intro n
  induction n with
  | zero =>
    intro l hl
    cases l with
    | nil => exact ⟨fun _ => Iff.rfl, List.nodup_nil⟩
    | cons a l => simp at hl
  | succ n ih =>
    intro l hl
    cases l with
    | nil => exact ⟨fun _ => Iff.rfl, List.nodup_nil⟩
    | cons a l =>
      have hf := List.length_filter_le (fun b => !b == a) l
      simp only [List.length_cons] at hl
      obtain ⟨h1, h2⟩ := ih (l.filter fun b => !b == a) (by omega)
      rw [List.eraseDups_cons]
      constructor
      · intro x
        rw [List.mem_cons, List.mem_cons, h1, List.mem_filter]
        by_cases hx : x = a <;> simp [hx]
      · rw [List.nodup_cons, h1]
        exact ⟨by simp, h2⟩

theorem set_map {g : String → Val} {k : String} {v : Val} : ∀ {ks : List String}, ks.Nodup → k ∈ ks →
    Dict.set (ks.map fun x => (x, g x)) k v = ks.map fun x => (x, if x = k then v else g x)
  | [], _, h => by cases h
  | a :: ks, hn, h => by
    have hs : Dict.set ((a :: ks).map fun x => (x, g x)) k v =
      if a = k then (a, v) :: (ks.map fun x => (x, g x)) else (a, g a) :: Dict.set (ks.map fun x => (x, g x)) k v := rfl
    rw [hs, List.map_cons]
    rw [List.nodup_cons] at hn
    split
    · subst a
      congr 1
      · refine List.map_congr_left fun x hx => ?_
        rw [if_neg (by rintro rfl; exact hn.1 hx)]
    · rename_i hne
      rcases List.mem_cons.1 h with h | h
      · exact absurd h.symm hne
      · rw [set_map hn.2 h]

theorem collect_snoc (ps : List (String × Val)) (k : String) (v : Val) :
    collect (ps ++ [(k, v)]) = Dict.set (collect ps) k v := by
  obtain ⟨hm, hn⟩ := eraseDups_mem_nodup _ (ps.map (·.1)) (Nat.le_refl _)
  have hl : ∀ x, ((ps ++ [(k, v)]).reverse.lookup x).getD Val.none =
      if x = k then v else (ps.reverse.lookup x).getD .none := by
    intro x
    rw [List.reverse_append]
    show (List.lookup x ((k, v) :: ps.reverse)).getD _ = _
    rw [List.lookup_cons]
    by_cases hx : x = k
    · subst hx; simp
    · rw [if_neg hx, show (x == k) = false by simpa using hx]
  unfold collect
  simp only [hl]
  rw [List.map_append, List.eraseDups_append]
  by_cases hk : k ∈ ps.map (·.1)
  · have : (List.map (·.1) [(k, v)]).removeAll (ps.map (·.1)) = [] := by
      simp only [List.removeAll, List.map_cons, List.map_nil, List.filter_cons, List.filter_nil]
      rw [if_neg (by simpa using hk)]
    rw [this, List.eraseDups_nil, List.append_nil, set_map hn ((hm k).2 hk)]
  · have : (List.map (·.1) [(k, v)]).removeAll (ps.map (·.1)) = [k] := by
      simp only [List.removeAll, List.map_cons, List.map_nil, List.filter_cons, List.filter_nil]
      rw [if_pos (by simpa using hk)]
    rw [this, set_snoc (by
      rw [List.map_map]
      intro h
      obtain ⟨x, hx, rfl⟩ := List.mem_map.1 h
      exact hk ((hm _).1 hx)), List.map_append]
    congr 1
    · refine List.map_congr_left fun x hx => ?_
      rw [if_neg (by rintro rfl; exact hk ((hm _).1 hx))]
    · simp [List.eraseDups_cons]

theorem foldl_set (ps qs : List (String × Val)) :
    ps.foldl (fun d p => Dict.set d p.1 p.2) (collect qs) = collect (qs ++ ps) := by
  induction ps generalizing qs with
  | nil => rw [List.append_nil]; rfl
  | cons p ps ih => rw [List.foldl_cons, ← collect_snoc, ih, List.append_assoc]; rfl

/-! ## Values -/

theorem valText_head {f : FloatText} {v : Val} {t : List Char} (h : ValText f v t) :
    ∃ c u, t = c :: u ∧ isWs c = false ∧ c ≠ ']' := by
  have num : ∀ c : Char, (c = '-' ∨ c.isDigit = true) → isWs c = false ∧ c ≠ ']' := by
    rintro c (rfl | hc)
    · decide
    · constructor
      · cases hw : isWs c with
        | false => rfl
        | true =>
          rcases (isWs_iff c).1 hw with rfl | rfl | rfl | rfl <;> exact absurd hc (by decide)
      · rintro rfl
        exact absurd hc (by decide)
  cases h with
  | null => exact ⟨'n', _, rfl, by decide, by decide⟩
  | true => exact ⟨'t', _, rfl, by decide, by decide⟩
  | false => exact ⟨'f', _, rfl, by decide, by decide⟩
  | int z t h => obtain ⟨c, u, rfl, hc⟩ := intText_start h; exact ⟨c, u, rfl, num c hc⟩
  | flt q t h => obtain ⟨c, u, rfl, hc⟩ := floatLit_head h; exact ⟨c, u, rfl, num c hc⟩
  | str s t h => obtain ⟨u, -, rfl⟩ := h; exact ⟨_, _, rfl, by decide, by decide⟩
  | _ => exact ⟨_, _, rfl, by decide, by decide⟩

theorem skipWs_val {f : FloatText} {v : Val} {t : List Char} (h : ValText f v t) {a : List Char} (ha : Gap a) (r : List Char) :
    skipWs (a ++ (t ++ r)) = t ++ r := by
  obtain ⟨c, u, rfl, hc, -⟩ := valText_head h
  rw [skipWs_gap ha, List.cons_append, skipWs_cons hc]

theorem stop_gap {b : List Char} (hb : Gap b) {c : Char} (hc : c = ',' ∨ c = ']' ∨ c = '}') (r : List Char) :
    Stop (b ++ c :: r) := by
  intro x hx
  cases b with
  | nil =>
    cases hx
    rcases hc with h | h | h <;> simp [h]
  | cons y b =>
    have hx : y = x := by simpa using hx
    rcases hb x (hx ▸ List.mem_cons_self ..) with h | h | h | h <;> simp [h]

theorem skipWs_gap_cons {a : List Char} (ha : Gap a) {c : Char} (hc : isWs c = false) (r : List Char) :
    skipWs (a ++ c :: r) = c :: r := by
  rw [skipWs_gap ha, skipWs_cons hc]

mutual
theorem scanVal_of_text {f : FloatText} : {v : Val} → {t : List Char} → ValText f v t → (n : Nat) → (r : List Char) → Stop r →
    t.length ≤ n → scanVal f n (t ++ r) = .ok (v, r)
  | v, t, h, 0, r, hr, hn => by
    obtain ⟨c, u, rfl, -⟩ := valText_head h
    simp at hn
  | _, _, .null, n + 1, r, hr, hn => rfl
  | _, _, .true, n + 1, r, hr, hn => rfl
  | _, _, .false, n + 1, r, hr, hn => rfl
  | _, _, .int z t h, n + 1, r, hr, hn => by
    obtain ⟨c, u, h1, h2⟩ := intText_start h
    rw [h1, List.cons_append, scanVal_num h2, ← List.cons_append, ← h1]
    exact scanNum_intText h hr
  | _, _, .flt q t h hq, n + 1, r, hr, hn => by
    obtain ⟨c, u, h1, h2⟩ := floatLit_head h
    rw [h1, List.cons_append, scanVal_num h2, ← List.cons_append, ← h1]
    exact scanNum_floatText h hq hr
  | _, _, .str s t h, n + 1, r, hr, hn => by
    obtain ⟨u, hu, rfl⟩ := h
    show scanVal f (n + 1) ('"' :: (u ++ ['"'] ++ r)) = _
    rw [List.append_assoc]
    exact scanVal_str (scanStr_of_text hu r)
  | _, _, .noItems w hw, n + 1, r, hr, hn => by
    show scanVal f (n + 1) ('[' :: (w ++ [']'] ++ r)) = _
    rw [List.append_assoc]
    show (match skipWs (w ++ ']' :: r) with
      | ']' :: r => Except.ok (Val.list [], r)
      | r => scanItems f n [] r) = _
    rw [skipWs_gap_cons hw (by decide)]
    rfl
  | _, _, .items l t h, n + 1, r, hr, hn => by
    simp only [List.length_cons] at hn
    obtain ⟨c, u, h1, h2, h3⟩ := scanItems_of_text h n [] r (by omega)
    rw [List.cons_append, scanVal_list h1 h2, h3]
    rfl
  | _, _, .noPairs w hw, n + 1, r, hr, hn => by
    show scanVal f (n + 1) ('{' :: (w ++ ['}'] ++ r)) = _
    rw [List.append_assoc]
    show (match skipWs (w ++ '}' :: r) with
      | '}' :: r => Except.ok (Val.dict [], r)
      | '"' :: r => scanPairs f n [] r
      | _ => .error .valueError) = _
    rw [skipWs_gap_cons hw (by decide)]
    rfl
  | _, _, .pairs ps t h, n + 1, r, hr, hn => by
    simp only [List.length_cons] at hn
    obtain ⟨u, h1, h2⟩ := scanPairs_of_text h n [] r (by omega)
    rw [List.cons_append, scanVal_dict h1, h2, show ([] : Dict) = collect [] from rfl, foldl_set, List.nil_append]

theorem scanItems_of_text {f : FloatText} : {l : List Val} → {t : List Char} → ItemsText f l t → (n : Nat) → (acc : List Val) →
    (r : List Char) → t.length ≤ n → ∃ c u, skipWs (t ++ r) = c :: u ∧ c ≠ ']' ∧
      scanItems f n acc (c :: u) = .ok (.list (acc.reverse ++ l), r)
  | _, _, .last v a t b ha h hb, n, acc, r, hn => by
    simp only [List.length_append, List.length_cons, List.length_nil] at hn
    obtain ⟨n, rfl⟩ : ∃ m, n = m + 1 := ⟨n - 1, by omega⟩
    have h1 := scanVal_of_text h n (b ++ ']' :: r) (stop_gap hb (by simp) r) (by omega)
    have h2 := skipWs_val h ha (b ++ ']' :: r)
    obtain ⟨c, u, rfl, -, hc⟩ := valText_head h
    simp only [List.append_assoc, List.cons_append, List.nil_append] at h1 h2 ⊢
    exact ⟨c, _, h2, hc, scanItems_end h1 (skipWs_gap_cons hb (by decide) r)⟩
  | _, _, .next v l a t b w ha h hb hl, n, acc, r, hn => by
    simp only [List.length_append, List.length_cons] at hn
    obtain ⟨n, rfl⟩ : ∃ m, n = m + 1 := ⟨n - 1, by omega⟩
    have h1 := scanVal_of_text h n (b ++ ',' :: (w ++ r)) (stop_gap hb (by simp) _) (by omega)
    have h2 := skipWs_val h ha (b ++ ',' :: (w ++ r))
    obtain ⟨c', u', e1, -, e2⟩ := scanItems_of_text hl n (v :: acc) r (by omega)
    obtain ⟨c, u, rfl, -, hc⟩ := valText_head h
    simp only [List.append_assoc, List.cons_append, List.nil_append] at h1 h2 ⊢
    refine ⟨c, _, h2, hc, ?_⟩
    rw [scanItems_next h1 (skipWs_gap_cons hb (by decide) _), e1, e2]
    simp

theorem scanPairs_of_text {f : FloatText} : {ps : List (String × Val)} → {t : List Char} → PairsText f ps t → (n : Nat) →
    (acc : Dict) → (r : List Char) → t.length ≤ n → ∃ u, skipWs (t ++ r) = '"' :: u ∧
      scanPairs f n acc u = .ok (.dict (ps.foldl (fun d p => Dict.set d p.1 p.2) acc), r)
  | _, _, .last k v a s b c t e ha hs hb hc h he, n, acc, r, hn => by
    simp only [List.length_append, List.length_cons, List.length_nil] at hn
    obtain ⟨n, rfl⟩ : ∃ m, n = m + 1 := ⟨n - 1, by omega⟩
    have h1 := scanVal_of_text h n (e ++ '}' :: r) (stop_gap he (by simp) r) (by omega)
    have h2 := skipWs_val h hc (e ++ '}' :: r)
    obtain ⟨u, hu, rfl⟩ := hs
    simp only [List.append_assoc, List.cons_append, List.nil_append] at h1 h2 ⊢
    refine ⟨_, skipWs_gap_cons ha (by decide) _, ?_⟩
    exact scanPairs_end (scanStr_of_text hu _) (skipWs_gap_cons hb (by decide) _) (by rw [h2]; exact h1)
      (skipWs_gap_cons he (by decide) _)
  | _, _, .next k v ps a s b c t e w ha hs hb hc h he hp, n, acc, r, hn => by
    simp only [List.length_append, List.length_cons] at hn
    obtain ⟨n, rfl⟩ : ∃ m, n = m + 1 := ⟨n - 1, by omega⟩
    have h1 := scanVal_of_text h n (e ++ ',' :: (w ++ r)) (stop_gap he (by simp) _) (by omega)
    have h2 := skipWs_val h hc (e ++ ',' :: (w ++ r))
    obtain ⟨u', e1, e2⟩ := scanPairs_of_text hp n (Dict.set acc k v) r (by omega)
    obtain ⟨u, hu, rfl⟩ := hs
    simp only [List.append_assoc, List.cons_append, List.nil_append] at h1 h2 ⊢
    refine ⟨_, skipWs_gap_cons ha (by decide) _, ?_⟩
    rw [scanPairs_next (scanStr_of_text hu _) (skipWs_gap_cons hb (by decide) _) (by rw [h2]; exact h1)
      (skipWs_gap_cons he (by decide) _) e1, e2]
    rfl
end

/-! ## What is read is a text -/

theorem ItemsText.gap {f : FloatText} {l : List Val} {a t : List Char} (ha : Gap a) (h : ItemsText f l t) :
    ItemsText f l (a ++ t) := by
  cases h with
  | last v a' t b h1 h2 h3 =>
    simp only [← List.append_assoc]
    exact .last v (a ++ a') t b (gap_append ha h1) h2 h3
  | next v l a' t b u h1 h2 h3 h4 =>
    simp only [← List.append_assoc]
    exact .next v l (a ++ a') t b u (gap_append ha h1) h2 h3 h4

theorem PairsText.gap {f : FloatText} {l : List (String × Val)} {a t : List Char} (ha : Gap a) (h : PairsText f l t) :
    PairsText f l (a ++ t) := by
  cases h with
  | last k v a' s b c t e h1 h2 h3 h4 h5 h6 =>
    simp only [← List.append_assoc]
    exact .last k v (a ++ a') s b c t e (gap_append ha h1) h2 h3 h4 h5 h6
  | next k v ps a' s b c t e u h1 h2 h3 h4 h5 h6 h7 =>
    simp only [← List.append_assoc]
    exact .next k v ps (a ++ a') s b c t e u (gap_append ha h1) h2 h3 h4 h5 h6 h7

theorem text_of_scan (f : FloatText) : ∀ n : Nat,
    (∀ cs v r, scanVal f n cs = .ok (v, r) → ∃ t, cs = t ++ r ∧ ValText f v t) ∧
    (∀ acc cs v r, scanItems f n acc cs = .ok (v, r) → ∃ l t, v = .list (acc.reverse ++ l) ∧ cs = t ++ r ∧ ItemsText f l t) ∧
    (∀ acc cs v r, scanPairs f n acc cs = .ok (v, r) → ∃ ps t, v = .dict (ps.foldl (fun d p => Dict.set d p.1 p.2) acc) ∧
      '"' :: cs = t ++ r ∧ PairsText f ps t) := by
  intro n
  induction n with
  | zero =>
    refine ⟨?_, ?_, ?_⟩
    · intro cs v r h; rw [scanVal] at h; cases h
    · intro acc cs v r h; rw [scanItems] at h; cases h
    · intro acc cs v r h; rw [scanPairs] at h; cases h
  | succ n ih =>
    obtain ⟨ih1, ih2, ih3⟩ := ih
    refine ⟨?_, ?_, ?_⟩
    · intro cs v p h
      rw [scanVal.eq_def] at h
      dsimp only at h
      split at h
      · rename_i r
        split at h
        · rename_i s r' hs
          cases h
          obtain ⟨t, rfl, ht⟩ := text_of_scanStr hs
          exact ⟨'"' :: t ++ ['"'], by simp, .str s _ ⟨t, ht, rfl⟩⟩
        · cases h
      · rename_i r
        obtain ⟨a, ha, hg⟩ := skipWs_split r
        split at h
        · rename_i r' hr
          cases h
          rw [hr] at ha
          subst ha
          exact ⟨'{' :: a ++ ['}'], by simp, .noPairs a hg⟩
        · rename_i r' hr
          obtain ⟨ps, t, rfl, ht, hp⟩ := ih3 _ _ _ _ h
          rw [hr, ht] at ha
          subst ha
          refine ⟨'{' :: (a ++ t), by simp, ?_⟩
          have := foldl_set ps []
          rw [show collect [] = ([] : Dict) from rfl, List.nil_append] at this
          rw [this]
          exact .pairs ps _ (PairsText.gap hg hp)
        · cases h
      · rename_i r
        obtain ⟨a, ha, hg⟩ := skipWs_split r
        split at h
        · rename_i r' hr
          cases h
          rw [hr] at ha
          subst ha
          exact ⟨'[' :: a ++ [']'], by simp, .noItems a hg⟩
        · obtain ⟨l, t, rfl, ht, hp⟩ := ih2 _ _ _ _ h
          rw [ht] at ha
          subst ha
          exact ⟨'[' :: (a ++ t), by simp, .items l _ (ItemsText.gap hg hp)⟩
      · cases h; exact ⟨_, rfl, .null⟩
      · cases h; exact ⟨_, rfl, .true⟩
      · cases h; exact ⟨_, rfl, .false⟩
      · exact text_of_scanNum h
    · intro acc cs v p h
      rw [scanItems.eq_def] at h
      dsimp only at h
      split at h
      · cases h
      · rename_i u r hv
        obtain ⟨t, rfl, ht⟩ := ih1 _ _ _ hv
        obtain ⟨b, hb, hg⟩ := skipWs_split r
        split at h
        · rename_i r' hr
          cases h
          rw [hr] at hb
          subst hb
          exact ⟨[u], [] ++ t ++ b ++ [']'], rfl, by simp, .last u [] t b gap_nil ht hg⟩
        · rename_i r' hr
          obtain ⟨l, t', rfl, ht', hl⟩ := ih2 _ _ _ _ h
          obtain ⟨a, ha, hga⟩ := skipWs_split r'
          rw [ht'] at ha
          rw [hr, ha] at hb
          subst hb
          exact ⟨u :: l, [] ++ t ++ b ++ ',' :: (a ++ t'), by simp, by simp, .next u l [] t b _ gap_nil ht hg (ItemsText.gap hga hl)⟩
        · cases h
    · intro acc cs v p h
      rw [scanPairs.eq_def] at h
      dsimp only at h
      split at h
      · cases h
      · rename_i k r hk
        obtain ⟨s, rfl, hs⟩ := text_of_scanStr hk
        have hs : StrText k ('"' :: s ++ ['"']) := ⟨s, hs, rfl⟩
        obtain ⟨b, hb, hgb⟩ := skipWs_split r
        split at h
        · rename_i r1 hr1
          rw [hr1] at hb
          obtain ⟨c, hc, hgc⟩ := skipWs_split r1
          split at h
          · cases h
          · rename_i u r2 hv
            obtain ⟨t, ht, hvt⟩ := ih1 _ _ _ hv
            rw [ht] at hc
            obtain ⟨e, he, hge⟩ := skipWs_split r2
            split at h
            · rename_i r3 hr3
              cases h
              rw [hr3] at he
              subst he hc hb
              exact ⟨[(k, u)], [] ++ ('"' :: s ++ ['"']) ++ b ++ ':' :: c ++ t ++ e ++ ['}'], rfl, by simp,
                .last k u [] _ b c t e gap_nil hs hgb hgc hvt hge⟩
            · rename_i r3 hr3
              rw [hr3] at he
              obtain ⟨a, ha, hga⟩ := skipWs_split r3
              split at h
              · rename_i r4 hr4
                obtain ⟨ps, t', rfl, ht', hp⟩ := ih3 _ _ _ _ h
                rw [hr4, ht'] at ha
                subst ha he hc hb
                exact ⟨(k, u) :: ps, [] ++ ('"' :: s ++ ['"']) ++ b ++ ':' :: c ++ t ++ e ++ ',' :: (a ++ t'), rfl, by simp,
                  .next k u ps [] _ b c t e _ gap_nil hs hgb hgc hvt hge (PairsText.gap hga hp)⟩
              · cases h
            · cases h
        · cases h

theorem loads_of_text {f : FloatText} {v : Val} {s : List Char} (h : JsonText f v s) : loads f s = .ok v := by
  obtain ⟨a, t, b, rfl, ha, ht, hb⟩ := h
  have hstop : Stop b := by
    intro c hc
    cases b with
    | nil => cases hc
    | cons y b =>
      have hc : y = c := by simpa using hc
      rcases hb c (hc ▸ List.mem_cons_self ..) with h | h | h | h <;> simp [h]
  unfold loads
  rw [List.append_assoc, skipWs_val ht ha, scanVal_of_text ht _ b hstop (by simp only [List.length_append]; omega)]
  have : skipWs b = [] := by
    have := skipWs_gap hb []
    rwa [List.append_nil] at this
  simp only [this]
  rfl

theorem text_of_loads {f : FloatText} {v : Val} {s : List Char} (h : loads f s = .ok v) : JsonText f v s := by
  unfold loads at h
  split at h
  · cases h
  · rename_i u r hv
    split at h
    · rename_i hr
      cases h
      obtain ⟨t, ht, hvt⟩ := (text_of_scan f _).1 _ _ _ hv
      obtain ⟨a, ha, hg⟩ := skipWs_split s
      obtain ⟨b, hb, hgb⟩ := skipWs_split r
      rw [show skipWs r = [] by simpa using hr, List.append_nil] at hb
      subst hb
      exact ⟨a, t, r, by rw [List.append_assoc, ← ht]; exact ha, hg, hvt, hgb⟩
    · cases h

end Verif.Json
