import Verif.Py.Text
import Verif.Spec.Text
/-!
# Helper lemmas: `int(x)`
-/
set_option autoImplicit false

namespace Verif
open Spec

theorem isBlank_iff (c : Char) : isBlank c = true ↔ BlankChar c := by
  constructor
  · intro h
    simp only [isBlank, Bool.or_eq_true, beq_iff_eq, Bool.and_eq_true, decide_eq_true_eq] at h
    unfold BlankChar
    rcases h with h | ⟨h1, h2⟩
    · subst h; decide
    · have : c = Char.ofNat c.toNat := by simp
      rw [this]
      have hc : c.toNat = 9 ∨ c.toNat = 10 ∨ c.toNat = 11 ∨ c.toNat = 12 ∨ c.toNat = 13 := by omega
      rcases hc with h | h | h | h | h <;> rw [h] <;> decide
  · intro h
    unfold BlankChar at h
    simp only [List.mem_cons, List.not_mem_nil, or_false] at h
    rcases h with h | h | h | h | h | h <;> subst h <;> decide

theorem digit_iff (c : Char) : c.isDigit = true ↔ ∃ d : Fin 10, c = Nat.digitChar d := by
  constructor
  · intro h
    have h1 : 48 ≤ c.toNat ∧ c.toNat ≤ 57 := by
      simp only [Char.isDigit, Bool.and_eq_true, decide_eq_true_eq, ge_iff_le, UInt32.le_iff_toNat_le] at h
      exact h
    have hc : ∀ k : Fin 10, Char.ofNat (k + 48) = Nat.digitChar k := by decide
    refine ⟨⟨c.toNat - 48, by omega⟩, ?_⟩
    rw [← hc]
    have h2 : c.toNat - 48 + 48 = c.toNat := by omega
    show c = Char.ofNat (c.toNat - 48 + 48)
    rw [h2]; simp
  · rintro ⟨d, rfl⟩
    revert d; decide

theorem readDigits_append (l : List Char) : ∀ (m : List Char) (acc : Nat) (after : Bool) (n : Nat),
    readDigits acc after l = some n → m ≠ [] → readDigits acc after (l ++ m) = readDigits n true m := by
  induction l with
  | nil =>
    intro m acc after n h _
    unfold readDigits at h
    split at h
    · rename_i ha; subst ha; injection h with h; subst h; rfl
    · cases h
  | cons c l ih =>
    intro m acc after n h hm
    rw [List.cons_append]
    rw [readDigits] at h ⊢
    split at h
    · rename_i hc; rw [if_pos hc]; exact ih m _ _ _ h hm
    · rename_i hc
      rw [if_neg hc]
      split at h
      · rename_i hu; rw [if_pos hu]; exact ih m _ _ _ h hm
      · cases h

theorem digit_val (d : Fin 10) : (Nat.digitChar d).toNat - '0'.toNat = d := by revert d; decide
theorem digit_is (d : Fin 10) : (Nat.digitChar d).isDigit = true := by revert d; decide

theorem _root_.Verif.Spec.DigitRun.read {l : List Char} {n : Nat} (h : DigitRun l n) : readDigits 0 false l = some n := by
  induction h with
  | one d => 
    rw [readDigits, if_pos (digit_is d), digit_val]; simp [readDigits]
  | digit d hl ih =>
    rw [readDigits_append _ _ _ _ _ ih (by simp), readDigits, if_pos (digit_is d), digit_val]; simp [readDigits]
  | under d hl ih =>
    rw [readDigits_append _ _ _ _ _ ih (by simp), readDigits, if_neg (by decide), if_pos (by decide), readDigits,
      if_pos (digit_is d), digit_val]; simp [readDigits]

/-- What has been read before: nothing, digits, or digits and an underscore. -/
theorem readDigits_numeral (l : List Char) : ∀ (p : List Char) (acc : Nat) (n : Nat),
    (DigitRun p acc → readDigits acc true l = some n → DigitRun (p ++ l) n) ∧
    (DigitRun p acc → readDigits acc false l = some n → DigitRun (p ++ '_' :: l) n) := by
  induction l with
  | nil =>
    intro p acc n
    refine ⟨fun hp h => ?_, fun hp h => ?_⟩
    · simp only [readDigits, if_true, Option.some.injEq] at h; subst h; simpa using hp
    · simp [readDigits] at h
  | cons c l ih =>
    intro p acc n
    refine ⟨fun hp h => ?_, fun hp h => ?_⟩
    · unfold readDigits at h
      split at h
      · rename_i hc
        obtain ⟨d, rfl⟩ := (digit_iff c).1 hc
        rw [digit_val] at h
        have := (ih (p ++ [Nat.digitChar d]) (10 * acc + d) n).1 (.digit d hp) h
        simpa using this
      · split at h
        · rename_i hc
          simp only [Bool.and_true, beq_iff_eq] at hc
          subst hc
          exact (ih p acc n).2 hp h
        · cases h
    · unfold readDigits at h
      split at h
      · rename_i hc
        obtain ⟨d, rfl⟩ := (digit_iff c).1 hc
        rw [digit_val] at h
        have := (ih (p ++ ['_', Nat.digitChar d]) (10 * acc + d) n).1 (.under d hp) h
        simpa using this
      · simp at h

theorem readDigits_iff (l : List Char) (n : Nat) : readDigits 0 false l = some n ↔ DigitRun l n := by
  refine ⟨fun h => ?_, DigitRun.read⟩
  cases l with
  | nil => simp [readDigits] at h
  | cons c l =>
    unfold readDigits at h
    split at h
    · rename_i hc
      obtain ⟨d, rfl⟩ := (digit_iff c).1 hc
      rw [digit_val] at h
      have := (readDigits_numeral l [Nat.digitChar d] (10 * 0 + d) n).1 (by simpa using DigitRun.one d) h
      simpa using this
    · simp at h

theorem _root_.Verif.Spec.DigitRun.chars {l : List Char} {n : Nat} (h : DigitRun l n) :
    ∀ c ∈ l, c = '_' ∨ c.isDigit = true := by
  induction h with
  | one d => intro c hc; simp at hc; subst hc; exact .inr (digit_is d)
  | digit d hl ih =>
    intro c hc
    rcases List.mem_append.1 hc with hc | hc
    · exact ih c hc
    · simp at hc; subst hc; exact .inr (digit_is d)
  | under d hl ih =>
    intro c hc
    rcases List.mem_append.1 hc with hc | hc
    · exact ih c hc
    · simp at hc; rcases hc with rfl | rfl
      · exact .inl rfl
      · exact .inr (digit_is d)

theorem _root_.Verif.Spec.DigitRun.ne {l : List Char} {n : Nat} (h : DigitRun l n) : l ≠ [] := by
  cases h <;> simp

/-- A signed numeral. -/
theorem parseDec_iff (l : List Char) (z : Int) : parseDec l = some z ↔
    ∃ (s m : List Char) (n : Nat), l = s ++ m ∧ DigitRun m n ∧
      (s = [] ∧ z = n ∨ s = ['+'] ∧ z = n ∨ s = ['-'] ∧ z = -n) := by
  constructor
  · intro h
    unfold parseDec at h
    split at h
    · obtain ⟨n, hn, rfl⟩ := Option.map_eq_some_iff.1 h
      exact ⟨['-'], _, n, rfl, (readDigits_iff _ _).1 hn, .inr (.inr ⟨rfl, rfl⟩)⟩
    · obtain ⟨n, hn, rfl⟩ := Option.map_eq_some_iff.1 h
      exact ⟨['+'], _, n, rfl, (readDigits_iff _ _).1 hn, .inr (.inl ⟨rfl, rfl⟩)⟩
    · obtain ⟨n, hn, rfl⟩ := Option.map_eq_some_iff.1 h
      exact ⟨[], _, n, rfl, (readDigits_iff _ _).1 hn, .inl ⟨rfl, rfl⟩⟩
  · rintro ⟨s, m, n, rfl, hm, hs⟩
    have hr := hm.read
    rcases hs with ⟨rfl, rfl⟩ | ⟨rfl, rfl⟩ | ⟨rfl, rfl⟩
    · rw [List.nil_append]
      unfold parseDec
      split
      · rcases hm.chars '-' (by simp) with h | h <;> exact absurd h (by decide)
      · rcases hm.chars '+' (by simp) with h | h <;> exact absurd h (by decide)
      · rw [hr]; rfl
    · show (readDigits 0 false m).map _ = _
      rw [hr]; rfl
    · show (readDigits 0 false m).map _ = _
      rw [hr]; rfl

theorem dropWhile_split {α : Type} (p : α → Bool) (l : List α) :
    ∃ a, l = a ++ l.dropWhile p ∧ ∀ c ∈ a, p c = true :=
  ⟨l.takeWhile p, (List.takeWhile_append_dropWhile ..).symm, fun c hc => by
    have := List.all_takeWhile (p := p) (l := l)
    exact List.all_eq_true.1 this c hc⟩

theorem strip_split (l : List Char) :
    ∃ a b, l = a ++ stripBlanks l ++ b ∧ (∀ c ∈ a, isBlank c = true) ∧ (∀ c ∈ b, isBlank c = true) := by
  obtain ⟨a, ha, ha'⟩ := dropWhile_split isBlank l
  obtain ⟨b, hb, hb'⟩ := dropWhile_split isBlank (l.dropWhile isBlank).reverse
  refine ⟨a, b.reverse, ?_, ha', fun c hc => hb' c (List.mem_reverse.1 hc)⟩
  have := congrArg List.reverse hb
  rw [List.reverse_reverse, List.reverse_append] at this
  unfold stripBlanks
  rw [List.append_assoc, ← this]
  exact ha

theorem dropWhile_blanks {α : Type} (p : α → Bool) (a m : List α) (ha : ∀ c ∈ a, p c = true)
    (hm : ∀ c, m.head? = some c → p c = false) : (a ++ m).dropWhile p = m := by
  induction a with
  | nil =>
    cases m with
    | nil => rfl
    | cons c m => rw [List.nil_append, List.dropWhile_cons_of_neg]; simpa using hm c rfl
  | cons c a ih =>
    rw [List.cons_append, List.dropWhile_cons_of_pos (ha c (List.mem_cons_self ..))]
    exact ih (fun x hx => ha x (List.mem_cons_of_mem _ hx))

theorem strip_blanks (a m b : List Char) (ha : ∀ c ∈ a, isBlank c = true) (hb : ∀ c ∈ b, isBlank c = true)
    (hm : ∀ c ∈ m, isBlank c = false) (hne : m ≠ []) : stripBlanks (a ++ m ++ b) = m := by
  unfold stripBlanks
  rw [List.append_assoc, dropWhile_blanks _ _ _ ha]
  · rw [List.reverse_append, dropWhile_blanks]
    · simp
    · intro c hc; exact hb c (List.mem_reverse.1 hc)
    · intro c hc; exact hm c (List.mem_reverse.1 (List.mem_of_mem_head? hc))
  · intro c hc
    cases m with
    | nil => exact absurd rfl hne
    | cons x m => simp at hc; subst hc; exact hm _ (List.mem_cons_self ..)

theorem not_blank_of_digit {c : Char} (h : c.isDigit = true) : isBlank c = false := by
  obtain ⟨d, rfl⟩ := (digit_iff c).1 h
  revert d; decide

theorem ascii_blank {c : Char} (h : BlankChar c) : c.toNat < 128 := by
  unfold BlankChar at h
  simp only [List.mem_cons, List.not_mem_nil, or_false] at h
  rcases h with h | h | h | h | h | h <;> subst h <;> decide

theorem ascii_digit {c : Char} (h : c.isDigit = true) : c.toNat < 128 := by
  obtain ⟨d, rfl⟩ := (digit_iff c).1 h
  revert d; decide

theorem pyIntStr_iff (t : String) (z : Int) : pyIntStr t = .ok z ↔ Spells t z := by
  constructor
  · intro h
    unfold pyIntStr at h
    split at h
    · split at h
      · rename_i hz
        injection h with h
        subst h
        obtain ⟨s, m, n, hm, hn, hs⟩ := (parseDec_iff _ _).1 hz
        obtain ⟨a, b, hab, ha, hb⟩ := strip_split t.toList
        refine ⟨a, s, m, b, n, ?_, fun c hc => (isBlank_iff c).1 (ha c hc), fun c hc => (isBlank_iff c).1 (hb c hc),
          hn, hs⟩
        rw [hm] at hab
        simpa using hab
      · cases h
    · cases h
  · rintro ⟨a, s, m, b, n, ht, ha, hb, hn, hs⟩
    have hsm : ∀ c ∈ s ++ m, isBlank c = false ∧ c.toNat < 128 := by
      intro c hc
      rcases List.mem_append.1 hc with hc | hc
      · rcases hs with ⟨rfl, -⟩ | ⟨rfl, -⟩ | ⟨rfl, -⟩
        · cases hc
        all_goals
          simp at hc; subst hc; decide
      · rcases hn.chars c hc with rfl | h
        · decide
        · exact ⟨not_blank_of_digit h, ascii_digit h⟩
    unfold pyIntStr
    rw [if_pos]
    · rw [ht, List.append_assoc a s m, strip_blanks a (s ++ m) b (fun c hc => (isBlank_iff c).2 (ha c hc))
        (fun c hc => (isBlank_iff c).2 (hb c hc)) (fun c hc => (hsm c hc).1)
        (by have := hn.ne; simp [this]), (parseDec_iff _ _).2 ⟨s, m, n, rfl, hn, hs⟩]
    · rw [List.all_eq_true, ht]
      intro c hc
      have : c.toNat < 128 := by
        rcases List.mem_append.1 hc with hc | hc
        · rcases List.mem_append.1 hc with hc | hc
          · rcases List.mem_append.1 hc with hc | hc
            · exact ascii_blank (ha c hc)
            · exact (hsm c (List.mem_append_left _ hc)).2
          · exact (hsm c (List.mem_append_right _ hc)).2
        · exact ascii_blank (hb c hc)
      simpa using this

/-! ## Values -/

theorem trunc_iff (n : Num) (z : Int) : n.trunc = z ↔ Whole (.num n) z := by
  rw [Num.trunc_eq]
  show _ ↔ (0 ≤ n.val ∧ (z : Rat) ≤ n.val ∧ n.val < z + 1) ∨ (n.val < 0 ∧ n.val ≤ z ∧ (z : Rat) < n.val + 1)
  generalize n.val = q
  have hc : ∀ x : Int, q ≤ x ↔ q.ceil ≤ x := fun x => Rat.ceil_le_iff.symm
  split
  · rename_i h
    constructor
    · intro e
      subst e
      exact .inl ⟨h, Rat.floor_le q, by simpa using Rat.lt_floor_add_one q⟩
    · rintro (⟨-, h1, h2⟩ | ⟨h1, -⟩)
      · have a := Rat.le_floor_iff.2 h1
        have b := (Rat.floor_lt_iff (a := q) (x := z + 1)).2 (by simpa using h2)
        omega
      · grind
  · rename_i h
    have h' : q < 0 := by grind
    constructor
    · intro e
      subst e
      refine .inr ⟨h', (hc _).2 (Int.le_refl _), ?_⟩
      have : ¬ q ≤ ((q.ceil - 1 : Int) : Rat) := fun hh => by have := (hc _).1 hh; omega
      push_cast at this
      grind
    · rintro (⟨h1, -⟩ | ⟨-, h1, h2⟩)
      · grind
      · have a := (hc _).1 h1
        have b : ¬ q.ceil ≤ z - 1 := fun hh => by
          have := (hc _).2 hh
          push_cast at this
          grind
        omega

theorem pyInt_iff (v : Val) (z : Int) : pyInt v = .ok z ↔ Whole v z := by
  cases v with
  | num n =>
    show Except.ok n.trunc = .ok z ↔ _
    rw [Except.ok.injEq]
    exact trunc_iff n z
  | bool b =>
    show Except.ok (if b then (1 : Int) else 0) = .ok z ↔ z = if b then 1 else 0
    rw [Except.ok.injEq, eq_comm]
  | str t => exact pyIntStr_iff t z
  | none =>
    constructor
    · intro h; cases h
    · intro h; exact False.elim h
  | list l =>
    constructor
    · intro h; cases h
    · intro h; exact False.elim h
  | dict l =>
    constructor
    · intro h; cases h
    · intro h; exact False.elim h

/-- Decimal digits without underscores. -/
theorem readDigits_digits (l : List Char) : ∀ (acc : Nat) (after : Bool), (∀ c ∈ l, c.isDigit = true) →
    (l = [] → after = true) → readDigits acc after l = some (Nat.ofDigitChars 10 l acc) := by
  induction l with
  | nil => intro acc after _ h; rw [readDigits, if_pos (h rfl), Nat.ofDigitChars_nil]
  | cons c l ih =>
    intro acc after h _
    rw [readDigits, if_pos (h c (List.mem_cons_self ..)), ih _ _ (fun x hx => h x (List.mem_cons_of_mem _ hx))
      (fun _ => rfl), Nat.ofDigitChars_cons]

theorem digits_parse (n : Nat) : readDigits 0 false (Nat.toDigits 10 n) = some n := by
  rw [readDigits_digits _ _ _ (fun c hc => Nat.isDigit_of_mem_toDigits (by decide) (by decide) hc)
    (fun h => absurd h Nat.toDigits_ne_nil), Nat.ofDigitChars_ten_toDigits]

theorem spells_repr (z : Int) : Spells z.repr z := by
  cases z with
  | ofNat n =>
    refine ⟨[], [], Nat.toDigits 10 n, [], n, ?_, by simp, by simp, (readDigits_iff _ _).1 (digits_parse n),
      .inl ⟨rfl, rfl⟩⟩
    show (Nat.repr n).toList = _
    simp [Nat.repr]
  | negSucc n =>
    refine ⟨[], ['-'], Nat.toDigits 10 (n + 1), [], n + 1, ?_, by simp, by simp,
      (readDigits_iff _ _).1 (digits_parse _), .inr (.inr ⟨rfl, rfl⟩)⟩
    show ("-" ++ Nat.repr (n + 1)).toList = _
    simp [Nat.repr]

theorem pyInt_repr (z : Int) : pyInt (.str z.repr) = .ok z := (pyInt_iff _ _).2 (spells_repr z)

end Verif
