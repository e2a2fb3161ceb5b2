import Verif.Model.LuaParse
import Mathlib.Data.List.TakeDrop
/-!
# The bound on the recursion of `Lua.parse` is never reached

Reading consumes at least one character, so twice the length of the text bounds the number of nested and successive
calls.
-/
set_option autoImplicit false

namespace Verif.Lua

theorem skipSpace_le (s : List Char) : (skipSpace s).length ≤ s.length := by
  unfold skipSpace
  exact (List.dropWhile_sublist _).length_le

theorem skipDelim_le (d : Char) (s : List Char) : (skipDelim d s).1.length ≤ s.length := by
  have := skipSpace_le s
  unfold skipDelim
  split
  · next c r h =>
    rw [h] at this
    simp only [List.length_cons] at this
    split
    · dsimp only; omega
    · dsimp only [List.length_cons]; omega
  · dsimp only [List.length_nil]; omega

theorem parseStr_lt {s t r : List Char} (h : parseStr s = some (t, r)) : r.length < s.length := by
  induction s using parseStr.induct generalizing t r with
  | case1 => cases h
  | case2 r' => rw [parseStr] at h; cases h; exact Nat.lt_succ_self _
  | case3 => rw [parseStr] at h; cases h
  | case4 c r' ih =>
    rw [parseStr] at h
    obtain ⟨p, hp, e⟩ := Option.map_eq_some_iff.1 h
    cases e
    have := ih (t := p.1) (r := p.2) hp
    simp only [List.length_cons]; omega
  | case5 c r' h1 h2 h3 ih =>
    rw [parseStr] at h
    · obtain ⟨p, hp, e⟩ := Option.map_eq_some_iff.1 h
      cases e
      have := ih (t := p.1) (r := p.2) hp
      simp only [List.length_cons]; omega
    all_goals assumption

theorem optional_le (p : Char → Bool) (s : List Char) : (optional p s).2.length ≤ s.length := by
  unfold optional
  split
  · split
    · simp
    · exact Nat.le_refl _
  · exact Nat.le_refl _

theorem span_le (p : Char → Bool) (s : List Char) :
    (s.span p).1.length + (s.span p).2.length = s.length := by
  rw [List.span_eq_takeWhile_dropWhile]
  dsimp only
  rw [← List.length_append, List.takeWhile_append_dropWhile]

theorem matchNum_lt {s t r : List Char} (h : matchNum s = some (t, r)) : r.length < s.length := by
  unfold matchNum at h
  dsimp only at h
  split at h
  · cases h
  · next hw =>
    injection h with h
    injection h with _ h
    rw [← h]
    have h1 := optional_le (· = '-') s
    have h2 := span_le Char.isDigit (optional (· = '-') s).2
    have h2' : 0 < ((optional (· = '-') s).2.span Char.isDigit).1.length := by
      cases hh : ((optional (· = '-') s).2.span Char.isDigit).1 with
      | nil => rw [hh] at hw; exact absurd rfl hw
      | cons => exact Nat.succ_pos _
    have h3 := optional_le (· = '.') ((optional (· = '-') s).2.span Char.isDigit).2
    have h4 := span_le Char.isDigit (optional (· = '.') ((optional (· = '-') s).2.span Char.isDigit).2).2
    have h5 := optional_le (fun c => c = 'e' || c = 'E')
      ((optional (· = '.') ((optional (· = '-') s).2.span Char.isDigit).2).2.span Char.isDigit).2
    have h6 := optional_le (fun c => c = '+' || c = '-') (optional (fun c => c = 'e' || c = 'E')
      ((optional (· = '.') ((optional (· = '-') s).2.span Char.isDigit).2).2.span Char.isDigit).2).2
    have h7 := span_le Char.isDigit (optional (fun c => c = '+' || c = '-') (optional (fun c => c = 'e' || c = 'E')
      ((optional (· = '.') ((optional (· = '-') s).2.span Char.isDigit).2).2.span Char.isDigit).2).2).2
    omega

theorem parseNum_lt {tn : List Char → Option Rat} {s r : List Char} {v : LVal} (h : parseNum tn s = some (v, r)) :
    r.length < s.length := by
  unfold parseNum at h
  split at h
  · cases h
  · next t r' hm =>
    obtain ⟨q, -, e⟩ := Option.map_eq_some_iff.1 h
    cases e
    exact matchNum_lt hm

theorem parseLit_lt {s r : List Char} {v : LVal} (h : parseLit s = some (v, r)) : r.length < s.length := by
  unfold parseLit at h
  split at h
  · next hp =>
    cases h
    have := (List.isPrefixOf_iff_prefix.1 hp).length_le
    simp only [List.length_cons, List.length_nil] at this
    rw [List.length_drop]; omega
  · split at h
    · next hp =>
      cases h
      have := (List.isPrefixOf_iff_prefix.1 hp).length_le
      simp only [List.length_cons, List.length_nil] at this
      rw [List.length_drop]; omega
    · split at h
      · next hp =>
        cases h
        have := (List.isPrefixOf_iff_prefix.1 hp).length_le
        simp only [List.length_cons, List.length_nil] at this
        rw [List.length_drop]; omega
      · cases h

/-- What the three functions leave is shorter than what they were given. -/
theorem parse_lt (tn : List Char → Option Rat) (n : Nat) :
    (∀ stop s x r, parse tn n stop s = some (x, r) → r.length < s.length) ∧
    (∀ obj found s x r, parseObj tn n obj found s = some (x, r) → r.length < s.length) ∧
    (∀ arr found s x r, parseArr tn n arr found s = some (x, r) → r.length < s.length) := by
  induction n with
  | zero =>
    refine ⟨?_, ?_, ?_⟩
    · intro stop s x r h; rw [parse] at h; cases h
    · intro obj found s x r h; rw [parseObj] at h; cases h
    · intro arr found s x r h; rw [parseArr] at h; cases h
  | succ n ih =>
    obtain ⟨i1, i2, i3⟩ := ih
    refine ⟨?_, ?_, ?_⟩
    · intro stop s x r h
      rw [parse] at h
      have hs := skipSpace_le s
      split at h
      · cases h
      · next c t e =>
        rw [e] at hs
        simp only [List.length_cons] at hs
        split at h
        · have := i2 _ _ _ _ _ h; omega
        · split at h
          · have := i3 _ _ _ _ _ h; omega
          · split at h
            · obtain ⟨p, hp, e⟩ := Option.map_eq_some_iff.1 h
              cases e
              have := parseStr_lt (t := p.1) (r := p.2) hp
              omega
            · split at h
              · obtain ⟨p, hp, e⟩ := Option.map_eq_some_iff.1 h
                cases e
                have := parseNum_lt (v := p.1) (r := p.2) hp
                simp only [List.length_cons] at this
                omega
              · split at h
                · cases h; omega
                · obtain ⟨p, hp, e⟩ := Option.map_eq_some_iff.1 h
                  cases e
                  have := parseLit_lt (v := p.1) (r := p.2) hp
                  simp only [List.length_cons] at this
                  omega
    · intro obj found s x r h
      rw [parseObj] at h
      split at h
      · cases h
      · next r' e => cases h; exact i1 _ _ _ _ e
      · next k r' e =>
        have h1 := i1 _ _ _ _ e
        split at h
        · cases h
        · have h2 := skipDelim_le ':' r'
          split at h
          · cases h
          · next r'' e2 =>
            rw [e2] at h2
            dsimp only at h2
            split at h
            · next v r3 e3 =>
              have h3 := i1 _ _ _ _ e3
              have h4 := skipDelim_le ',' r3
              have h5 := i2 _ _ _ _ _ h
              omega
            · cases h
    · intro arr found s x r h
      rw [parseArr] at h
      split at h
      · cases h
      · next r' e => cases h; exact i1 _ _ _ _ e
      · next v r' e =>
        have h1 := i1 _ _ _ _ e
        split at h
        · cases h
        · have h4 := skipDelim_le ',' r'
          have h5 := i3 _ _ _ _ _ h
          omega

/-- One call more does not change the result when the number is large enough for the text. -/
theorem parse_step (tn : List Char → Option Rat) (n : Nat) :
    (∀ stop s, 2 * s.length + 1 ≤ n → parse tn (n + 1) stop s = parse tn n stop s) ∧
    (∀ obj found s, 2 * s.length + 2 ≤ n → parseObj tn (n + 1) obj found s = parseObj tn n obj found s) ∧
    (∀ arr found s, 2 * s.length + 2 ≤ n → parseArr tn (n + 1) arr found s = parseArr tn n arr found s) := by
  induction n with
  | zero => exact ⟨fun _ _ h => by omega, fun _ _ _ h => by omega, fun _ _ _ h => by omega⟩
  | succ n ih =>
    obtain ⟨i1, i2, i3⟩ := ih
    obtain ⟨l1, l2, l3⟩ := parse_lt tn n
    refine ⟨?_, ?_, ?_⟩
    · intro stop s h
      rw [parse, parse]
      have hs := skipSpace_le s
      split
      · rfl
      · next c t e =>
        rw [e] at hs
        simp only [List.length_cons] at hs
        rw [i2 [] true t (by omega), i3 [] true t (by omega)]
    · intro obj found s h
      rw [parseObj, parseObj, i1 (some '}') s (by omega)]
      split
      · rfl
      · rfl
      · next k r e =>
        have h1 := l1 _ _ _ _ e
        split
        · rfl
        · have h2 := skipDelim_le ':' r
          split
          · rfl
          · next r'' e2 =>
            rw [e2] at h2
            dsimp only at h2
            rw [i1 none r'' (by omega)]
            split
            · next v r3 e3 =>
              have h3 := l1 _ _ _ _ e3
              have h4 := skipDelim_le ',' r3
              exact i2 _ _ _ (by omega)
            · rfl
    · intro arr found s h
      rw [parseArr, parseArr, i1 (some ']') s (by omega)]
      split
      · rfl
      · rfl
      · next v r e =>
        have h1 := l1 _ _ _ _ e
        split
        · rfl
        · have h4 := skipDelim_le ',' r
          exact i3 _ _ _ (by omega)

theorem parse_fuel (tn : List Char → Option Rat) {n : Nat} {stop : Option Char} {s : List Char}
    (h : 2 * s.length + 1 ≤ n) : parse tn n stop s = parse tn (2 * s.length + 1) stop s := by
  obtain ⟨k, rfl⟩ := Nat.le.dest h
  clear h
  induction k with
  | zero => rfl
  | succ k ih => rw [← Nat.add_assoc, (parse_step tn _).1 stop s (by omega), ih]

end Verif.Lua
