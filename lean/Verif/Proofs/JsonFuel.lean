import Verif.Proofs.Json
/-!
# Helper lemmas: the recursion bound of `json.loads` does not matter
-/
set_option autoImplicit false

namespace Verif
namespace Json

theorem skipWs_length (cs : List Char) : (skipWs cs).length ≤ cs.length :=
  (List.dropWhile_suffix _).length_le

theorem push_ok {n : Nat} {x : Except Exc (List Nat × List Char)} {p : List Nat × List Char}
    (h : push n x = .ok p) : ∃ q, x = .ok q ∧ q.2 = p.2 := by
  cases x with
  | error e => cases h
  | ok q => cases h; exact ⟨q, rfl, rfl⟩

theorem scanUnits_length : ∀ (n : Nat) (cs : List Char), cs.length ≤ n → ∀ {p}, scanUnits cs = .ok p →
    p.2.length < cs.length := by
  intro n
  induction n with
  | zero =>
    intro cs hn p h
    cases cs with
    | nil => rw [scanUnits] at h; cases h
    | cons c r => simp at hn
  | succ n ih =>
    intro cs hn p h
    cases cs with
    | nil => rw [scanUnits] at h; cases h
    | cons c r =>
      rw [scanUnits.eq_def] at h
      dsimp only at h
      simp only [List.length_cons] at hn ⊢
      split at h
      · cases h; simp
      · split at h
        · split at h
          · cases h
          · rename_i c' r'
            split at h
            · split at h
              · split at h
                · obtain ⟨q, hq, e⟩ := push_ok h
                  simp only [List.length_cons] at hn ⊢
                  have := ih _ (by omega) hq
                  rw [← e]; omega
                · cases h
              · cases h
            · split at h
              · obtain ⟨q, hq, e⟩ := push_ok h
                simp only [List.length_cons] at hn ⊢
                have := ih _ (by omega) hq
                rw [← e]; omega
              · cases h
        · split at h
          · cases h
          · obtain ⟨q, hq, e⟩ := push_ok h
            have := ih _ (by omega) hq
            rw [← e]; omega

theorem scanStr_length {cs : List Char} {p : String × List Char} (h : scanStr cs = .ok p) :
    p.2.length < cs.length := by
  unfold scanStr at h
  simp only [bind_eq_ok, pure_eq_ok, Except.ok.injEq] at h
  obtain ⟨q, hq, s, -, rfl⟩ := h
  exact scanUnits_length _ _ (Nat.le_refl _) hq

theorem afterDigits_length (cs : List Char) : (afterDigits cs).length ≤ cs.length := by
  unfold afterDigits
  exact (List.dropWhile_suffix _).length_le

theorem lexInt_length {cs : List Char} {p : List Char × List Char} (h : lexInt cs = some p) :
    p.2.length < cs.length := by
  cases cs with
  | nil => cases h
  | cons c r =>
    rw [lexInt] at h
    split at h
    · cases h; simp
    · split at h
      · cases h
        have := afterDigits_length r
        simp; omega
      · cases h

theorem lexFrac_length (cs : List Char) : (lexFrac cs).2.length ≤ cs.length := by
  unfold lexFrac
  split
  · rename_i r
    split
    · simp
    · have := afterDigits_length r
      simp; omega
  · simp

theorem lexExp_length (cs : List Char) : (lexExp cs).2.length ≤ cs.length := by
  unfold lexExp
  split
  · simp
  · simp
  · rename_i e s r
    split
    · split
      · split
        · simp
        · have := afterDigits_length r
          simp; omega
      · split
        · simp
        · have := afterDigits_length (s :: r)
          simp at this ⊢; omega
    · simp

theorem scanUnsigned_length {f : FloatText} {neg : Bool} {cs : List Char} {p : Val × List Char}
    (h : scanUnsigned f neg cs = .ok p) : p.2.length < cs.length := by
  unfold scanUnsigned at h
  split at h
  · cases h
  · rename_i i r hi
    have h1 := lexInt_length hi
    have h2 := lexFrac_length r
    have h3 := lexExp_length (lexFrac r).2
    dsimp only at h h1
    split at h
    · cases h; dsimp only; omega
    · split at h
      · cases h; dsimp only; omega
      · cases h

theorem scanNum_length {f : FloatText} {cs : List Char} {p : Val × List Char}
    (h : scanNum f cs = .ok p) : p.2.length < cs.length := by
  unfold scanNum at h
  split at h
  · cases h
  · cases h
  · cases h
  · have := scanUnsigned_length h; simp; omega
  · exact scanUnsigned_length h

theorem scan_length (f : FloatText) : ∀ n : Nat,
    (∀ cs p, scanVal f n cs = .ok p → p.2.length < cs.length) ∧
    (∀ acc cs p, scanItems f n acc cs = .ok p → p.2.length < cs.length) ∧
    (∀ acc cs p, scanPairs f n acc cs = .ok p → p.2.length < cs.length) := by
  intro n
  induction n with
  | zero =>
    refine ⟨?_, ?_, ?_⟩
    · intro cs p h; rw [scanVal] at h; cases h
    · intro acc cs p h; rw [scanItems] at h; cases h
    · intro acc cs p h; rw [scanPairs] at h; cases h
  | succ n ih =>
    obtain ⟨ih1, ih2, ih3⟩ := ih
    refine ⟨?_, ?_, ?_⟩
    · intro cs p h
      rw [scanVal.eq_def] at h
      dsimp only at h
      split at h
      · rename_i r
        split at h
        · rename_i s r' hs
          cases h
          have := scanStr_length hs
          simp at this ⊢; omega
        · cases h
      · rename_i r
        have hw := skipWs_length r
        split at h
        · rename_i r' hr
          cases h
          rw [hr] at hw
          simp at hw ⊢; omega
        · rename_i r' hr
          have := ih3 _ _ _ h
          rw [hr] at hw
          simp at hw ⊢; omega
        · cases h
      · rename_i r
        have hw := skipWs_length r
        split at h
        · rename_i r' hr
          cases h
          rw [hr] at hw
          simp at hw ⊢; omega
        · have := ih2 _ _ _ h
          simp; omega
      · cases h; simp; omega
      · cases h; simp; omega
      · cases h; simp; omega
      · exact scanNum_length h
    · intro acc cs p h
      rw [scanItems.eq_def] at h
      dsimp only at h
      split at h
      · cases h
      · rename_i v r hv
        have h1 := ih1 _ _ hv
        have hw := skipWs_length r
        dsimp only at h1
        split at h
        · rename_i r' hr
          cases h
          rw [hr] at hw
          simp at hw ⊢; omega
        · rename_i r' hr
          have h2 := ih2 _ _ _ h
          have hw2 := skipWs_length r'
          rw [hr] at hw
          simp at hw ⊢; omega
        · cases h
    · intro acc cs p h
      rw [scanPairs.eq_def] at h
      dsimp only at h
      split at h
      · cases h
      · rename_i k r hk
        have h0 := scanStr_length hk
        have hw := skipWs_length r
        dsimp only at h0
        split at h
        · rename_i r1 hr1
          have hw1 := skipWs_length r1
          rw [hr1] at hw
          split at h
          · cases h
          · rename_i v r2 hv
            have h1 := ih1 _ _ hv
            have hw2 := skipWs_length r2
            dsimp only at h1
            split at h
            · rename_i r3 hr3
              cases h
              rw [hr3] at hw2
              simp at hw hw2 ⊢; omega
            · rename_i r3 hr3
              have hw3 := skipWs_length r3
              rw [hr3] at hw2
              split at h
              · rename_i r4 hr4
                have h2 := ih3 _ _ _ h
                rw [hr4] at hw3
                simp at hw hw2 hw3 ⊢; omega
              · cases h
            · cases h
        · cases h

theorem scan_fuel (f : FloatText) : ∀ n : Nat,
    (∀ cs, 2 * cs.length + 1 ≤ n → ∀ m, n ≤ m → scanVal f m cs = scanVal f n cs) ∧
    (∀ acc cs, 2 * cs.length + 2 ≤ n → ∀ m, n ≤ m → scanItems f m acc cs = scanItems f n acc cs) ∧
    (∀ acc cs, 2 * cs.length + 2 ≤ n → ∀ m, n ≤ m → scanPairs f m acc cs = scanPairs f n acc cs) := by
  intro n
  induction n with
  | zero => exact ⟨fun _ h => by omega, fun _ _ h => by omega, fun _ _ h => by omega⟩
  | succ n ih =>
    obtain ⟨ih1, ih2, ih3⟩ := ih
    refine ⟨?_, ?_, ?_⟩
    · intro cs hn m hm
      obtain ⟨m, rfl⟩ : ∃ k, m = k + 1 := ⟨m - 1, by omega⟩
      rw [scanVal.eq_def, scanVal.eq_def f (n + 1)]
      dsimp only
      split
      · rfl
      · rename_i r
        have hw := skipWs_length r
        simp only [List.length_cons] at hn
        split
        · rfl
        · rename_i r' hr
          rw [hr] at hw
          simp only [List.length_cons] at hw
          exact ih3 _ _ (by omega) _ (by omega)
        · rfl
      · rename_i r
        have hw := skipWs_length r
        simp only [List.length_cons] at hn
        split
        · rfl
        · exact ih2 _ _ (by omega) _ (by omega)
      · rfl
      · rfl
      · rfl
      · rfl
    · intro acc cs hn m hm
      obtain ⟨m, rfl⟩ : ∃ k, m = k + 1 := ⟨m - 1, by omega⟩
      rw [scanItems.eq_def, scanItems.eq_def f (n + 1)]
      dsimp only
      rw [ih1 cs (by omega) m (by omega)]
      split
      · rfl
      · rename_i v r hv
        have h1 := (scan_length f n).1 _ _ hv
        have hw := skipWs_length r
        dsimp only at h1
        split
        · rfl
        · rename_i r' hr
          have hw2 := skipWs_length r'
          rw [hr] at hw
          simp only [List.length_cons] at hw
          exact ih2 _ _ (by omega) _ (by omega)
        · rfl
    · intro acc cs hn m hm
      obtain ⟨m, rfl⟩ : ∃ k, m = k + 1 := ⟨m - 1, by omega⟩
      rw [scanPairs.eq_def, scanPairs.eq_def f (n + 1)]
      dsimp only
      split
      · rfl
      · rename_i k r hk
        have h0 := scanStr_length hk
        have hw := skipWs_length r
        dsimp only at h0
        split
        · rename_i r1 hr1
          have hw1 := skipWs_length r1
          rw [hr1] at hw
          simp only [List.length_cons] at hw
          rw [ih1 (skipWs r1) (by omega) m (by omega)]
          split
          · rfl
          · rename_i v r2 hv
            have h1 := (scan_length f n).1 _ _ hv
            have hw2 := skipWs_length r2
            dsimp only at h1
            split
            · rfl
            · rename_i r3 hr3
              have hw3 := skipWs_length r3
              rw [hr3] at hw2
              simp only [List.length_cons] at hw2
              split
              · rename_i r4 hr4
                rw [hr4] at hw3
                simp only [List.length_cons] at hw3
                exact ih3 _ _ (by omega) _ (by omega)
              · rfl
            · rfl
        · rfl

/-- Any larger bound gives the same result. -/
theorem loads_fuel (f : FloatText) (s : List Char) (n : Nat) (h : 2 * s.length + 2 ≤ n) :
    loads f s = match scanVal f n (skipWs s) with
      | .error e => .error e
      | .ok (v, r) => if (skipWs r).isEmpty then .ok v else .error .valueError := by
  unfold loads
  have := skipWs_length s
  rw [(scan_fuel f _).1 (skipWs s) (by omega) n h]
  rfl

/-! ## Errors -/

/-- The errors of `json.loads`. -/
def IsBad (e : Exc) : Prop := e = .valueError ∨ e = .unmodelled

theorem push_error {n : Nat} {x : Except Exc (List Nat × List Char)} {e : Exc}
    (h : push n x = .error e) : x = .error e := by
  cases x with
  | error e => cases h; rfl
  | ok q => cases h

theorem scanUnits_error : ∀ (n : Nat) (cs : List Char), cs.length ≤ n → ∀ {e}, scanUnits cs = .error e →
    e = .valueError := by
  intro n
  induction n with
  | zero =>
    intro cs hn e h
    cases cs with
    | nil => rw [scanUnits] at h; cases h; rfl
    | cons c r => simp at hn
  | succ n ih =>
    intro cs hn e h
    cases cs with
    | nil => rw [scanUnits] at h; cases h; rfl
    | cons c r =>
      rw [scanUnits.eq_def] at h
      dsimp only at h
      simp only [List.length_cons] at hn
      split at h
      · cases h
      · split at h
        · split at h
          · cases h; rfl
          · split at h
            · split at h
              · split at h
                · simp only [List.length_cons] at hn
                  exact ih _ (by omega) (push_error h)
                · cases h; rfl
              · cases h; rfl
            · split at h
              · simp only [List.length_cons] at hn
                exact ih _ (by omega) (push_error h)
              · cases h; rfl
        · split at h
          · cases h; rfl
          · exact ih _ (by omega) (push_error h)

theorem joinUnits_error : ∀ (n : Nat) (l : List Nat), l.length ≤ n → ∀ {e}, joinUnits l = .error e →
    e = .unmodelled := by
  intro n
  induction n with
  | zero =>
    intro l hn e h
    cases l with
    | nil => rw [joinUnits] at h; cases h
    | cons c r => simp at hn
  | succ n ih =>
    intro l hn e h
    rw [joinUnits.eq_def] at h
    split at h
    · cases h
    · split at h
      · cases h; rfl
      · cases h
    · rename_i a b l
      simp only [List.length_cons] at hn
      split at h
      · split at h
        · cases hj : joinUnits l with
          | error e' => rw [hj] at h; cases h; exact ih _ (by omega) hj
          | ok v => rw [hj] at h; cases h
        · cases h; rfl
      · split at h
        · cases h; rfl
        · cases hj : joinUnits (b :: l) with
          | error e' => rw [hj] at h; cases h; exact ih _ (by simp; omega) hj
          | ok v => rw [hj] at h; cases h

theorem scanStr_error {cs : List Char} {e : Exc} (h : scanStr cs = .error e) : IsBad e := by
  unfold scanStr at h
  cases hu : scanUnits cs with
  | error e' => rw [hu] at h; cases h; exact .inl (scanUnits_error _ _ (Nat.le_refl _) hu)
  | ok p =>
    rw [hu, ok_bind] at h
    cases hj : joinUnits p.1 with
    | error e' => rw [hj] at h; cases h; exact .inr (joinUnits_error _ _ (Nat.le_refl _) hj)
    | ok s => rw [hj] at h; cases h

theorem scanUnsigned_error {f : FloatText} {neg : Bool} {cs : List Char} {e : Exc}
    (h : scanUnsigned f neg cs = .error e) : IsBad e := by
  unfold scanUnsigned at h
  split at h
  · cases h; exact .inl rfl
  · dsimp only at h
    split at h
    · cases h
    · split at h
      · cases h
      · cases h; exact .inr rfl

theorem scanNum_error {f : FloatText} {cs : List Char} {e : Exc} (h : scanNum f cs = .error e) : IsBad e := by
  unfold scanNum at h
  split at h
  · cases h; exact .inr rfl
  · cases h; exact .inr rfl
  · cases h; exact .inr rfl
  · exact scanUnsigned_error h
  · exact scanUnsigned_error h

theorem scan_error (f : FloatText) : ∀ n : Nat,
    (∀ cs e, scanVal f n cs = .error e → IsBad e) ∧
    (∀ acc cs e, scanItems f n acc cs = .error e → IsBad e) ∧
    (∀ acc cs e, scanPairs f n acc cs = .error e → IsBad e) := by
  intro n
  induction n with
  | zero =>
    refine ⟨?_, ?_, ?_⟩
    · intro cs e h; rw [scanVal] at h; cases h; exact .inr rfl
    · intro acc cs e h; rw [scanItems] at h; cases h; exact .inr rfl
    · intro acc cs e h; rw [scanPairs] at h; cases h; exact .inr rfl
  | succ n ih =>
    obtain ⟨ih1, ih2, ih3⟩ := ih
    refine ⟨?_, ?_, ?_⟩
    · intro cs e h
      rw [scanVal.eq_def] at h
      dsimp only at h
      split at h
      · split at h
        · cases h
        · rename_i hs
          cases h
          exact scanStr_error hs
      · split at h
        · cases h
        · exact ih3 _ _ _ h
        · cases h; exact .inl rfl
      · split at h
        · cases h
        · exact ih2 _ _ _ h
      · cases h
      · cases h
      · cases h
      · exact scanNum_error h
    · intro acc cs e h
      rw [scanItems.eq_def] at h
      dsimp only at h
      split at h
      · rename_i hv
        cases h
        exact ih1 _ _ hv
      · split at h
        · cases h
        · exact ih2 _ _ _ h
        · cases h; exact .inl rfl
    · intro acc cs e h
      rw [scanPairs.eq_def] at h
      dsimp only at h
      split at h
      · rename_i hk
        cases h
        exact scanStr_error hk
      · split at h
        · split at h
          · rename_i hv
            cases h
            exact ih1 _ _ hv
          · split at h
            · cases h
            · split at h
              · exact ih3 _ _ _ h
              · cases h; exact .inl rfl
            · cases h; exact .inl rfl
        · cases h; exact .inl rfl

theorem loads_error {f : FloatText} {s : List Char} {e : Exc} (h : loads f s = .error e) : IsBad e := by
  unfold loads at h
  split at h
  · rename_i hv
    cases h
    exact (scan_error f _).1 _ _ hv
  · split at h
    · cases h
    · cases h; exact .inl rfl

end Json
end Verif
