import Verif.Py.Base64
/-!
# Helper lemmas: base64
-/
set_option autoImplicit false

namespace Verif.B64

theorem value_char {n : Nat} (h : n < 64) : value (char n) = some n ∧ char n ≠ '=' ∧ (char n).toNat < 128 := by
  have : ∀ n : Fin 64, value (char n) = some n.1 ∧ char n ≠ '=' ∧ (char n).toNat < 128 := by decide +kernel
  exact this ⟨n, h⟩

/-- One character of the alphabet. -/
theorem loop_char {n q lft p : Nat} {l : List Char} (h : n < 64) :
    decodeLoop q lft p (char n :: l) =
      if q = 0 then decodeLoop 1 n 0 l
      else if q = 1 then (decodeLoop 2 (n % 16) 0 l).map (UInt8.ofNat (lft * 4 + n / 16) :: ·)
      else if q = 2 then (decodeLoop 3 (n % 4) 0 l).map (UInt8.ofNat (lft * 16 + n / 4) :: ·)
      else (decodeLoop 0 0 0 l).map (UInt8.ofNat (lft * 64 + n) :: ·) := by
  obtain ⟨h1, h2, -⟩ := value_char h
  rw [decodeLoop, if_neg h2, h1]

theorem ofNat_eq {n : Nat} {a : UInt8} (h : n = a.toNat) : UInt8.ofNat n = a := by
  subst h
  exact UInt8.ofNat_toNat

theorem decodeLoop_encode (l : List UInt8) : decodeLoop 0 0 0 (encode l) = some l := by
  fun_induction encode l with
  | case1 => rfl
  | case2 a =>
    have ha := a.toNat_lt
    rw [loop_char (by omega), if_pos rfl, loop_char (by omega), if_neg (by decide), if_pos rfl]
    have : decodeLoop 2 (a.toNat % 4 * 16 % 16) 0 ['=', '='] = some [] := rfl
    rw [this]
    simp only [Option.map_some]
    rw [ofNat_eq (a := a) (by omega)]
  | case3 a b =>
    have ha := a.toNat_lt
    have hb := b.toNat_lt
    rw [loop_char (by omega), if_pos rfl, loop_char (by omega), if_neg (by decide), if_pos rfl,
      loop_char (by omega), if_neg (by decide), if_neg (by decide), if_pos rfl]
    have : decodeLoop 3 (b.toNat % 16 * 4 % 4) 0 ['='] = some [] := rfl
    rw [this]
    simp only [Option.map_some]
    rw [ofNat_eq (a := a) (by omega), ofNat_eq (a := b) (by omega)]
  | case4 a b c l ih =>
    have ha := a.toNat_lt
    have hb := b.toNat_lt
    have hc := c.toNat_lt
    rw [loop_char (by omega), if_pos rfl, loop_char (by omega), if_neg (by decide), if_pos rfl,
      loop_char (by omega), if_neg (by decide), if_neg (by decide), if_pos rfl,
      loop_char (by omega), if_neg (by decide), if_neg (by decide), if_neg (by decide), ih]
    simp only [Option.map_some]
    rw [ofNat_eq (a := a) (by omega), ofNat_eq (a := b) (by omega), ofNat_eq (a := c) (by omega)]

theorem encode_ascii (l : List UInt8) : (encode l).all (fun c => c.toNat < 128) = true := by
  fun_induction encode l with
  | case1 => rfl
  | case2 a =>
    have ha := a.toNat_lt
    have h1 := (value_char (n := a.toNat / 4) (by omega)).2.2
    have h2 := (value_char (n := a.toNat % 4 * 16) (by omega)).2.2
    simp only [List.all_cons, h1, h2, decide_true, Bool.true_and]
    decide
  | case3 a b =>
    have ha := a.toNat_lt
    have hb := b.toNat_lt
    have h1 := (value_char (n := a.toNat / 4) (by omega)).2.2
    have h2 := (value_char (n := a.toNat % 4 * 16 + b.toNat / 16) (by omega)).2.2
    have h3 := (value_char (n := b.toNat % 16 * 4) (by omega)).2.2
    simp only [List.all_cons, h1, h2, h3, decide_true, Bool.true_and]
    decide
  | case4 a b c l ih =>
    have ha := a.toNat_lt
    have hb := b.toNat_lt
    have hc := c.toNat_lt
    have h1 := (value_char (n := a.toNat / 4) (by omega)).2.2
    have h2 := (value_char (n := a.toNat % 4 * 16 + b.toNat / 16) (by omega)).2.2
    have h3 := (value_char (n := b.toNat % 16 * 4 + c.toNat / 64) (by omega)).2.2
    have h4 := (value_char (n := c.toNat % 64) (by omega)).2.2
    simp only [List.all_cons, h1, h2, h3, h4, decide_true, Bool.true_and, ih]

theorem decode_encode (l : List UInt8) : decode (encode l) = .ok (some l) := by
  unfold decode
  rw [if_pos (encode_ascii l), decodeLoop_encode]

/-- Text without padding ends in an incomplete group if the count does not fit. -/
theorem decodeLoop_length (r : List Char) (quad left pads : Nat) (hq : quad < 4) (hp : '=' ∉ r)
    (hn : (quad + (r.filter (fun c => (value c).isSome)).length) % 4 ≠ 0) :
    decodeLoop quad left pads r = none := by
  induction r generalizing quad left pads with
  | nil =>
    unfold decodeLoop
    rw [if_neg]
    intro h
    subst h
    exact hn rfl
  | cons c r ih =>
    rw [List.mem_cons, not_or] at hp
    unfold decodeLoop
    rw [if_neg (fun h => hp.1 h.symm)]
    cases hv : value c with
    | none =>
      rw [List.filter_cons_of_neg (by rw [hv]; decide)] at hn
      exact ih quad left pads hq hp.2 hn
    | some v =>
      rw [List.filter_cons_of_pos (by rw [hv]; rfl), List.length_cons] at hn
      dsimp only
      have h1 : quad = 0 ∨ quad = 1 ∨ quad = 2 ∨ quad = 3 := by omega
      rcases h1 with rfl | rfl | rfl | rfl
      · rw [if_pos rfl]
        exact ih _ _ _ (by omega) hp.2 (by omega)
      · rw [if_neg (by decide), if_pos rfl, ih _ _ _ (by omega) hp.2 (by omega)]
        rfl
      · rw [if_neg (by decide), if_neg (by decide), if_pos rfl, ih _ _ _ (by omega) hp.2 (by omega)]
        rfl
      · rw [if_neg (by decide), if_neg (by decide), if_neg (by decide), ih _ _ _ (by omega) hp.2 (by omega)]
        rfl

end Verif.B64
