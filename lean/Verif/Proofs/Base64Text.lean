import Verif.Spec.Base64
import Verif.Proofs.Base64
import Verif.Proofs.JsonText
import Mathlib.Tactic.Ring
/-!
# Helper lemmas: base64 and its definition by bits
-/
set_option autoImplicit false
namespace Verif
open Spec
theorem bits_length : ∀ w n, (bits w n).length = w
  | 0, _ => rfl
  | w + 1, n => by rw [bits, List.length_append, bits_length w]; rfl

theorem char_alphabet {n : Nat} (h : n < 64) : B64.char n = alphabet.getD n '=' := by
  have : ∀ k : Fin 64, B64.char k = alphabet.getD k '=' := by decide +kernel
  exact this ⟨n, h⟩

theorem bits6 (n : Nat) : bits 6 n = [decide (n / 32 % 2 = 1), decide (n / 16 % 2 = 1), decide (n / 8 % 2 = 1), decide (n / 4 % 2 = 1),
    decide (n / 2 % 2 = 1), decide (n % 2 = 1)] := by
  simp only [bits, List.nil_append, List.cons_append, Nat.div_div_eq_div_mul]
theorem bits8 (n : Nat) : bits 8 n = [decide (n / 128 % 2 = 1), decide (n / 64 % 2 = 1), decide (n / 32 % 2 = 1), decide (n / 16 % 2 = 1), decide (n / 8 % 2 = 1), decide (n / 4 % 2 = 1),
    decide (n / 2 % 2 = 1), decide (n % 2 = 1)] := by
  simp only [bits, List.nil_append, List.cons_append, Nat.div_div_eq_div_mul]
theorem three {a b c : Nat} (ha : a < 256) (hb : b < 256) (hc : c < 256) :
   bits 6 (a / 4) ++ (bits 6 (a % 4 * 16 + b / 16) ++ (bits 6 (b % 16 * 4 + c / 64) ++ bits 6 (c % 64))) = bits 8 a ++ (bits 8 b ++ bits 8 c) := by
  simp only [bits6, bits8, List.nil_append, List.cons_append, List.cons.injEq, decide_eq_decide, and_true]
  refine ⟨?_, ?_, ?_, ?_, ?_, ?_, ?_, ?_, ?_, ?_, ?_, ?_, ?_, ?_, ?_, ?_, ?_, ?_, ?_, ?_, ?_, ?_, ?_, ?_⟩ <;> first | trivial | omega

theorem bits_inj : ∀ {w n m : Nat}, n < 2 ^ w → m < 2 ^ w → bits w n = bits w m → n = m
  | 0, n, m, hn, hm, _ => by simp at hn hm; omega
  | w + 1, n, m, hn, hm, h => by
    rw [bits, bits] at h
    obtain ⟨h1, h2⟩ := List.append_inj h (by rw [bits_length, bits_length])
    have := bits_inj (n := n / 2) (m := m / 2) (by omega) (by omega) h1
    simp only [List.cons.injEq, decide_eq_decide, and_true] at h2
    omega

theorem flatMap_bits_inj : ∀ {ns ms : List Nat}, (∀ n ∈ ns, n < 64) → (∀ n ∈ ms, n < 64) →
    ns.flatMap (bits 6) = ms.flatMap (bits 6) → ns = ms
  | [], [], _, _, _ => rfl
  | [], m :: ms, _, _, h => by
    have := congrArg List.length h
    rw [List.flatMap_cons, List.length_append, bits_length] at this
    simp at this
    omega
  | n :: ns, [], _, _, h => by
    have := congrArg List.length h
    rw [List.flatMap_cons, List.length_append, bits_length] at this
    simp at this
  | n :: ns, m :: ms, hn, hm, h => by
    rw [List.flatMap_cons, List.flatMap_cons] at h
    obtain ⟨h1, h2⟩ := List.append_inj h (by rw [bits_length, bits_length])
    rw [bits_inj (hn n (List.mem_cons_self ..)) (hm m (List.mem_cons_self ..)) h1,
      flatMap_bits_inj (fun x hx => hn x (List.mem_cons_of_mem _ hx)) (fun x hx => hm x (List.mem_cons_of_mem _ hx)) h2]

theorem flatMap_bits_length : ∀ (w : Nat) (ns : List Nat), (ns.flatMap (bits w)).length = w * ns.length
  | _, [] => rfl
  | w, n :: ns => by
    rw [List.flatMap_cons, List.length_append, bits_length, flatMap_bits_length w ns, List.length_cons]
    ring

theorem base64_text : ∀ l : List UInt8, Base64Text l (B64.encode l)
  | [] => ⟨[], 0, 0, by simp, rfl, by decide, rfl, by decide, by simp⟩
  | [a] => by
    have ha := a.toNat_lt
    refine ⟨[a.toNat / 4, a.toNat % 4 * 16], 4, 2, ?_, ?_, by decide, ?_, by decide, by simp⟩
    · intro n hn
      simp only [List.mem_cons, List.not_mem_nil, or_false] at hn
      omega
    · simp only [List.flatMap_cons, List.flatMap_nil, List.append_nil, bits6, bits8, List.nil_append, List.cons_append, List.cons.injEq, List.replicate, decide_eq_decide, and_true, decide_eq_false_iff_not]
      refine ⟨?_, ?_, ?_, ?_, ?_, ?_, ?_, ?_, ?_, ?_, ?_, ?_⟩ <;> first | trivial | omega
    · simp only [B64.encode, List.map_cons, List.map_nil]
      rw [char_alphabet (by omega), char_alphabet (by omega)]
      rfl
  | [a, b] => by
    have ha := a.toNat_lt
    have hb := b.toNat_lt
    refine ⟨[a.toNat / 4, a.toNat % 4 * 16 + b.toNat / 16, b.toNat % 16 * 4], 2, 1, ?_, ?_, by decide, ?_, by decide, by simp⟩
    · intro n hn
      simp only [List.mem_cons, List.not_mem_nil, or_false] at hn
      omega
    · simp only [List.flatMap_cons, List.flatMap_nil, List.append_nil, bits6, bits8, List.nil_append, List.cons_append, List.cons.injEq, List.replicate, decide_eq_decide, and_true, decide_eq_false_iff_not]
      refine ⟨?_, ?_, ?_, ?_, ?_, ?_, ?_, ?_, ?_, ?_, ?_, ?_, ?_, ?_, ?_, ?_, ?_, ?_⟩ <;> first | trivial | omega
    · simp only [B64.encode, List.map_cons, List.map_nil]
      rw [char_alphabet (by omega), char_alphabet (by omega), char_alphabet (by omega)]
      rfl
  | a :: b :: c :: l => by
    have ha := a.toNat_lt
    have hb := b.toNat_lt
    have hc := c.toNat_lt
    obtain ⟨ns, z, p, h1, h2, h3, h4, h5, h6⟩ := base64_text l
    refine ⟨a.toNat / 4 :: (a.toNat % 4 * 16 + b.toNat / 16) :: (b.toNat % 16 * 4 + c.toNat / 64) :: c.toNat % 64 :: ns, z, p, ?_, ?_, h3, ?_, h5, ?_⟩
    · intro n hn
      simp only [List.mem_cons] at hn
      rcases hn with h | h | h | h | h
      · omega
      · omega
      · omega
      · omega
      · exact h1 n h
    · simp only [List.flatMap_cons, h2]
      have := three ha hb hc
      simp only [← List.append_assoc] at this ⊢
      rw [this]
    · simp only [B64.encode, List.map_cons, List.cons_append]
      rw [char_alphabet (by omega), char_alphabet (by omega), char_alphabet (by omega), char_alphabet (by omega), h4]
    · simp only [List.length_cons]
      omega

theorem base64_unique {l : List UInt8} {t u : List Char} (ht : Base64Text l t) (hu : Base64Text l u) : t = u := by
  obtain ⟨ns, z, p, h1, h2, h3, rfl, h5, h6⟩ := ht
  obtain ⟨ms, y, q, k1, k2, k3, rfl, k5, k6⟩ := hu
  have e1 := congrArg List.length h2
  have e2 := congrArg List.length k2
  rw [flatMap_bits_length, List.length_append, List.length_replicate] at e1 e2
  obtain rfl : z = y := by omega
  obtain rfl : ns = ms := flatMap_bits_inj h1 k1 (by rw [h2, k2])
  obtain rfl : p = q := by omega
  rfl

theorem value_alphabet (c : Char) : (B64.value c).isSome = decide (c ∈ alphabet) := by
  by_cases h : c.toNat < 128
  · have : ∀ m : Fin 128, (B64.value (Char.ofNat m)).isSome = decide (Char.ofNat m ∈ alphabet) := by decide +kernel
    have := this ⟨c.toNat, h⟩
    dsimp only at this
    rwa [Json.ofNat_toNat] at this
  · have hv : B64.value c = none := by
      unfold B64.value
      dsimp only
      rw [if_neg (by omega), if_neg (by omega), if_neg (by omega), if_neg (by omega), if_neg (by omega)]
    have hm : c ∉ alphabet := by
      intro hc
      have : ∀ c ∈ alphabet, c.toNat < 128 := by decide +kernel
      exact h (this c hc)
    rw [hv]
    simpa using hm

theorem decodeLoop_letters (s : List Char) : ∀ q l p, B64.decodeLoop q l p s = B64.decodeLoop q l p (letters s) := by
  induction s with
  | nil => intro q l p; rfl
  | cons c s ih =>
    intro q l p
    unfold letters
    rw [List.filter_cons]
    by_cases hc : c = '='
    · subst hc
      rw [if_pos (by simp)]
      unfold B64.decodeLoop
      rw [if_pos rfl, if_pos rfl, ih, ih]
      rfl
    · cases hv : B64.value c with
      | none =>
        have := value_alphabet c
        rw [hv] at this
        rw [if_neg (by simpa [hc] using this)]
        rw [B64.decodeLoop, if_neg hc, hv]
        exact ih q l p
      | some v =>
        have := value_alphabet c
        rw [hv] at this
        rw [if_pos (by simpa [hc] using this)]
        rw [B64.decodeLoop, B64.decodeLoop, if_neg hc, if_neg hc, hv]
        dsimp only
        rw [ih, ih 2, ih 3, ih 0]
        rfl
end Verif
