import Verif.Proofs.Base64
import Verif.Proofs.Json
import Verif.Proofs.World
import Verif.Model.Codec
/-!
# Lemmas about exchange strings
-/
set_option autoImplicit false

namespace Verif
open Spec

theorem unUtf8_utf8 (s : List Char) : unUtf8 (utf8 s) = some s := by
  unfold unUtf8 utf8
  have : (⟨(String.ofList s).toByteArray.data.toList.toArray⟩ : ByteArray) = s.utf8Encode := by
    rw [Array.toArray_toList, String.toByteArray_ofList]
  rw [this, List.utf8Decode?_utf8Encode]
  rfl

theorem encode_toList (rt : Runtime) (v : Val) :
    (encode rt v).toList = '0' :: B64.encode (rt.zlib.compress (utf8 (Json.dumps rt.float v))) :=
  String.toList_ofList

/-- Decoding the text of some bytes: they are decompressed, decoded and parsed. -/
theorem decode_b64 (rt : Runtime) (b : List UInt8) : decode rt (String.ofList ('0' :: B64.encode b)) =
    match rt.zlib.decompress b with
    | none => .error .invalidExchangeString
    | some b =>
      match unUtf8 b with
      | none => .error .valueError
      | some t => Json.loads rt.float t := by
  unfold decode
  rw [String.toList_ofList]
  dsimp only
  rw [if_pos rfl]
  unfold decode0
  rw [List.drop_succ_cons, List.drop_zero, B64.decode_encode]
  rfl

theorem decode_encode {rt : Runtime} (hz : Lossless rt.zlib) {v : Val} (h : Plain rt.float v) :
    decode rt (encode rt v) = .ok v := by
  unfold encode
  rw [decode_b64, hz]
  dsimp only
  rw [unUtf8_utf8]
  exact Json.loads_dumps h

/-- An encoding has no newline after the version byte. -/
theorem b64_no_newline (b : List UInt8) (r : List Char) : B64.encode b ≠ '\n' :: r := by
  have key : ∀ n, n < 64 → B64.char n ≠ '\n' := by
    intro n hn hc
    have := (B64.value_char hn).1
    rw [hc] at this
    exact absurd this (by intro h; revert h; decide +revert)
  intro h
  unfold B64.encode at h
  split at h
  · cases h
  all_goals exact key _ (Nat.div_lt_of_lt_mul (UInt8.toNat_lt _)) (List.cons.inj h).1

theorem toStringBp_fst (rt : Runtime) (b : BpId) (w : World) :
    (toStringBp rt b w).1 = (toJson b w).1.map (encode rt) ∧ (toStringBp rt b w).2 = (toJson b w).2 := by
  unfold toStringBp
  rw [M.bind_eq]
  cases h : toJson b w with
  | mk r w' => cases r <;> exact ⟨rfl, rfl⟩

theorem bpEq_fst (rt : Runtime) (b c : BpId) (w : World) : (bpEq rt b c w).1 = (do
    let u ← (toJson b w).1
    let v ← (toJson c (toJson b w).2).1
    return encode rt u == encode rt v) := by
  unfold bpEq
  obtain ⟨h1, h2⟩ := toStringBp_fst rt b w
  rw [← h2, M.bind_eq]
  revert h1
  cases toStringBp rt b w with
  | mk x w1 =>
    intro h1
    dsimp only at h1 ⊢
    subst h1
    cases (toJson b w).1 with
    | error e => rfl
    | ok u =>
      have h3 := (toStringBp_fst rt c w1).1
      show ((toStringBp rt c >>= fun t => pure (encode rt u == t)) w1).1 = _
      rw [M.bind_eq]
      revert h3
      cases toStringBp rt c w1 with
      | mk y w2 =>
        intro h3
        dsimp only at h3
        subst h3
        cases (toJson c w1).1 <;> rfl

mutual
/-- No floats, and no key occurs twice. -/
def exact : Val → Bool
  | .num (.flt _) => false
  | .list l => exactList l
  | .dict d => decide (d.map (·.1)).Nodup && exactDict d
  | _ => true
def exactList : List Val → Bool
  | [] => true
  | v :: l => exact v && exactList l
def exactDict : List (String × Val) → Bool
  | [] => true
  | (_, v) :: d => exact v && exactDict d
end

mutual
theorem plain_of_exact (f : FloatText) : ∀ v, exact v = true → Plain f v
  | .num (.flt _), h => by cases h
  | .list l, h => plainList_of_exact f l h
  | .dict d, h => by
    have h : (decide (d.map (·.1)).Nodup && exactDict d) = true := h
    rw [Bool.and_eq_true, decide_eq_true_iff] at h
    exact ⟨h.1, plainDict_of_exact f d h.2⟩
  | .num (.int _), _ => trivial
  | .none, _ => trivial
  | .bool _, _ => trivial
  | .str _, _ => trivial
theorem plainList_of_exact (f : FloatText) : ∀ l, exactList l = true → PlainList f l
  | [], _ => trivial
  | v :: l, h => by
    have h : (exact v && exactList l) = true := h
    rw [Bool.and_eq_true] at h
    exact ⟨plain_of_exact f v h.1, plainList_of_exact f l h.2⟩
theorem plainDict_of_exact (f : FloatText) : ∀ d, exactDict d = true → PlainDict f d
  | [], _ => trivial
  | (_, v) :: d, h => by
    have h : (exact v && exactDict d) = true := h
    rw [Bool.and_eq_true] at h
    exact ⟨plain_of_exact f v h.1, plainDict_of_exact f d h.2⟩
end

end Verif
