import Verif.Proofs.JsonGrammar
import Verif.Proofs.Codec
import Verif.Proofs.Base64Text
import Verif.Proofs.Decimal
import Verif.Props.FloatText
/-!
# C82: exchange strings of other programs

`Spec.JsonText` is the grammar of RFC 8259: any blanks, any escapes, any way of writing numbers.
-/
set_option autoImplicit false

namespace Verif
open Spec

/-- C82: a text is read as a value exactly if it is a JSON text of it. -/
theorem C82_reads (f : FloatText) (s : List Char) (v : Val) : Json.loads f s = .ok v ↔ JsonText f v s :=
  ⟨Json.text_of_loads, Json.loads_of_text⟩

/-- C82: a text stands for at most one value. -/
theorem C82_unique {f : FloatText} {s : List Char} {u v : Val} (hu : JsonText f u s) (hv : JsonText f v s) : u = v :=
  Except.ok.inj ((Json.loads_of_text hu).symm.trans (Json.loads_of_text hv))

/-- C82: what the library writes is a JSON text. -/
theorem C82_writes {f : FloatText} {v : Val} (h : Plain f v) : JsonText f v (Json.dumps f v) :=
  Json.text_of_loads (Json.loads_dumps h)

/-- C82: a text that is not JSON is refused (`unmodelled`: `NaN`, infinities, lone surrogates, and floats that are too
large). -/
theorem C82_refuses {f : FloatText} {s : List Char} (h : ∀ v, ¬ JsonText f v s) :
    Json.loads f s = .error .valueError ∨ Json.loads f s = .error .unmodelled := by
  cases hs : Json.loads f s with
  | ok v => exact absurd (Json.text_of_loads hs) (h v)
  | error e =>
    rcases Json.loads_error hs with rfl | rfl
    · exact .inl rfl
    · exact .inr rfl

/-- C82: the float that a number stands for is the one nearest to the decimal. -/
theorem C82_number {t : List Char} (h : FloatLit t) (d : Rat) :
    pyFloats.read t = some d ↔ ∃ q, Decimal (String.ofList t) q ∧ ¬ TooLarge q ∧ Rounded q d := by
  have hc : ∀ c ∈ t, isBlank c = false ∧ c.toNat < 128 := by
    have hd : ∀ c : Char, c.isDigit = true → isBlank c = false ∧ c.toNat < 128 := by
      intro c hc
      have : 48 ≤ c.toNat ∧ c.toNat ≤ 57 := by
        rw [Char.isDigit, Bool.and_eq_true, decide_eq_true_eq, decide_eq_true_eq] at hc
        exact hc
      refine ⟨?_, by omega⟩
      cases hb : isBlank c with
      | false => rfl
      | true =>
        simp only [isBlank, Bool.or_eq_true, beq_iff_eq, Bool.and_eq_true, decide_eq_true_eq] at hb
        rcases hb with rfl | hb
        · exact absurd this.1 (by decide)
        · omega
    obtain ⟨sg, i, fr, ex, rfl, hsg, hi, hf, hx, -⟩ := h
    intro c hc
    simp only [List.mem_append] at hc
    rcases hc with ((hc | hc) | hc) | hc
    · rcases hsg with rfl | rfl
      · cases hc
      · rw [List.mem_singleton] at hc; subst hc; decide
    · rcases hi with rfl | ⟨a, r, rfl, -, ha, hr⟩
      · rw [List.mem_singleton] at hc; subst hc; decide
      · rcases List.mem_cons.1 hc with rfl | hc
        · exact hd _ ha
        · exact hd _ (hr _ hc)
    · rcases hf with rfl | ⟨ds, rfl, -, hds⟩
      · cases hc
      · rcases List.mem_cons.1 hc with rfl | hc
        · decide
        · exact hd _ (hds _ hc)
    · rcases hx with rfl | ⟨e, s, ds, rfl, he, hs, -, hds⟩
      · cases hc
      · rw [List.cons_append, List.mem_cons, List.mem_append] at hc
        rcases hc with rfl | hc | hc
        · rcases he with rfl | rfl <;> decide
        · rcases hs with rfl | rfl | rfl
          · cases hc
          · rw [List.mem_singleton] at hc; subst hc; decide
          · rw [List.mem_singleton] at hc; subst hc; decide
        · exact hd _ (hds _ hc)
  have hne : t ≠ [] := by
    obtain ⟨c, u, rfl, -⟩ := Json.floatLit_head h
    simp
  have hstrip : stripBlanks t = t := by
    have := strip_blanks [] t [] (by simp) (by simp) (fun c h => (hc c h).1) hne
    simpa using this
  show (readDecimal t).bind toDouble = some d ↔ _
  constructor
  · intro h
    obtain ⟨q, hq, hr⟩ := Option.bind_eq_some_iff.1 h
    exact ⟨q, (decimal_iff _ _).2 ⟨by simpa using fun c h => (hc c h).2, by rw [String.toList_ofList, hstrip, hq]⟩,
      (toDouble_some _ _).1 hr⟩
  · rintro ⟨q, hq, hr⟩
    have := ((decimal_iff _ _).1 hq).2
    rw [String.toList_ofList, hstrip] at this
    rw [this, Option.bind_some]
    exact (toDouble_some q d).2 hr

/-- C82: the letters that the library writes for bytes are their base64 text. -/
theorem C82_base64 (l : List UInt8) (t : List Char) : Base64Text l t ↔ t = B64.encode l :=
  ⟨fun h => base64_unique h (base64_text l), fun h => h ▸ base64_text l⟩

/-- C82: it is read back; characters that are not letters of base64, such as line breaks, do not count. -/
theorem C82_base64_read {l : List UInt8} {s : List Char} (ha : ∀ c ∈ s, c.toNat < 128) (h : Base64Text l (letters s)) :
    B64.decode s = .ok (some l) := by
  have h1 := B64.decode_encode l
  unfold B64.decode at h1 ⊢
  rw [if_pos (B64.encode_ascii l)] at h1
  rw [if_pos (by simpa using ha), decodeLoop_letters, (C82_base64 l _).1 h]
  exact h1

/-- C82: strings that differ in characters that do not count are decoded alike. -/
theorem C82_line_breaks (rt : Runtime) {s u : List Char} (hs : ∀ c ∈ s, c.toNat < 128) (hu : ∀ c ∈ u, c.toNat < 128)
    (h : letters s = letters u) : decode rt (String.ofList ('0' :: s)) = decode rt (String.ofList ('0' :: u)) := by
  have : B64.decode s = B64.decode u := by
    unfold B64.decode
    rw [if_pos (by simpa using hs), if_pos (by simpa using hu), decodeLoop_letters s, decodeLoop_letters u, h]
  unfold decode
  rw [String.toList_ofList, String.toList_ofList]
  dsimp only
  rw [if_pos rfl, if_pos rfl]
  unfold decode0
  rw [List.drop_succ_cons, List.drop_zero, List.drop_succ_cons, List.drop_zero, this]

/-- C82: a string is decoded to a value if its letters are the base64 text of bytes that are decompressed to a JSON text
of the value, whatever program compressed and wrote them. -/
theorem C82_other_programs {rt : Runtime} {v : Val} {t s : List Char} {z : List UInt8} (ht : JsonText rt.float v t)
    (hz : rt.zlib.decompress z = some (utf8 t)) (ha : ∀ c ∈ s, c.toNat < 128) (hs : Base64Text z (letters s)) :
    decode rt (String.ofList ('0' :: s)) = .ok v := by
  unfold decode
  rw [String.toList_ofList]
  dsimp only
  rw [if_pos rfl]
  unfold decode0
  rw [List.drop_succ_cons, List.drop_zero, C82_base64_read ha hs]
  dsimp only
  rw [hz]
  dsimp only
  rw [unUtf8_utf8]
  exact Json.loads_of_text ht

/-- The exchange string of a JSON text. -/
def stringOf (rt : Runtime) (t : List Char) : String := String.ofList ('0' :: B64.encode (rt.zlib.compress (utf8 t)))

/-- C82: the exchange string of any JSON text of a value is decoded to the value. -/
theorem C82_decode {rt : Runtime} (hz : Lossless rt.zlib) {v : Val} {t : List Char} (h : JsonText rt.float v t) :
    decode rt (stringOf rt t) = .ok v := by
  unfold stringOf
  rw [decode_b64, hz]
  dsimp only
  rw [unUtf8_utf8]
  exact Json.loads_of_text h

/-- C82: what is decoded is the value of a JSON text. -/
theorem C82_decoded {rt : Runtime} {s : String} {v : Val} (h : decode rt s = .ok v) :
    ∃ r z b t, s.toList = '0' :: r ∧ B64.decode r = .ok (some z) ∧ rt.zlib.decompress z = some b ∧ unUtf8 b = some t ∧
      JsonText rt.float v t := by
  unfold decode at h
  split at h
  · cases h
  · rename_i c r hs
    split at h
    · rename_i hc
      subst hc
      unfold decode0 at h
      rw [List.drop_succ_cons, List.drop_zero] at h
      split at h
      · cases h
      · cases h
      · rename_i z hz
        split at h
        · cases h
        · rename_i b hb
          split at h
          · cases h
          · rename_i t ht
            exact ⟨r, z, b, t, hs, hz, hb, ht, Json.text_of_loads h⟩
    · cases h

/-- C82: importing the string of any JSON text of the data does what importing the data does. -/
theorem C82_import {rt : Runtime} (hz : Lossless rt.zlib) {v : Val} {t : List Char} (h : JsonText rt.float v t) (b : BpId)
    (data : Val) (custom : Option Custom) (strict : Bool) :
    construct rt b (some (stringOf rt t)) data custom strict = construct rt b none v custom strict := by
  unfold construct
  rw [show ctorData rt (some (stringOf rt t)) data = .ok v from C82_decode hz h]
  rfl

/-- C82: the same for the string of any program. -/
theorem C82_other_import {rt : Runtime} {v : Val} {t s : List Char} {z : List UInt8} (ht : JsonText rt.float v t)
    (hz : rt.zlib.decompress z = some (utf8 t)) (ha : ∀ c ∈ s, c.toNat < 128) (hs : Base64Text z (letters s)) (b : BpId)
    (data : Val) (custom : Option Custom) (strict : Bool) :
    construct rt b (some (String.ofList ('0' :: s))) data custom strict = construct rt b none v custom strict := by
  unfold construct
  rw [show ctorData rt (some (String.ofList ('0' :: s))) data = .ok v from C82_other_programs ht hz ha hs]
  rfl

/-- C82: so two strings with texts of the same data are imported alike. -/
theorem C82_layout {rt : Runtime} (hz : Lossless rt.zlib) {v : Val} {t u : List Char} (ht : JsonText rt.float v t)
    (hu : JsonText rt.float v u) (b : BpId) (data : Val) (custom : Option Custom) (strict : Bool) :
    construct rt b (some (stringOf rt t)) data custom strict = construct rt b (some (stringOf rt u)) data custom strict := by
  rw [C82_import hz ht, C82_import hz hu]

/-! ### The hypotheses can be met -/

namespace Sample

/-- A text with blanks, escapes of both cases, a surrogate pair, an escaped slash and a repeated key. -/
def jsonText : List Char :=
  "\t{ \"a\\/\\u00e9\\u00C9\\uD83D\\ude00\" :[ -0,1.5E+1 ,true,[ ] ],\n\"b\":{},\"b\":null} \r".toList

def jsonVal : Val := .dict [("a/éÉ😀", .list [.int 0, .flt 15, .bool true, .list []]), ("b", .none)]

theorem jsonText_ok : JsonText pyFloats jsonVal jsonText := (C82_reads _ _ _).1 (by decide +kernel)

end Sample

example : decode Sample.py (stringOf Sample.py Sample.jsonText) = .ok Sample.jsonVal ∧
    Sample.jsonText ≠ Json.dumps pyFloats Sample.jsonVal :=
  ⟨C82_decode (fun _ => rfl) Sample.jsonText_ok, by decide +kernel⟩

/-- The string `0bnVs` `bA==` with a line break in it. -/
example : decode Sample.py (String.ofList ('0' :: "bnVs\r\nbA==".toList)) = .ok .none :=
  C82_other_programs (t := "null".toList) (z := [110, 117, 108, 108]) ⟨[], _, [], rfl, Json.gap_nil, .null, Json.gap_nil⟩
    (by decide +kernel) (by decide +kernel) ((C82_base64 _ _).2 (by decide +kernel))

example : letters "bn Vs".toList = letters "bnVs\n".toList ∧ FloatLit "1.5E+1".toList ∧ pyFloats.read "1.5E+1".toList = some 15 :=
  ⟨by decide +kernel, ⟨[], ['1'], ['.', '5'], ['E', '+', '1'], by decide +kernel, .inl rfl, .inr ⟨'1', [], by decide⟩,
    .inr ⟨['5'], by unfold Digits; decide⟩, .inr ⟨'E', ['+'], ['1'], by unfold Digits; decide⟩, .inl (by decide)⟩, by decide +kernel⟩

/-- A text that is not JSON: a comma before the closing bracket. -/
example (v : Val) : ¬ JsonText pyFloats v "[1,]".toList := fun h => by
  have : Json.loads pyFloats "[1,]".toList = .error .valueError := by decide +kernel
  rw [(C82_reads _ _ _).2 h] at this
  cases this

end Verif
