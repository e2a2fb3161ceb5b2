import Verif.Proofs.Codec
import Verif.Proofs.JsonFuel
import Verif.Proofs.Repeat
import Verif.Props.Wires
import Verif.Spec.Codec
/-!
# Properties C09, C10, C43: exchange strings and blueprint equality
-/
set_option autoImplicit false

namespace Verif
open Spec

namespace Sample

/-- A runtime that does not compress and knows the text of two floats. -/
def rt : Runtime where
  float := {
    repr := fun q => if q = 1 / 4 then "0.25".toList else "1e-05".toList
    read := fun t => if t = "0.25".toList then some (1 / 4) else if t = "1e-05".toList then some (1 / 100000) else none }
  zlib := ⟨id, some⟩

theorem rt_lossless : Lossless rt.zlib := fun _ => rfl

theorem rt_quarter : ExactFloat rt.float (1 / 4) :=
  ⟨⟨[], ['0'], ['.', '2', '5'], [], by decide +kernel, .inl rfl, .inl rfl, .inr ⟨['2', '5'], rfl, by decide, by decide⟩,
    .inl rfl, .inl (by decide)⟩, by decide +kernel⟩

theorem rt_small : ExactFloat rt.float (1 / 100000) :=
  ⟨⟨[], ['1'], [], ['e', '-', '0', '5'], by decide +kernel, .inl rfl,
    .inr ⟨'1', [], rfl, by decide, by decide, by decide⟩, .inl rfl,
    .inr ⟨'e', ['-'], ['0', '5'], rfl, .inl rfl, .inr (.inr rfl), by decide, by decide⟩, .inr (by decide)⟩,
    by decide +kernel⟩

/-- A value with every kind of content. -/
def value : Val :=
  .dict [("a\n\"é𝄞", .list [.none, .bool true, .int (-12), .flt (1 / 4), .flt (1 / 100000), .str ""]),
    ("", .dict []), ("b", .list [])]

theorem value_plain : Plain rt.float value :=
  ⟨by decide, ⟨trivial, trivial, trivial, rt_quarter, rt_small, trivial, trivial⟩, ⟨by decide, trivial⟩, trivial, trivial⟩

end Sample

/-! ## C09 Exchange strings round-trip -/

/-- Decoding an encoded JSON value gives it back. -/
theorem C09_roundtrip {rt : Runtime} (hz : Lossless rt.zlib) {v : Val} (h : Plain rt.float v) :
    decode rt (encode rt v) = .ok v :=
  decode_encode hz h

example : Lossless Sample.rt.zlib ∧ Plain Sample.rt.float Sample.value := ⟨Sample.rt_lossless, Sample.value_plain⟩

/-- Every encoded string starts with the version byte. -/
theorem C09_version (rt : Runtime) (v : Val) : (encode rt v).toList.head? = some '0' := by
  rw [encode_toList]
  rfl

/-- Different values have different exchange strings. -/
theorem C09_injective {rt : Runtime} (hz : Lossless rt.zlib) {v u : Val} (hv : Plain rt.float v)
    (hu : Plain rt.float u) : encode rt v = encode rt u ↔ v = u := by
  constructor
  · intro h
    have := decode_encode hz hv
    rw [h, decode_encode hz hu] at this
    cases this
    rfl
  · rintro rfl
    rfl

/-- With other keys than strings, decoding gives the value with the texts of the keys instead, if these
are different. -/
theorem C09_keys {rt : Runtime} (hz : Lossless rt.zlib) {v : PyVal} (h : Plain rt.float (v.json rt.float)) :
    decode rt (encodePy rt v) = .ok (v.json rt.float) :=
  decode_encode hz h

/-- The text of an integer key is its decimal representation. -/
theorem C09_int_key (f : FloatText) (z : Int) : (PyKey.int z).text f = z.repr := by
  show String.ofList (Json.intText z) = _
  unfold Json.intText
  cases z with
  | ofNat n => rw [if_neg (show ¬ Int.ofNat n < 0 from Int.not_lt.2 (Int.natCast_nonneg n))]; rfl
  | negSucc n =>
    rw [if_pos (Int.negSucc_lt_zero n)]
    show String.ofList (['-'] ++ Nat.toDigits 10 (n + 1)) = _
    rw [String.ofList_append]
    rfl

/-- The texts of the other keys: strings stay, numbers are written as JSON writes them, and booleans and `None` are
written as the JSON words. -/
theorem C09_key_text (f : FloatText) : (∀ s, (PyKey.str s).text f = s) ∧
    (∀ q, ((PyKey.flt q).text f).toList = Json.dumps f (.flt q)) ∧
    (∀ b, ((PyKey.bool b).text f).toList = Json.dumps f (.bool b)) ∧
    (PyKey.none.text f).toList = Json.dumps f .none ∧ PyKey.none.text f = "null" ∧
    (PyKey.bool true).text f = "true" ∧ (PyKey.bool false).text f = "false" := by
  refine ⟨fun _ => rfl, fun q => ?_, fun b => ?_, ?_, rfl, rfl, rfl⟩
  · show (String.ofList (f.repr q)).toList = _
    rw [String.toList_ofList]
    rfl
  · cases b
    · show "false".toList = (if false then "true" else "false").toList
      rfl
    · show "true".toList = (if true then "true" else "false").toList
      rfl
  · show "null".toList = _
    rfl

example : Plain Sample.rt.float ((PyVal.dict [(.int 1, .none), (.int (-2), .list [])]).json Sample.rt.float) :=
  ⟨by decide +kernel, trivial, trivial, trivial⟩

example : (PyVal.dict [(.int 1, .none), (.int (-2), .list [])]).json Sample.rt.float =
    .dict [("1", .none), ("-2", .list [])] := by decide +kernel

/-! ## C10 Malformed exchange strings -/

/-- A wrong version byte. -/
theorem C10_version (rt : Runtime) (s : String) (c : Char) (h : s.toList.head? = some c) (hc : c ≠ '0') :
    decode rt s = .error .invalidExchangeString := by
  unfold decode
  cases hs : s.toList with
  | nil => rw [hs] at h; cases h
  | cons d r =>
    rw [hs] at h
    cases h
    exact if_neg hc

example : "1abc".toList.head? = some '1' ∧ '1' ≠ '0' := by decide +kernel

/-- ASCII text after the version byte that is not base64. -/
theorem C10_base64 (rt : Runtime) (s : String) (r : List Char) (h : s.toList = '0' :: r)
    (hr : B64.decode r = .ok none) : decode rt s = .error .invalidExchangeString := by
  unfold decode
  rw [h]
  dsimp only
  rw [if_pos rfl]
  unfold decode0
  rw [List.drop_succ_cons, List.drop_zero, hr]

/-- Text without padding is not base64 if the number of characters of the alphabet is not a multiple of
four. -/
theorem C10_base64_length (r : List Char) (ha : ∀ c ∈ r, c.toNat < 128) (hp : '=' ∉ r)
    (hn : (r.filter (fun c => (B64.value c).isSome)).length % 4 ≠ 0) : B64.decode r = .ok none := by
  unfold B64.decode
  rw [if_pos (by simpa using ha)]
  rw [B64.decodeLoop_length r 0 0 0 (by omega) hp (by simpa using hn)]

example : B64.decode "abcde".toList = .ok none := by decide +kernel

/-- Bytes that zlib rejects. -/
theorem C10_zlib (rt : Runtime) (s : String) (r : List Char) (b : List UInt8) (h : s.toList = '0' :: r)
    (hr : B64.decode r = .ok (some b)) (hb : rt.zlib.decompress b = none) :
    decode rt s = .error .invalidExchangeString := by
  unfold decode
  rw [h]
  dsimp only
  rw [if_pos rfl]
  unfold decode0
  rw [List.drop_succ_cons, List.drop_zero, hr]
  dsimp only
  rw [hb]

example : ∃ (rt : Runtime) (b : List UInt8), Lossless rt.zlib ∧
    B64.decode "Kg==".toList = .ok (some b) ∧ rt.zlib.decompress b = none :=
  ⟨⟨Sample.rt.float, ⟨fun b => 120 :: b, fun b => match b with | 120 :: b => some b | _ => none⟩⟩, [42],
    fun _ => rfl, by decide +kernel, rfl⟩

/-- The full claim is false: the empty string raises `IndexError`, and if zlib is lossless, whatever else it
does, there is a string holding bytes that are not UTF-8 and one holding text that is not JSON which raise
`ValueError`. -/
theorem C10_false (rt : Runtime) :
    decode rt "" = .error .indexError ∧
    (∀ s : String, ∀ r, s.toList = '0' :: r → (∃ c ∈ r, 128 ≤ c.toNat) → decode rt s = .error .valueError) ∧
    (Lossless rt.zlib →
      decode rt (String.ofList ('0' :: B64.encode (rt.zlib.compress [255]))) = .error .valueError ∧
      decode rt (String.ofList ('0' :: B64.encode (rt.zlib.compress (utf8 ['{'])))) = .error .valueError) := by
  refine ⟨rfl, ?_, fun hz => ⟨?_, ?_⟩⟩
  · rintro s r h ⟨c, hc, hn⟩
    unfold decode
    rw [h]
    dsimp only
    rw [if_pos rfl]
    unfold decode0
    rw [List.drop_succ_cons, List.drop_zero]
    unfold B64.decode
    rw [if_neg]
    simp only [List.all_eq_true, decide_eq_true_eq]
    exact fun h => absurd (h c hc) (Nat.not_lt.2 hn)
  · rw [decode_b64, hz]
    rfl
  · rw [decode_b64, hz]
    dsimp only
    rw [unUtf8_utf8]
    rfl

/-- What `decode` raises, exactly: `IndexError` for the empty string, `InvalidExchangeString` for a wrong
version byte, for ASCII text that is not base64 and for bytes that zlib rejects; otherwise `ValueError` for
characters that are not ASCII and for bytes that are not UTF-8, and else what `json.loads` says.  Missing
from the claim: `InvalidExchangeString` in the other cases (`C10_false`). -/
theorem C10_cases_partial (rt : Runtime) (s : String) (e : Exc) : decode rt s = .error e ↔
    (s = "" ∧ e = .indexError) ∨
    (∃ c, s.toList.head? = some c ∧ c ≠ '0' ∧ e = .invalidExchangeString) ∨
    ∃ r, s.toList = '0' :: r ∧
      (((∃ c ∈ r, 128 ≤ c.toNat) ∧ e = .valueError) ∨
       (B64.decode r = .ok none ∧ e = .invalidExchangeString) ∨
       ∃ b, B64.decode r = .ok (some b) ∧
        ((rt.zlib.decompress b = none ∧ e = .invalidExchangeString) ∨
         ∃ u, rt.zlib.decompress b = some u ∧
          ((unUtf8 u = none ∧ e = .valueError) ∨
           ∃ t, unUtf8 u = some t ∧ Json.loads rt.float t = .error e))) := by
  unfold decode
  cases hs : s.toList with
  | nil =>
    have : s = "" := String.toList_inj.1 (by rw [hs]; rfl)
    subst this
    simp [eq_comm]
  | cons c r =>
    have hne : s ≠ "" := by rintro rfl; cases hs
    dsimp only
    by_cases hc : c = '0'
    · subst hc
      rw [if_pos rfl]
      unfold decode0
      rw [List.drop_succ_cons, List.drop_zero]
      by_cases hr : ∃ c ∈ r, 128 ≤ c.toNat
      · have hd : B64.decode r = .error .valueError := by
          unfold B64.decode
          rw [if_neg]
          simp only [List.all_eq_true, decide_eq_true_eq]
          intro h
          obtain ⟨c, hc, hn⟩ := hr
          exact absurd (h c hc) (Nat.not_lt.2 hn)
        simp [hd, hne, hr, eq_comm]
      · cases hd : B64.decode r with
        | error e' =>
          exfalso
          unfold B64.decode at hd
          rw [if_pos] at hd
          · cases hd
          · simp only [List.all_eq_true, decide_eq_true_eq]
            intro c hc
            exact Decidable.byContradiction fun h => hr ⟨c, hc, Nat.not_lt.1 h⟩
        | ok o =>
          cases o with
          | none => simp [hne, hr, hd, eq_comm]
          | some b =>
            cases hz : rt.zlib.decompress b with
            | none => simp [hne, hr, hd, hz, eq_comm]
            | some u =>
              cases hu : unUtf8 u with
              | none => simp [hne, hr, hd, hz, hu, eq_comm]
              | some t => simp [hne, hr, hd, hz, hu]
    · rw [if_neg hc]
      simp [hne, hc, eq_comm]

/-- Whatever the string, `decode` returns or raises `InvalidExchangeString`, `IndexError` or `ValueError`
(`unmodelled`: texts with lone surrogates, `NaN`, infinities, or floats without a text). -/
theorem C10_kinds_partial (rt : Runtime) (s : String) {e : Exc} (h : decode rt s = .error e) :
    e = .invalidExchangeString ∨ e = .indexError ∨ e = .valueError ∨ e = .unmodelled := by
  rcases (C10_cases_partial rt s e).1 h with ⟨-, rfl⟩ | ⟨-, -, -, rfl⟩ | ⟨r, -, ⟨-, rfl⟩ | ⟨-, rfl⟩ | ⟨b, -, ⟨-, rfl⟩ | ⟨u, -, ⟨-, rfl⟩ | ⟨t, -, ht⟩⟩⟩⟩
  · exact .inr (.inl rfl)
  · exact .inl rfl
  · exact .inr (.inr (.inl rfl))
  · exact .inl rfl
  · exact .inl rfl
  · exact .inr (.inr (.inl rfl))
  · rcases Json.loads_error ht with rfl | rfl
    · exact .inr (.inr (.inl rfl))
    · exact .inr (.inr (.inr rfl))

/-- Every kind of error occurs. -/
example : decode Sample.rt "" = .error .indexError ∧ decode Sample.rt "1" = .error .invalidExchangeString ∧
    decode Sample.rt "0" = .error .valueError := by decide +kernel

/-- Strings that are no encodings may be accepted: a newline after the version byte is ignored. -/
theorem C10_lenient {rt : Runtime} (hz : Lossless rt.zlib) {v : Val} (h : Plain rt.float v) :
    ∃ s, decode rt s = .ok v ∧ ∀ u, encode rt u ≠ s := by
  refine ⟨String.ofList ('0' :: '\n' :: B64.encode (rt.zlib.compress (utf8 (Json.dumps rt.float v)))), ?_, ?_⟩
  · have := decode_encode hz h
    unfold encode decode decode0 at this
    unfold decode decode0
    rw [String.toList_ofList] at this ⊢
    dsimp only at this ⊢
    rw [if_pos rfl] at this ⊢
    rw [List.drop_succ_cons, List.drop_zero] at this ⊢
    rw [← this]
    have : ∀ l, B64.decode ('\n' :: l) = B64.decode l := fun l => rfl
    rw [this]
  · intro u h
    have := congrArg String.toList h
    rw [encode_toList, String.toList_ofList] at this
    exact b64_no_newline _ _ (List.cons.inj this).2

/-! ## C43 Blueprint equality -/

/-- The result of `==`: exporting the first blueprint does not change what the second exports to. -/
theorem C43_eq_partial {env : Env} {w : World} (h : Reachable env w) (rt : Runtime) (b c : BpId)
    (hc : LoopsPlain w c) : (bpEq rt b c w).1 = (do
      let s ← (toStringBp rt b w).1
      let t ← (toStringBp rt c w).1
      return s == t) := by
  have hrep := C28_repeat_partial h c hc [b]
  rw [List.foldl_cons, List.foldl_nil] at hrep
  rw [bpEq_fst, hrep, (toStringBp_fst rt b w).1, (toStringBp_fst rt c w).1]
  cases (toJson b w).1 with
  | error e => rfl
  | ok u => cases (toJson c w).1 <;> rfl

/-- Equality holds exactly if both exports succeed with the same string. -/
theorem C43_iff_partial {env : Env} {w : World} (h : Reachable env w) (rt : Runtime) (b c : BpId)
    (hc : LoopsPlain w c) : (bpEq rt b c w).1 = .ok true ↔
      ∃ s, (toStringBp rt b w).1 = .ok s ∧ (toStringBp rt c w).1 = .ok s := by
  rw [C43_eq_partial h rt b c hc]
  cases (toStringBp rt b w).1 with
  | error e => exact ⟨fun h => (by cases h), fun ⟨s, h, _⟩ => (by cases h)⟩
  | ok s =>
    cases (toStringBp rt c w).1 with
    | error e => exact ⟨fun h => (by cases h), fun ⟨s, _, h⟩ => (by cases h)⟩
    | ok t =>
      show Except.ok (s == t) = Except.ok true ↔ _
      constructor
      · intro h
        have : (s == t) = true := by injection h
        rw [beq_iff_eq] at this
        subst this
        exact ⟨s, rfl, rfl⟩
      · rintro ⟨u, h, h'⟩
        cases h
        cases h'
        rw [beq_self_eq_true]

/-- The same in terms of the exported data. -/
theorem C43_data_partial {env : Env} {w : World} (h : Reachable env w) {rt : Runtime} (hz : Lossless rt.zlib)
    (b c : BpId) (hc : LoopsPlain w c) {u v : Val} (hu : (toJson b w).1 = .ok u) (hv : (toJson c w).1 = .ok v)
    (pu : Plain rt.float u) (pv : Plain rt.float v) : (bpEq rt b c w).1 = .ok (decide (u = v)) := by
  rw [C43_eq_partial h rt b c hc, (toStringBp_fst rt b w).1, (toStringBp_fst rt c w).1, hu, hv]
  show Except.ok (encode rt u == encode rt v) = _
  congr 1
  rw [Bool.eq_iff_iff, beq_iff_eq, decide_eq_true_iff]
  exact C09_injective hz pu pv

/-- Reflexive on blueprints that can be exported. -/
theorem C43_refl_partial {env : Env} {w : World} (h : Reachable env w) (rt : Runtime) (b : BpId)
    (hb : LoopsPlain w b) {v : Val} (hv : (toJson b w).1 = .ok v) : (bpEq rt b b w).1 = .ok true := by
  refine (C43_iff_partial h rt b b hb).2 ⟨encode rt v, ?_, ?_⟩ <;> rw [(toStringBp_fst rt b w).1, hv] <;> rfl

theorem C43_symm_partial {env : Env} {w : World} (h : Reachable env w) (rt : Runtime) (b c : BpId)
    (hb : LoopsPlain w b) (hc : LoopsPlain w c) (he : (bpEq rt b c w).1 = .ok true) :
    (bpEq rt c b w).1 = .ok true := by
  rw [C43_iff_partial h rt _ _ (by assumption)] at he ⊢
  obtain ⟨s, h1, h2⟩ := he
  exact ⟨s, h2, h1⟩

theorem C43_trans_partial {env : Env} {w : World} (h : Reachable env w) (rt : Runtime) (b c d : BpId)
    (hc : LoopsPlain w c) (hd : LoopsPlain w d) (he : (bpEq rt b c w).1 = .ok true)
    (he' : (bpEq rt c d w).1 = .ok true) : (bpEq rt b d w).1 = .ok true := by
  rw [C43_iff_partial h rt _ _ (by assumption)] at he he' ⊢
  obtain ⟨s, h1, h2⟩ := he
  obtain ⟨t, h3, h4⟩ := he'
  rw [h2] at h3
  cases h3
  exact ⟨s, h1, h4⟩

/-- A blueprint is not equal to an object of another class, and comparing them exports nothing. -/
theorem C43_other (rt : Runtime) (b : BpId) (w : World) : bpEqAny rt b .other w = (.ok false, w) := rfl

/-- `!=` is the opposite of `==`: it raises when `==` does. -/
theorem C43_ne (rt : Runtime) (b : BpId) (x : Compared) (w : World) :
    (bpNeAny rt b x w).2 = (bpEqAny rt b x w).2 ∧
    (∀ v, (bpNeAny rt b x w).1 = .ok v ↔ (bpEqAny rt b x w).1 = .ok (!v)) ∧
    ∀ e, (bpNeAny rt b x w).1 = .error e ↔ (bpEqAny rt b x w).1 = .error e := by
  unfold bpNeAny
  rw [M.bind_eq]
  rcases bpEqAny rt b x w with ⟨e | v, w'⟩
  · refine ⟨rfl, fun v => ⟨fun h => (by cases h), fun h => (by cases h)⟩, fun e' => Iff.rfl⟩
  · refine ⟨rfl, fun u => ?_, fun e' => ⟨fun h => (by cases h), fun h => (by cases h)⟩⟩
    show Except.ok (!v) = .ok u ↔ Except.ok v = .ok (!u)
    cases u <;> cases v <;> decide

/-- A comparison changes nothing but the order of the ends of wires. -/
theorem C43_unchanged (rt : Runtime) (b c : BpId) (w : World) : SameUpToFlips w (bpEq rt b c w).2 := by
  have key : ∀ b, Keeps (SameUpToFlips w) (toStringBp rt b) := fun b =>
    ⟨fun w1 h1 => by rw [(toStringBp_fst rt b w1).2]; exact (Keeps.flips_toJson w b).keeps w1 h1⟩
  unfold bpEq
  rw [M.bind_eq]
  have h1 := (key b).keeps w (SameUpToFlips.refl w)
  revert h1
  cases toStringBp rt b w with
  | mk x w1 =>
    intro h1
    cases x with
    | error e => exact h1
    | ok s =>
      dsimp only
      rw [M.bind_eq]
      have h2 := (key c).keeps w1 h1
      revert h2
      cases toStringBp rt c w1 with
      | mk y w2 => intro h2; cases y <;> exact h2

/-- Blueprint 0 is the sample, blueprint 1 is empty: both can be exported, and they are different. -/
example : Reachable Sample.env Sample.loaded ∧ LoopsPlain Sample.loaded 0 ∧ LoopsPlain Sample.loaded 1 ∧
    (bpEq Sample.rt 0 0 Sample.loaded).1 = .ok true ∧ (bpEq Sample.rt 0 1 Sample.loaded).1 = .ok false := by
  have l0 : LoopsPlain Sample.loaded 0 := by unfold LoopsPlain; decide +kernel
  have l1 : LoopsPlain Sample.loaded 1 := by unfold LoopsPlain; decide +kernel
  refine ⟨Sample.loaded_reachable, l0, l1, C43_refl_partial Sample.loaded_reachable _ 0 l0 Sample.loaded_out, ?_⟩
  have h1 : (toJson 1 Sample.loaded).1 = .ok (.dict [("blueprint", .dict [("item", .str "blueprint"), ("label", .str ""),
    ("icons", .list []), ("version", .int 0)])]) := by decide +kernel
  have p : Plain Sample.rt.float (.dict Sample.locoOut) :=
    ⟨by decide, trivial, trivial, plain_of_exact _ _ (by decide +kernel), Sample.rt_quarter, trivial⟩
  rw [C43_data_partial Sample.loaded_reachable Sample.rt_lossless 0 1 l1 Sample.loaded_out h1
    ⟨by decide, ⟨by decide, trivial, trivial, ⟨plain_of_exact _ _ (by decide +kernel),
      plain_of_exact _ _ (by decide +kernel), p, trivial⟩, plain_of_exact _ _ (by decide +kernel), trivial,
      plain_of_exact _ _ (by decide +kernel), trivial⟩, trivial⟩
    (plain_of_exact _ _ (by decide +kernel))]
  decide +kernel

/-- The full claim is false: a blueprint with a wire from one connector of a combinator to its other one is
not equal to itself, and one with a wire whose other end is missing raises when compared with itself. -/
theorem C43_false {rt : Runtime} (hz : Lossless rt.zlib) :
    (∃ w, Reachable Sample.env w ∧ (bpEq rt 0 0 w).1 = .ok false) ∧
    (∃ w, Reachable Sample.env w ∧ (bpEq rt 0 0 w).1 = .error .attributeError) := by
  constructor
  · refine ⟨_, .step (.connect 0 (some 0) (.int 1) (.int 2) "red")
      (.step (.make 0 (Sample.ent "dec" 0 0)) .init trivial) ⟨by decide +kernel, by decide +kernel⟩, ?_⟩
    rw [bpEq_fst]
    have key : ∀ (x y : Except Exc Val) (_ : x.toOption.any exact = true) (_ : y.toOption.any exact = true)
        (_ : x ≠ y), (do let u ← x; let v ← y; return encode rt u == encode rt v) = Except.ok false := by
      intro x y hx hy hne
      cases x with
      | error e => cases hx
      | ok u =>
        cases y with
        | error e => cases hy
        | ok v =>
          show Except.ok (encode rt u == encode rt v) = _
          congr 1
          rw [beq_eq_false_iff_ne, ne_eq, C09_injective hz (plain_of_exact _ u hx) (plain_of_exact _ v hy)]
          rintro rfl
          exact hne rfl
    exact key _ _ (by decide +kernel) (by decide +kernel) (by decide +kernel)
  · refine ⟨_, .step (.connect 0 none (.int 1) (.int 2) "red")
      (.step (.make 0 (Sample.ent "dec" 0 0)) .init trivial) ⟨by decide +kernel, fun _ h => by cases h⟩, ?_⟩
    rw [bpEq_fst]
    have key : ∀ (x y : Except Exc Val) (_ : x = .error .attributeError),
        (do let u ← x; let v ← y; return encode rt u == encode rt v) = Except.error .attributeError := by
      rintro x y rfl
      rfl
    exact key _ _ (by decide +kernel)

end Verif
