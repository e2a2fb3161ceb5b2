import Verif.Proofs.Volume
import Verif.Props.ItemNames
/-!
# Property C79: the volume of a speaker is the float that the given value stands for
-/
set_option autoImplicit false

namespace Verif
open Spec

/-- C79: a value stands for at most one float. -/
theorem C79_unique {v : Val} {c d : Rat} (hc : FloatOf v c) (hd : FloatOf v d) : c = d := floatOf_unique hc hd

/-- C79: every number below the limit has a float. -/
theorem C79_total (q : Rat) (h : ¬ TooLarge q) : ∃ d, Rounded q d := by
  cases hd : toDouble q with
  | none => exact absurd ((toDouble_none q).1 hd) h
  | some d => exact ⟨d, ((toDouble_some q d).1 hd).2⟩

/-- C79: a text with the exact value of a float stands for it. -/
theorem C79_exact {t : String} {q : Rat} (h : Decimal t q) (hq : Binary64 q) : FloatOf (.str t) q :=
  ⟨q, h, binary_small hq, rounded_self hq⟩

/-- C79: of two numbers, the larger does not have the smaller float. -/
theorem C79_order {p q c d : Rat} (hp : ¬ TooLarge p) (hq : ¬ TooLarge q) (hc : Rounded p c) (hd : Rounded q d)
    (h : p ≤ q) : c ≤ d := by
  have e1 := (toDouble_some p c).2 ⟨hp, hc⟩
  have e2 := (toDouble_some q d).2 ⟨hq, hd⟩
  unfold toDouble at e1 e2
  dsimp only at e1 e2
  split at e1
  · split at e2
    · cases e1
      cases e2
      exact nearestDouble_mono h
    · cases e2
  · cases e1

/-- C79: assigning `parameters` succeeds exactly for these values … -/
theorem C79_accepts {w : World} {r : Ref} (v : Val) (hm : Mx.Speaker ∈ (w.heap r).klass.chain) :
    ((Op.setAttr r "parameters" v).run w).1 = .ok () ↔ ∃ o, SpeakerParameters v o := by
  have hhas : (w.heap r).klass.has .Speaker = true := by
    unfold Klass.has
    simpa using Klass.mem_chain.1 hm
  rw [run_setAttr]
  unfold Entity.setAttr
  rw [attrOwner_settings (m := .Speaker) (by decide)]
  dsimp only
  rw [if_pos hhas, mxAssign_parameters]
  simp only [← readParameters_iff]
  cases hx : readParameters v with
  | error e => exact ⟨(fun h => by cases h), (fun ⟨o, ho⟩ => by cases ho)⟩
  | ok o => exact ⟨fun _ => ⟨o, rfl⟩, fun _ => rfl⟩

/-- C79: … and this is what is kept. -/
theorem C79_kept {w w' : World} {r : Ref} {v o : Val} (ho : SpeakerParameters v o)
    (h : (Op.setAttr r "parameters" v).run w = (.ok (), w')) : List.lookup "parameters" (w'.heap r).attrs = some o := by
  rw [run_setAttr] at h
  injection h with h1 h2
  rw [← h2, setEnt_heap, if_pos rfl]
  unfold Entity.setAttr at h1 ⊢
  rw [attrOwner_settings (m := .Speaker) (by decide)] at h1 ⊢
  dsimp only at h1 ⊢
  split
  · rw [mxAssign_parameters, (readParameters_iff v o).2 ho]
    show List.lookup "parameters" (Dict.set _ "parameters" _) = _
    rw [lookup_set, if_pos rfl]
  · rename_i hn; rw [if_neg hn] at h1; cases h1

/-- C79: the same for the constructor. -/
theorem C79_make {b : BpId} {kw : Dict} {w w' : World} {r : Ref} {v : Val} (h : layerMake b kw w = (.ok r, w'))
    (hv : List.lookup "parameters" kw = some v) :
    ∃ o, SpeakerParameters v o ∧ List.lookup "parameters" (w'.heap r).attrs = some o := by
  rcases C32_entity h (k := "parameters") (by rw [hv]; simp) with he | ⟨m, hm, hk⟩
  · exact absurd he (by decide)
  · have hown := attrOwner_settings hk
    obtain rfl : m = .Speaker := by
      rw [show attrOwner "parameters" = some .Speaker from rfl] at hown
      exact (Option.some.inj hown).symm
    have hset : Dict.set kw "parameters" v = kw := set_same hv
    rcases like_make v h hm hk (given_not_behind h hk hv) with ⟨w₁, h1, h2⟩ | ⟨x, w₁, h1, h2⟩
    · rw [hset, h] at h2
      cases h2
      obtain ⟨o, ho⟩ := (C79_accepts v hm).1 (by rw [h1])
      exact ⟨o, ho, C79_kept ho h1⟩
    · rw [hset, h] at h2
      cases h2

/-- C79: data with a speaker of another volume are never loaded. -/
theorem C79_import {env : Env} {w : World} (hw : Reachable env w) {b : BpId} {data : Val} {d kw : Dict} {l : List Val}
    (hdata : Content data d) (hl : ListAt d "entities" l) (hkw : Val.dict kw ∈ l) {v : Val}
    (hv : List.lookup "parameters" kw = some v) (hn : ∀ o, ¬ SpeakerParameters v o) (w' : World) :
    load b data w ≠ (.ok (), w') := by
  intro h
  obtain ⟨kw', r, w'', he, hm⟩ := C65_import_makes hw hdata hl h hkw
  cases he
  obtain ⟨o, ho, -⟩ := C79_make hm hv
  exact hn o ho

/-- C79: an ASCII text that stands for no number and names no infinity raises `ValueError`, an `int` that is too large
raises `OverflowError`, a container or `None` raises `TypeError`. -/
theorem C79_refused {w : World} {r : Ref} (hm : Mx.Speaker ∈ (w.heap r).klass.chain) {kw : Dict} {x : Val}
    (hx : List.lookup "playback_volume" kw = some x) :
    (∀ t, x = .str t → (∀ c ∈ t.toList, c.toNat < 128) → (∀ q, ¬ Decimal t q) → ¬ NamedFloat t →
      ((Op.setAttr r "parameters" (.dict kw)).run w).1 = .error .valueError) ∧
    (∀ z : Int, x = .int z → TooLarge z → ((Op.setAttr r "parameters" (.dict kw)).run w).1 = .error .overflowError) ∧
    (x = .none ∨ (∃ l, x = .list l) ∨ (∃ d, x = .dict d) →
      ((Op.setAttr r "parameters" (.dict kw)).run w).1 = .error .typeError) := by
  have hhas : (w.heap r).klass.has .Speaker = true := by
    unfold Klass.has
    simpa using Klass.mem_chain.1 hm
  have key : ∀ e, pyFloat x = .error e → ((Op.setAttr r "parameters" (.dict kw)).run w).1 = .error e := by
    intro e he
    rw [run_setAttr]
    unfold Entity.setAttr
    rw [attrOwner_settings (m := .Speaker) (by decide)]
    dsimp only
    rw [if_pos hhas]
    have hr : readParameters (.dict kw) = .error e := by
      unfold readParameters
      dsimp only [Val.subscript]
      rw [lookup_getItem.2 hx]
      simp only [ok_bind, he]
      rfl
    rw [mxAssign_parameters, hr]
    rfl
  refine ⟨fun t ht ha hd hn => key _ ?_, fun z hz hl => key _ ?_, fun h => key _ ?_⟩
  · subst ht
    show pyFloatStr t = _
    have hall : t.toList.all (fun c => c.toNat < 128) = true := by
      rw [List.all_eq_true]
      intro c hc
      simpa using ha c hc
    unfold pyFloatStr
    rw [if_pos hall]
    split
    · rename_i q hq
      exact absurd ((decimal_iff t q).2 ⟨hall, hq⟩) (hd q)
    · rw [if_neg (fun h => hn (named_of_infNan h))]
  · subst hz
    exact pyFloat_large hl
  · rcases h with rfl | ⟨l, rfl⟩ | ⟨d, rfl⟩ <;> rfl

/-- C79: the volume is not always the number that the text shows. -/
theorem C79_shown_false : ¬ ∀ (t : String) (q d : Rat), Decimal t q → FloatOf (.str t) d → d = q := by
  intro h
  have hd : Decimal "0.1" (1 / 10) := (decimal_iff _ _).2 ⟨by decide +kernel, by decide +kernel⟩
  have hf : FloatOf (.str "0.1") (nearestDouble (1 / 10)) := (pyFloat_iff _ _).1 (by decide +kernel)
  exact absurd (h _ _ _ hd hf) (by decide +kernel)

/-! ### The hypotheses can be met -/

/-- ` -1_0.5E+0_1` and a blank. -/
example : Decimal " -1_0.5E+0_1 " (-105) :=
  ⟨[' '], ['-'], ['1', '_', '0', '.', '5'], ['E', '+', '0', '_', '1'], [' '], -1, 1, 21 / 2, by decide,
    by unfold BlankChar; decide, by unfold BlankChar; decide, .inr (.inr ⟨rfl, rfl⟩),
    .inr ⟨['1', '_', '0'], ['5'], 10, 5, 1, 2, rfl, .inl (by decide), .inr ⟨.under (l := ['1']) (n := 1) 0 (.one 1), rfl⟩,
      .inr ⟨.one 5, rfl⟩, by norm_num⟩,
    .inr ⟨'E', ['+'], ['0', '_', '1'], 1, 1, .inr rfl, rfl, .inr (.inl ⟨rfl, rfl⟩),
      .under (l := ['0']) (n := 0) 1 (.one 0), by norm_num⟩, by norm_num⟩

/-- Numbers without digits before or after the point. -/
example : Decimal "5." 5 ∧ Decimal ".5" (1 / 2) ∧ Decimal "1e-1" (1 / 10) := by
  refine ⟨?_, ?_, ?_⟩ <;> exact (decimal_iff _ _).2 ⟨by decide +kernel, by decide +kernel⟩

/-- No number. -/
example : ∀ t ∈ [".", "", "1e", "e1", "1_.5", "1._5", "0x10", "1 2", "- 1", "1e1.5"], ∀ q, ¬ Decimal t q := by
  intro t ht q h
  have := ((decimal_iff _ _).1 h).2
  have hn : ∀ t ∈ [".", "", "1e", "e1", "1_.5", "1._5", "0x10", "1 2", "- 1", "1e1.5"],
      readDecimal (stripBlanks t.toList) = none := by decide +kernel
  rw [hn t ht] at this
  cases this

example : NamedFloat " -Infinity" :=
  ⟨[' '], ['-'], "Infinity".toList, [], -1, by decide, by unfold BlankChar; decide, by simp, .inr (.inr ⟨rfl, rfl⟩), by decide⟩

/-- Half of the least float is rounded to zero, a little more is not. -/
example : toDouble (pow2 (-1075)) = some 0 ∧ toDouble (pow2 (-1075) + pow2 (-1100)) = some (pow2 (-1074)) := by
  decide +kernel

/-- The first whole number that is no float. -/
example : FloatOf (.int (2 ^ 53 + 1)) (2 ^ 53) := (pyFloat_iff _ _).1 (by decide +kernel)

example : TooLarge ((2 ^ 1024 : Int) : Rat) := (toDouble_none _).1 (by decide +kernel)

/-- A speaker. -/
def Sample.speaker : World := Sample.onlyMade "programmable-speaker" []

/-- Its parameters. -/
def Sample.loud (v : Val) : Val :=
  .dict [("playback_volume", v), ("playback_globally", .int 1), ("allow_polyphony", .str "")]

example : SpeakerParameters (Sample.loud (.str "0.5"))
    (.dict [("playback_volume", .flt (1 / 2)), ("playback_globally", .bool true), ("allow_polyphony", .bool false)]) :=
  (readParameters_iff _ _).1 (by decide +kernel)

/-- The same assigned and given to the constructor. -/
example : ((Op.setAttr 0 "parameters" (Sample.loud (.str "0.5"))).run Sample.speaker).1 = .ok () :=
  (C79_accepts _ (by decide +kernel)).2 ⟨_, (readParameters_iff _ (.dict [("playback_volume", .flt (1 / 2)),
    ("playback_globally", .bool true), ("allow_polyphony", .bool false)])).1 (by decide +kernel)⟩

example : List.lookup "parameters" (((Op.setAttr 0 "parameters" (Sample.loud (.str "0.1"))).run Sample.speaker).2.heap 0).attrs =
    some (.dict [("playback_volume", .flt (nearestDouble (1 / 10))), ("playback_globally", .bool true),
      ("allow_polyphony", .bool false)]) :=
  C79_kept ((readParameters_iff _ _).1 (by decide +kernel)) (Sample.run_eq (by decide +kernel))

example : ∃ o, SpeakerParameters (Sample.loud (.bool true)) o ∧
    List.lookup "parameters" ((Sample.onlyMade "programmable-speaker" [("parameters", Sample.loud (.bool true))]).heap 0).attrs = some o :=
  C79_make (b := 0) (w := Sample.only "programmable-speaker") (kw := Sample.onlyKw [("parameters", Sample.loud (.bool true))])
    (Sample.run_eq (by decide +kernel)) rfl

/-- A volume in words. -/
example : ∀ w', load 0 (.dict [("entities", .list [.dict (Sample.onlyKw [("parameters", Sample.loud (.str "loud"))])])])
    (Sample.only "programmable-speaker") ≠ (.ok (), w') :=
  C79_import .init (.bare _ rfl) (.inl rfl) (List.mem_singleton.2 rfl) rfl
    (fun o h => by
      have := (readParameters_iff _ _).2 h
      rw [show readParameters (Sample.loud (.str "loud")) = .error .valueError by decide +kernel] at this
      cases this)

example : ((Op.setAttr 0 "parameters" (Sample.loud (.str "loud"))).run Sample.speaker).1 = .error .valueError ∧
    ((Op.setAttr 0 "parameters" (Sample.loud (.int (2 ^ 1024)))).run Sample.speaker).1 = .error .overflowError ∧
    ((Op.setAttr 0 "parameters" (Sample.loud .none)).run Sample.speaker).1 = .error .typeError := by decide +kernel

example : Rounded 3 3 ∧ Rounded (1 / 10) (nearestDouble (1 / 10)) :=
  ⟨((toDouble_some 3 3).1 (by decide +kernel)).2, ((toDouble_some _ _).1 (by decide +kernel)).2⟩

end Verif
