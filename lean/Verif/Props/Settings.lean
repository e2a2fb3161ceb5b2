import Verif.Proofs.Settings
import Verif.Props.Sample
/-!
# Property C32: unsupported settings are rejected

True for the settings of the entity itself and for all control behaviours except the inserter's, whose
constructor (`entity_mixins.py:556-566`) does not call `super().__init__` and so drops what it does not know.
-/
set_option autoImplicit false

namespace Verif
open Spec

/-- C32: every setting of an entity that was accepted is understood by the entity or by one of its
behaviours. -/
theorem C32_entity {b : BpId} {kw : Dict} {w w' : World} {r : Ref} {k : String}
    (h : layerMake b kw w = (.ok r, w')) (hk : List.lookup k kw ≠ none) :
    k ∈ entityKeys ∨ ∃ m ∈ (w'.heap r).klass.chain, k ∈ settings m := by
  obtain ⟨e, n, he, hh⟩ := layerMake_new h
  rw [hh]
  by_cases hf : k ∈ entityKeys
  · exact .inl hf
  · refine .inr ?_
    obtain ⟨v, hv⟩ := Option.ne_none_iff_exists'.1 hk
    have hne : k ∉ Entity.ownKeys ++ ["connections", "control_behavior"] := by
      intro h
      exact hf h
    obtain ⟨m, hm, hkm⟩ := initChain_keys (Entity.new_chain he)
      (by rw [get_eraseKeys hne]; exact hv : Dict.get? _ k = some v)
    exact ⟨m, hm, by rw [settings_eq]; exact hkm⟩

/-- C32: if `make` succeeds, then with one more setting that neither the entity nor one of its behaviours
understands it raises `TypeError`, and changes nothing. -/
theorem C32_entity_error {b : BpId} {kw : Dict} {w w' : World} {r : Ref} {k : String} {v : Val}
    (hmake : layerMake b (Dict.erase kw k) w = (.ok r, w')) (hstrict : (w'.heap r).strict = true)
    (hv : List.lookup k kw = some v) (hk : k ∉ entityKeys)
    (hm : ∀ m ∈ (w'.heap r).klass.chain, k ∉ settings m) :
    layerMake b kw w = (.error .typeError, w) := by
  refine layerMake_of_error ?_
  by_cases hself : k = "self" ∨ k = "blueprint_layer"
  · unfold Entity.new
    rw [if_pos]
    unfold Dict.mem Dict.get?
    rcases hself with rfl | rfl <;> simp [hv]
  · obtain ⟨e, n, he, hh⟩ := layerMake_new hmake
    rw [hh] at hstrict hm
    have hlo := Entity.new_leftover he hstrict
    refine Entity.new_erase ?_ he (fun a ha => ?_)
    · intro hmem
      simp only [fixedKeys, List.mem_cons, List.not_mem_nil, or_false] at hmem
      simp only [entityKeys, List.mem_cons, List.not_mem_nil, or_false, not_or] at hk
      tauto
    · have hne : k ∉ Entity.ownKeys ++ ["connections", "control_behavior"] := fun h => hk h
      rw [hlo] at ha ⊢
      exact initChain_extra (fun m hm' => by rw [← settings_eq]; exact hm m hm')
        (v := v) (by rw [get_eraseKeys hne]; exact hv) ha

/-- A setting inside `control_behavior` that an entity of class `k` understands. -/
def ControlKey (kl : Klass) (k : String) : Prop :=
  (∃ m ∈ kl.cbChain, k ∈ controlSettings m) ∨
  k = kl.ctx.field ∧ (.Combinator ∈ kl.cbChain ∨ .Decider ∈ kl.cbChain)

/-- C32 (partial: all entities but inserters): every setting inside `control_behavior` that was accepted is
understood by one of the behaviours. -/
theorem C32_control_partial {b : BpId} {kw d : Dict} {w w' : World} {r : Ref} {k : String}
    (h : layerMake b kw w = (.ok r, w')) (hcb : List.lookup "control_behavior" kw = some (.dict d))
    (hins : .Inserter ∉ (w'.heap r).klass.cbChain) (hk : List.lookup k d ≠ none) :
    ControlKey (w'.heap r).klass k := by
  obtain ⟨e, n, he, hh⟩ := layerMake_new h
  rw [hh] at hins ⊢
  dsimp only at hins ⊢
  obtain ⟨v, hv⟩ := Option.ne_none_iff_exists'.1 hk
  obtain ⟨a, -, -, -, ha⟩ := Entity.new_cb_chain he hcb
  obtain ⟨m, hm, hkm⟩ := cbInitChain_keys (v := v) (fun m hm => by
    unfold cbStops
    simp only [decide_eq_false_iff_not]
    rintro rfl
    exact hins hm) ha hv
  unfold ControlKey
  by_cases h1 : m = .Combinator
  · subst h1
    simp only [cbKeysIn, List.mem_singleton] at hkm
    exact .inr ⟨hkm, .inl hm⟩
  · by_cases h2 : m = .Decider
    · subst h2
      simp only [cbKeysIn, List.mem_singleton] at hkm
      exact .inr ⟨hkm, .inr hm⟩
    · refine .inl ⟨m, hm, ?_⟩
      rw [controlSettings_eq]
      have : cbKeysIn e.klass.ctx m = cbKeys m := by
        cases m <;> first | rfl | exact absurd rfl h1 | exact absurd rfl h2
      rw [← this]
      exact hkm

/-- C32 (partial: all entities but inserters): if `make` succeeds, then with one more setting inside
`control_behavior` that no behaviour understands it raises `TypeError`, and changes nothing. -/
theorem C32_control_error_partial {b : BpId} {kw d : Dict} {w w' : World} {r : Ref} {k : String} {v : Val}
    (hcb : List.lookup "control_behavior" kw = some (.dict d))
    (hmake : layerMake b (Dict.set kw "control_behavior" (.dict (Dict.erase d k))) w = (.ok r, w'))
    (hstrict : (w'.heap r).strict = true) (hins : .Inserter ∉ (w'.heap r).klass.cbChain)
    (hv : List.lookup k d = some v) (hk : ¬ ControlKey (w'.heap r).klass k)
    (h1 : k ≠ "self") (h2 : k ≠ "_entity") :
    layerMake b kw w = (.error .typeError, w) := by
  refine layerMake_of_error ?_
  obtain ⟨e, n, he, hh⟩ := layerMake_new hmake
  rw [hh] at hstrict hins hk
  dsimp only at hstrict hins hk
  refine Entity.new_cb h1 h2 hcb he (fun a ha => ?_)
  rw [Entity.new_leftover he hstrict] at ha ⊢
  refine cbInitChain_extra (v := v) (fun m hm => ?_) (fun m hm hkm => hk ?_) hv ha
  · unfold cbStops
    simp only [decide_eq_false_iff_not]
    rintro rfl
    exact hins hm
  · unfold ControlKey
    by_cases h1 : m = .Combinator
    · subst h1
      simp only [cbKeysIn, List.mem_singleton] at hkm
      exact .inr ⟨hkm, .inl hm⟩
    · by_cases h2 : m = .Decider
      · subst h2
        simp only [cbKeysIn, List.mem_singleton] at hkm
        exact .inr ⟨hkm, .inr hm⟩
      · refine .inl ⟨m, hm, ?_⟩
        rw [controlSettings_eq]
        have : cbKeysIn e.klass.ctx m = cbKeys m := by
          cases m <;> first | rfl | exact absurd rfl h1 | exact absurd rfl h2
        rw [← this]
        exact hkm

/-- C32: `self` and `_entity` inside `control_behavior` are never accepted. -/
theorem C32_control_reserved {b : BpId} {kw d : Dict} {w w' : World} {r : Ref}
    (h : layerMake b kw w = (.ok r, w')) (hcb : List.lookup "control_behavior" kw = some (.dict d)) :
    List.lookup "self" d = none ∧ List.lookup "_entity" d = none := by
  obtain ⟨e, n, he, hh⟩ := layerMake_new h
  obtain ⟨a, -, h1, h2, -⟩ := Entity.new_cb_chain he hcb
  unfold Dict.mem Dict.get? at h1 h2
  simpa using And.intro h1 h2

/-- C32: every key in the conditions of an accepted arithmetic or decider combinator is understood. -/
theorem C32_conditions {b : BpId} {kw d p cond : Dict} {w w' : World} {r : Ref} {s k : String} (c : Combi)
    (h : layerMake b kw w = (.ok r, w')) (hstrict : Strict kw)
    (hname : List.lookup "name" kw = some (.str s)) (hp : List.lookup s w.env.entities = some (.dict p))
    (ht : List.lookup "type" p = some (.str c.proto)) (hc : List.lookup c.proto (w.bp b).custom = none)
    (hcb : List.lookup "control_behavior" kw = some (.dict d))
    (hcond : List.lookup c.field d = some (.dict cond)) (hk : List.lookup k cond ≠ none) : k ∈ c.keys := by
  obtain ⟨e, n, he, hh⟩ := layerMake_new h
  obtain ⟨a, -, -, -, ha⟩ := Entity.new_cb_chain he hcb
  obtain ⟨ms, hms⟩ : ∃ ms, prototypeMixins c.proto = some ms := by cases c <;> exact ⟨_, rfl⟩
  have hkl := Entity.new_klass he hstrict hname hp ht hc hms
  obtain ⟨hf, hh⟩ := combi_klass c hms hkl
  by_contra hnot
  have body : ∀ {kw kw' : Dict} {cond : Dict} {w : Attrs} {env : Env}, List.lookup c.field kw = some (.dict cond) →
      List.lookup k cond ≠ none → k ∉ condKeys e.klass.ctx →
      combinatorInit env e.klass.ctx kw = .ok (w, kw') → kw'.isEmpty = false := by
    intro kw kw' cond w env h1 h2 h3 h4
    unfold combinatorInit at h4
    rw [hf] at h4
    unfold Dict.getD Dict.get? at h4
    rw [h1] at h4
    simp only [Option.getD, Val.asPopDict, ok_bind] at h4
    split at h4
    · cases h4
    · rename_i rest hb
      have := combinatorBody_get hb h3
      unfold Dict.get? at this
      rw [← this] at h2
      obtain ⟨v, hv⟩ := Option.ne_none_iff_exists'.1 h2
      rw [ne_nil_of_get (k := k) hv] at h4
      simp only [Bool.false_eq_true, if_false] at h4
      cases h4
      refine ne_nil_of_get (k := c.field) (v := .dict rest) ?_
      unfold Dict.get?
      rw [lookup_set, if_pos rfl]
  rcases hh with ⟨hch, rfl, hctx⟩ | ⟨hch, rfl, hctx⟩
  · have hkc : k ∉ condKeys e.klass.ctx := by
      rw [hctx]
      intro hmem
      apply hnot
      have : condKeys ⟨"arithmetic", "operation", false, some arithmeticOps, false⟩ =
        ["operation", "first_constant", "first_signal", "second_constant", "second_signal", "output_constant",
         "output_signal"] := by decide
      rw [this] at hmem
      simp only [Combi.keys, List.mem_cons, List.not_mem_nil, or_false] at hmem ⊢
      tauto
    rw [hch] at ha
    unfold cbInitChain at ha
    have hA : cbInit w.env e.klass.ctx .Arithmetic d = .ok ([], eraseKeys d []) := rfl
    rw [hA] at ha
    simp only [cbStops, reduceCtorEq, decide_false, Bool.false_eq_true, if_false] at ha
    unfold cbInitChain at ha
    cases hC : cbInit w.env e.klass.ctx .Combinator (eraseKeys d []) with
    | error x => rw [hC] at ha; cases ha
    | ok q =>
      obtain ⟨w₁, kw'⟩ := q
      have hl : List.lookup Combi.arithmetic.field (eraseKeys d []) = some (.dict cond) := by
        rw [lookup_eraseKeys, if_neg (by simp)]
        exact hcond
      have := body hl hk hkc hC
      rw [hC] at ha
      simp only [cbStops, reduceCtorEq, decide_false, Bool.false_eq_true, if_false, cbInitChain, this] at ha
  · have hkc : k ∉ condKeys e.klass.ctx ∧ k ≠ "copy_count_from_input" := by
      rw [hctx]
      have : condKeys ⟨"decider", "comparator", false, some deciderOps, false⟩ =
        ["comparator", "constant", "first_signal", "second_constant", "second_signal", "output_constant",
         "output_signal"] := by decide
      rw [this]
      simp only [Combi.keys, List.mem_cons, List.not_mem_nil, or_false, not_or] at hnot ⊢
      tauto
    rw [hch] at ha
    unfold cbInitChain at ha
    cases hD : cbInit w.env e.klass.ctx .Decider d with
    | error x => rw [hD] at ha; cases ha
    | ok q =>
      obtain ⟨w₀, kw₀⟩ := q
      rw [hD] at ha
      simp only [cbStops, reduceCtorEq, decide_false, Bool.false_eq_true, if_false] at ha
      have hD' : deciderInit e.klass.ctx d = .ok (w₀, kw₀) := hD
      have hl : List.lookup Combi.decider.field kw₀ = some (.dict (Dict.erase cond "copy_count_from_input")) := by
        unfold deciderInit Dict.getItem at hD'
        rw [hf] at hD'
        rw [show Dict.get? d Combi.decider.field = _ from hcond] at hD'
        simp only [ok_bind, Val.asPopDict] at hD'
        obtain ⟨v, hv⟩ := Option.ne_none_iff_exists'.1 hk
        have hne : (Dict.erase cond "copy_count_from_input").isEmpty = false :=
          ne_nil_of_get (k := k) (v := v) (by rw [get_erase_ne hkc.2]; exact hv)
        rw [hne] at hD'
        simp only [Bool.false_eq_true, if_false] at hD'
        cases hD'
        rw [lookup_set, if_pos rfl]
      unfold cbInitChain at ha
      cases hC : cbInit w.env e.klass.ctx .Combinator kw₀ with
      | error x => rw [hC] at ha; cases ha
      | ok q =>
        obtain ⟨w₁, kw'⟩ := q
        have := body hl (by
          have := get_erase_ne (d := cond) hkc.2
          unfold Dict.get? at this
          rw [this]; exact hk) hkc.1 hC
        rw [hC] at ha
        simp only [cbStops, reduceCtorEq, decide_false, Bool.false_eq_true, if_false, cbInitChain, this] at ha

/-- The statement of C32 for control behaviours, without exception. -/
def ControlSettingsChecked : Prop :=
  ∀ (env : Env) (w w' : World) (b : BpId) (kw d : Dict) (r : Ref) (k : String), Reachable env w →
    layerMake b kw w = (.ok r, w') → List.lookup "control_behavior" kw = some (.dict d) →
    List.lookup k d ≠ none → ControlKey (w'.heap r).klass k

namespace Sample

/-- An inserter with a misspelt setting. -/
def insKw : Dict := ent "ins" 1 2 ++ [("control_behavior", .dict [("circuit_mode_of_operatoin", .int 3)])]

end Sample

/-- C32: the property is false of the code: inserters accept any setting inside `control_behavior` and drop
those they do not know. -/
theorem C32_false : ¬ ControlSettingsChecked := by
  intro h
  obtain ⟨w', hw⟩ : ∃ w', layerMake 0 Sample.insKw Sample.belts = (.ok 3, w') :=
    ⟨_, Prod.ext (show _ = Except.ok 3 by decide +kernel) rfl⟩
  have hk := h Sample.env Sample.belts w' 0 Sample.insKw [("circuit_mode_of_operatoin", .int 3)] 3
    "circuit_mode_of_operatoin" Sample.belts_reachable hw rfl (by decide)
  have hkl : (w'.heap 3).klass.cbChain = [.CircuitCondition, .Inserter] ∧
      (w'.heap 3).klass.ctx.field = "_conditions" := by
    have : w' = (layerMake 0 Sample.insKw Sample.belts).2 := by rw [hw]
    rw [this]
    decide +kernel
  unfold ControlKey at hk
  rw [hkl.1, hkl.2] at hk
  revert hk
  decide +kernel

example : (layerMake 0 (Sample.ent "belt" 1 2 ++ [("direction", .int 2)]) Sample.belts).1 = .ok 3 := by
  decide +kernel

example : (layerMake 0 (Dict.erase (Sample.ent "belt" 1 2 ++ [("recipe", .str "gear")]) "recipe")
      Sample.belts).1 = .ok 3 ∧
    ((layerMake 0 (Dict.erase (Sample.ent "belt" 1 2 ++ [("recipe", .str "gear")]) "recipe")
      Sample.belts).2.heap 3).strict = true ∧
    ∀ m ∈ ((layerMake 0 (Dict.erase (Sample.ent "belt" 1 2 ++ [("recipe", .str "gear")]) "recipe")
      Sample.belts).2.heap 3).klass.chain, "recipe" ∉ settings m := by decide +kernel

example : (layerMake 0 (Sample.ent "dec" 1 2 ++ [("control_behavior", .dict [("decider_conditions",
    .dict [("comparator", .str "<"), ("first_signal", .dict [("name", .str "iron")])])])]) Sample.belts).1 =
    .ok 3 := by decide +kernel

end Verif
