import Verif.Props.Load
import Verif.Props.Settings
import Verif.Props.Usable
import Verif.Spec.Types
/-!
# The settings of each type of entity (C65)
-/
set_option autoImplicit false

namespace Verif
open Spec

/-- What an entity of a type takes. -/
private def rowOk (t : String) (k : Klass) : Bool :=
  decide (∀ m ∈ k.chain, ∀ s ∈ settings m, s ∈ typeSettings t) &&
  decide (∀ s ∈ typeSettings t, ∃ m ∈ k.chain, s ∈ settings m) &&
  decide (∀ m ∈ k.cbChain, ∀ s ∈ controlSettings m, s ∈ typeControls t) &&
  decide ((.Combinator ∈ k.cbChain ∨ .Decider ∈ k.cbChain) → k.ctx.field ∈ typeControls t) &&
  decide (.Inserter ∈ k.cbChain → t = "inserter") &&
  decide (∀ s ∈ typeControls t, (∃ m ∈ k.cbChain, s ∈ controlSettings m) ∨
    s = k.ctx.field ∧ (.Combinator ∈ k.cbChain ∨ .Decider ∈ k.cbChain))

private theorem rows_ok : ∀ p ∈ entityPrototypes, (match Klass.extend 0 Klass.entity p.2 with
    | .ok k => rowOk p.1 k | .error _ => false) = true := by decide +kernel

private theorem klass_row {env : Env} {custom : Option Custom} {layer : Option BpId} {kw p : Dict} {e : Entity}
    {s t : String} (h : Entity.new env custom layer kw = .ok e)
    (hname : List.lookup "name" kw = some (.str s)) (hp : List.lookup s env.entities = some (.dict p))
    (ht : List.lookup "type" p = some (.str t)) (hc : (custom.getD []).lookup t = none) :
    (e.klass = Klass.entity) ∨ rowOk t e.klass = true := by
  obtain ⟨-, -, name, position, number, e', hn, -, -, hs', hf⟩ := Entity.new_ok.1 h
  obtain ⟨pos, dir, cb, a, -, -, -, -, rfl⟩ := Entity.finish_ok.1 hf
  have : name = .str s := by
    have := hname.symm.trans (show List.lookup "name" kw = some name from hn)
    injection this with this
    exact this.symm
  subst this
  obtain ⟨s', hs1, hs2⟩ := Entity.setName_ok hs'
  cases hs1
  rcases hs2 with ⟨h0, rfl⟩ | ⟨-, data, t', ms', kl, hd, ht', hm', hk, rfl⟩
  · exact .inl rfl
  · refine .inr ?_
    have : data = .dict p := by
      have := hp.symm.trans (show List.lookup s env.entities = some data from hd)
      injection this with this
      exact this.symm
    subst this
    have : t' = .str t := by
      unfold Val.subscript Dict.getItem Dict.get? at ht'
      dsimp only at ht'
      rw [ht] at ht'
      cases ht'
      rfl
    subst this
    unfold mixinsFor at hm'
    dsimp only at hm'
    cases hm : prototypeMixins t with
    | none => rw [hm] at hm'; cases hm'
    | some ms =>
      rw [hm] at hm'
      dsimp only at hm'
      rw [hc] at hm'
      cases hm'
      have := rows_ok _ (mem_of_lookup hm)
      dsimp only at this
      rw [show Klass.extend 0 Klass.entity ms = _ from hk] at this
      exact this

/-- An entity of a type is given no setting but those of every entity and those of the type. -/
theorem C65_settings {b : BpId} {kw p : Dict} {w w' : World} {r : Ref} {s t k : String}
    (h : layerMake b kw w = (.ok r, w')) (hname : List.lookup "name" kw = some (.str s))
    (hp : List.lookup s w.env.entities = some (.dict p)) (ht : List.lookup "type" p = some (.str t))
    (hc : List.lookup t (w.bp b).custom = none) (hk : List.lookup k kw ≠ none) :
    k ∈ entityKeys ∨ k ∈ typeSettings t := by
  obtain ⟨e, n, he, hh⟩ := layerMake_new h
  rcases C32_entity h hk with h1 | ⟨m, hm, hkm⟩
  · exact .inl h1
  · rw [hh] at hm
    rcases klass_row he hname hp ht hc with h2 | h2
    · rw [show ({ e with auto := n } : Entity).klass = _ from h2] at hm
      cases hm
    · unfold rowOk at h2
      simp only [Bool.and_eq_true, decide_eq_true_eq] at h2
      exact .inr (h2.1.1.1.1.1 m hm k hkm)

/-- An entity of a type, other than an inserter, is given no setting inside `control_behavior` but those of the type. -/
theorem C65_controls_partial {b : BpId} {kw p d : Dict} {w w' : World} {r : Ref} {s t k : String}
    (h : layerMake b kw w = (.ok r, w')) (hname : List.lookup "name" kw = some (.str s))
    (hp : List.lookup s w.env.entities = some (.dict p)) (ht : List.lookup "type" p = some (.str t))
    (hc : List.lookup t (w.bp b).custom = none) (hi : t ≠ "inserter")
    (hcb : List.lookup "control_behavior" kw = some (.dict d)) (hk : List.lookup k d ≠ none) :
    k ∈ typeControls t := by
  obtain ⟨e, n, he, hh⟩ := layerMake_new h
  have hkl : (w'.heap r).klass = e.klass := by rw [hh]
  rcases klass_row he hname hp ht hc with h2 | h2
  · have := C32_control_partial h hcb (by rw [hkl, h2]; decide) hk
    rw [hkl, h2] at this
    rcases this with ⟨m, hm, -⟩ | ⟨-, hm | hm⟩ <;> cases hm
  · unfold rowOk at h2
    simp only [Bool.and_eq_true, decide_eq_true_eq] at h2
    rcases C32_control_partial h hcb (by rw [hkl]; exact fun hm => hi (h2.1.2 hm)) hk with ⟨m, hm, hkm⟩ | ⟨rfl, hm⟩
    · rw [hkl] at hm
      exact h2.1.1.1.2 m hm k hkm
    · rw [hkl] at hm ⊢
      exact h2.1.1.2 hm

/-- If an import succeeds, each entity of the data could also be made. -/
theorem C65_import_makes {env : Env} {w w' : World} (h : Reachable env w) {b : BpId} {data : Val} {d : Dict}
    {l : List Val} (hd : Content data d) (hl : ListAt d "entities" l) (hw : load b data w = (.ok (), w')) {v : Val}
    (hv : v ∈ l) : ∃ kw r w'', v = .dict kw ∧ layerMake b kw w = (.ok r, w'') := by
  obtain ⟨d', col, iv, ic, ev, es, cs, sv, scheds, h1, h2, h3, h4, h5, h6, h7, h8, h9, h10, h11, rfl⟩ :=
    (load_ok h.owned).1 hw
  cases Content.unique (content_iff.1 h1) hd
  rw [listAt_iter hl] at h5
  cases h5
  obtain ⟨hlen, hget⟩ := buildAll_get h6
  obtain ⟨i, hi, hli⟩ := List.getElem_of_mem hv
  have hi' : i < es.length := by rw [hlen]; exact hi
  obtain ⟨kw, hk, hne⟩ := hget i hi hi'
  rw [hli] at hk
  subst hk
  cases hm : layerMake b kw w with
  | mk res w'' =>
    cases res with
    | ok r => exact ⟨kw, r, w'', rfl, hm⟩
    | error x =>
      have := (layerMake_error hm).2
      rw [hne] at this
      cases this

/-- Data that give an entity a setting its type does not take cannot be imported. -/
theorem C65_import {env : Env} {w : World} (h : Reachable env w) {b : BpId} {data : Val} {d : Dict} {l : List Val}
    (hd : Content data d) (hl : ListAt d "entities" l) {kw p : Dict} (hkw : Val.dict kw ∈ l) {s t k : String}
    (hname : List.lookup "name" kw = some (.str s))
    (hp : List.lookup s w.env.entities = some (.dict p)) (ht : List.lookup "type" p = some (.str t))
    (hc : List.lookup t (w.bp b).custom = none) (hk : List.lookup k kw ≠ none) (hne : k ∉ entityKeys)
    (hnt : k ∉ typeSettings t) (w' : World) : load b data w ≠ (.ok (), w') := by
  intro hw
  obtain ⟨kw', r, w'', he, hm⟩ := C65_import_makes h hd hl hw hkw
  cases he
  rcases C65_settings hm hname hp ht hc hk with h1 | h1
  · exact hne h1
  · exact hnt h1

/-- … and likewise inside `control_behavior`. -/
theorem C65_import_controls_partial {env : Env} {w : World} (h : Reachable env w) {b : BpId} {data : Val} {d : Dict}
    {l : List Val} (hd : Content data d) (hl : ListAt d "entities" l) {kw p c : Dict} (hkw : Val.dict kw ∈ l)
    {s t k : String} (hname : List.lookup "name" kw = some (.str s))
    (hp : List.lookup s w.env.entities = some (.dict p)) (ht : List.lookup "type" p = some (.str t))
    (hc : List.lookup t (w.bp b).custom = none) (hi : t ≠ "inserter")
    (hcb : List.lookup "control_behavior" kw = some (.dict c)) (hk : List.lookup k c ≠ none)
    (hnt : k ∉ typeControls t) (w' : World) : load b data w ≠ (.ok (), w') := by
  intro hw
  obtain ⟨kw', r, w'', he, hm⟩ := C65_import_makes h hd hl hw hkw
  cases he
  exact hnt (C65_controls_partial hm hname hp ht hc hi hcb hk)

/-- C65 is false of the code: a machine with modules cannot be imported, unless it is a beacon. -/
theorem C65_modules_false {env : Env} {w : World} (h : Reachable env w) {b : BpId} {data : Val} {d : Dict} {l : List Val}
    (hd : Content data d) (hl : ListAt d "entities" l) {kw p : Dict} (hkw : Val.dict kw ∈ l) {s t : String}
    (hname : List.lookup "name" kw = some (.str s))
    (hp : List.lookup s w.env.entities = some (.dict p)) (ht : List.lookup "type" p = some (.str t))
    (hc : List.lookup t (w.bp b).custom = none) (hm : t ∈ moduleMachines) (hk : List.lookup "items" kw ≠ none)
    (w' : World) : load b data w ≠ (.ok (), w') := by
  have : ∀ t ∈ moduleMachines, "items" ∉ typeSettings t := by decide +kernel
  exact C65_import h hd hl hkw hname hp ht hc hk (by decide) (this t hm) w'

/-- C65 is false of the code: a painted locomotive cannot be imported. -/
theorem C65_color_false {env : Env} {w : World} (h : Reachable env w) {b : BpId} {data : Val} {d : Dict} {l : List Val}
    (hd : Content data d) (hl : ListAt d "entities" l) {kw p : Dict} (hkw : Val.dict kw ∈ l) {s : String}
    (hname : List.lookup "name" kw = some (.str s))
    (hp : List.lookup s w.env.entities = some (.dict p)) (ht : List.lookup "type" p = some (.str "locomotive"))
    (hc : List.lookup "locomotive" (w.bp b).custom = none) (hk : List.lookup "color" kw ≠ none)
    (w' : World) : load b data w ≠ (.ok (), w') :=
  C65_import h hd hl hkw hname hp ht hc hk (by decide) (by decide) w'

namespace Sample

/-- For each setting of a type: the type, a value, and settings that have to be given as well. -/
def showroom : List (String × String × Val × Dict) :=
  showcase ++
  [("type", "loader", .str "output", []),
   ("items", "locomotive", .dict [("iron", .int 2)], [("orientation", .flt (1/4))]),
   ("orientation", "artillery-wagon", .flt (1/2), []),
   ("orientation", "cargo-wagon", .flt (1/2), []),
   ("orientation", "fluid-wagon", .flt (3/4), [])]

end Sample

/-- Every setting listed for a type can be given to an entity of this type, and is then part of its export. -/
theorem C65_accepts {t k : String} (hk : k ∈ typeSettings t) :
    ∃ env kw v r w' o, layerMake 0 kw (World.init env) = (.ok r, w') ∧
      (∃ s p, List.lookup "name" kw = some (.str s) ∧ List.lookup s env.entities = some (.dict p) ∧
        List.lookup "type" p = some (.str t)) ∧
      List.lookup k kw = some v ∧ v ≠ .none ∧ (entToJson r w').1 = .ok (.dict o) ∧ List.lookup k o ≠ none := by
  have hall : ∃ x ∈ Sample.showroom, x.1 = k ∧ x.2.1 = t := by
    unfold typeSettings at hk
    split at hk <;> first | (revert k; decide +kernel) | exact absurd hk (by simp)
  obtain ⟨x, hx, rfl, rfl⟩ := hall
  have hs : ∀ x ∈ Sample.showroom, Sample.shown x = true := by decide +kernel
  have := hs x hx
  unfold Sample.shown at this
  simp only [Bool.and_eq_true, decide_eq_true_eq] at this
  obtain ⟨⟨hv, hl⟩, hrun⟩ := this
  split at hrun
  · rename_i r w hmake
    split at hrun
    · rename_i o ho
      refine ⟨_, _, _, r, w, o, hmake, ⟨"it", _, rfl, rfl, rfl⟩, hl, hv, ho, ?_⟩
      intro hn
      rw [hn] at hrun
      cases hrun
    · cases hrun
  · cases hrun

namespace Sample

/-- A circuit condition. -/
def aCondition : Val := .dict [("first_signal", .str "iron"), ("comparator", .str ">"), ("constant", .int 3)]

/-- For each setting inside `control_behavior` of a type: the type and a value. -/
def controls : List (String × String × Val) :=
  [("accumulator", "output_signal", .str "iron"),
   ("arithmetic-combinator", "arithmetic_conditions",
     .dict [("first_signal", sig "iron" "item"), ("operation", .str "*"), ("second_constant", .int 3),
       ("output_signal", sig "iron" "item")]),
   ("decider-combinator", "decider_conditions",
     .dict [("first_signal", sig "iron" "item"), ("comparator", .str ">"), ("second_signal", sig "iron" "item"),
       ("output_signal", sig "iron" "item"), ("copy_count_from_input", .bool true)]),
   ("constant-combinator", "filters",
     .list [.dict [("index", .int 1), ("count", .int 5), ("signal", .str "iron")]]),
   ("constant-combinator", "is_on", .bool false),
   ("logistic-container", "circuit_mode_of_operation", .int 1),
   ("inserter", "circuit_condition", aCondition),
   ("inserter", "circuit_mode_of_operation", .int 1),
   ("inserter", "circuit_set_stack_size", .bool true),
   ("inserter", "stack_control_input_signal", .str "iron"),
   ("inserter", "circuit_hand_read_mode", .int 1),
   ("inserter", "circuit_read_hand_contents", .bool true),
   ("lamp", "circuit_condition", aCondition),
   ("lamp", "use_colors", .bool true),
   ("mining-drill", "circuit_condition", aCondition),
   ("mining-drill", "circuit_enable_disable", .bool true),
   ("mining-drill", "circuit_read_resources", .bool true),
   ("mining-drill", "circuit_resource_read_mode", .int 1),
   ("offshore-pump", "circuit_condition", aCondition),
   ("power-switch", "circuit_condition", aCondition),
   ("pump", "circuit_condition", aCondition),
   ("programmable-speaker", "circuit_condition", aCondition),
   ("programmable-speaker", "circuit_parameters",
     .dict [("signal_value_is_pitch", .bool true), ("instrument_id", .int 1), ("note_id", .int 2)]),
   ("rail-chain-signal", "circuit_read_signal", .bool true),
   ("rail-chain-signal", "red_output_signal", .str "iron"),
   ("rail-chain-signal", "orange_output_signal", .str "iron"),
   ("rail-chain-signal", "green_output_signal", .str "iron"),
   ("rail-chain-signal", "blue_output_signal", .str "iron"),
   ("rail-signal", "circuit_read_signal", .bool true),
   ("rail-signal", "red_output_signal", .str "iron"),
   ("rail-signal", "orange_output_signal", .str "iron"),
   ("rail-signal", "green_output_signal", .str "iron"),
   ("rail-signal", "circuit_close_signal", .bool true),
   ("roboport", "read_logistics", .bool true),
   ("roboport", "read_robot_stats", .bool true),
   ("roboport", "available_construction_output_signal", .str "iron"),
   ("roboport", "total_construction_output_signal", .str "iron"),
   ("roboport", "available_logistic_output_signal", .str "iron"),
   ("roboport", "total_logistic_output_signal", .str "iron"),
   ("train-stop", "circuit_condition", aCondition),
   ("train-stop", "circuit_enable_disable", .bool true),
   ("train-stop", "read_from_train", .bool true),
   ("train-stop", "read_stopped_train", .bool true),
   ("train-stop", "train_stopped_signal", .str "iron"),
   ("transport-belt", "circuit_condition", aCondition),
   ("transport-belt", "circuit_enable_disable", .bool true),
   ("transport-belt", "circuit_read_hand_contents", .bool true),
   ("transport-belt", "circuit_contents_read_mode", .int 1)]

/-- The settings given for an entry. -/
def controlKw (x : String × String × Val) : Dict :=
  [("name", .str "it"), ("position", pos 0 0), ("control_behavior", .dict [(x.2.1, x.2.2)])]

/-- The entity can be made, and the control behaviour in its export has the setting. -/
def controlShown (x : String × String × Val) : Bool :=
  decide (x.2.2 ≠ .none) &&
  match layerMake 0 (controlKw x) (worldOf x.1) with
  | (.ok r, w) =>
    match (entToJson r w).1 with
    | .ok (.dict o) =>
      match List.lookup "control_behavior" o with
      | some (.dict c) => (List.lookup x.2.1 c).isSome
      | _ => false
    | _ => false
  | _ => false

end Sample

/-- Every setting inside `control_behavior` listed for a type can be given to an entity of this type, and is then part
of its export. -/
theorem C65_controls_accepts {t k : String} (hk : k ∈ typeControls t) :
    ∃ env kw d v r w' o c, layerMake 0 kw (World.init env) = (.ok r, w') ∧
      (∃ s p, List.lookup "name" kw = some (.str s) ∧ List.lookup s env.entities = some (.dict p) ∧
        List.lookup "type" p = some (.str t)) ∧
      List.lookup "control_behavior" kw = some (.dict d) ∧ List.lookup k d = some v ∧ v ≠ .none ∧
      (entToJson r w').1 = .ok (.dict o) ∧ List.lookup "control_behavior" o = some (.dict c) ∧ List.lookup k c ≠ none := by
  have hall : ∃ x ∈ Sample.controls, x.1 = t ∧ x.2.1 = k := by
    unfold typeControls at hk
    split at hk <;> first | (revert k; decide +kernel) | exact absurd hk (by simp)
  obtain ⟨x, hx, rfl, rfl⟩ := hall
  have hs : ∀ x ∈ Sample.controls, Sample.controlShown x = true := by decide +kernel
  have := hs x hx
  unfold Sample.controlShown at this
  simp only [Bool.and_eq_true, decide_eq_true_eq] at this
  obtain ⟨hv, hrun⟩ := this
  split at hrun
  · rename_i r w hmake
    split at hrun
    · rename_i o ho
      split at hrun
      · rename_i c hc
        refine ⟨_, _, _, _, r, w, o, c, hmake, ⟨"it", _, rfl, rfl, rfl⟩, rfl, ?_, hv, ho, hc, ?_⟩
        · exact List.lookup_cons_self
        · intro hn
          rw [hn] at hrun
          cases hrun
      · cases hrun
    · cases hrun
  · cases hrun

/-! ### Examples -/

/-- An assembling machine with modules. -/
example : ∃ (env : Env) (w : World) (data : Val) (d kw p : Dict) (l : List Val) (s t : String), Reachable env w ∧
    Content data d ∧ ListAt d "entities" l ∧ Val.dict kw ∈ l ∧ List.lookup "name" kw = some (.str s) ∧
    List.lookup s w.env.entities = some (.dict p) ∧ List.lookup "type" p = some (.str t) ∧
    List.lookup t (w.bp 0).custom = none ∧ t ∈ moduleMachines ∧ List.lookup "items" kw ≠ none :=
  ⟨_, World.init Sample.env, .dict [("entities", .list [.dict (Sample.ent "asm" 0 0 ++ [("recipe", .str "gear"),
    ("items", .dict [("speed-module", .int 4)])])])], _, _, _, _, "asm", "assembling-machine", .init, .bare _ rfl,
    .inl rfl, List.mem_singleton.2 rfl, rfl, rfl, rfl, rfl, by decide, by decide⟩

/-- What the import says, with and without the modules. -/
example : (load 0 (.dict [("entities", .list [.dict (Sample.ent "asm" 0 0 ++ [("recipe", .str "gear"),
      ("items", .dict [("speed-module", .int 4)])])])]) (World.init Sample.env)).1 = .error .typeError ∧
    (load 0 (.dict [("entities", .list [.dict (Sample.ent "asm" 0 0 ++ [("recipe", .str "gear")])])])
      (World.init Sample.env)).1 = .ok () := by decide +kernel

/-- A painted locomotive, and one without paint. -/
example : (load 0 (.dict [("entities", .list [.dict (Sample.ent "it" 0 0 ++ [("orientation", .flt (1/4)),
      ("color", .dict [("r", .int 1), ("g", .int 0), ("b", .int 0), ("a", .int 1)])])])])
      (Sample.worldOf "locomotive")).1 = .error .typeError ∧
    (load 0 (.dict [("entities", .list [.dict (Sample.ent "it" 0 0 ++ [("orientation", .flt (1/4))])])])
      (Sample.worldOf "locomotive")).1 = .ok () := by decide +kernel

/-- A wall that is wired to open its gate. -/
example : (load 0 (.dict [("entities", .list [.dict (Sample.ent "it" 0 0 ++
      [("control_behavior", .dict [("circuit_open_gate", .bool true)])])])]) (Sample.worldOf "wall")).1 = .error .typeError ∧
    "circuit_open_gate" ∉ typeControls "wall" := by decide +kernel

end Verif
