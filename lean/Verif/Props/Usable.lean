import Verif.Props.Settings
import Verif.Proofs.Classes
import Verif.Proofs.WireExport
import Verif.Spec.Prototypes
/-!
# Which settings can be used (C60)
-/
set_option autoImplicit false

namespace Verif
open Spec

private theorem ofMx_chain (m0 : Mx) : ∃ k, Klass.ofMx m0 = .ok k ∧ ∀ m ∈ k.chain, m ∈ lineage m0 := by
  have h : ∀ (r : Except Exc Klass), (match r with | .ok k => k.chain.all (· ∈ lineage m0) | .error _ => false) = true →
      ∃ k, r = .ok k ∧ ∀ m ∈ k.chain, m ∈ lineage m0 := by
    intro r h
    cases r with
    | error x => cases h
    | ok k => exact ⟨k, rfl, fun m hm => of_decide_eq_true (List.all_eq_true.1 h m hm)⟩
  refine h _ ?_
  cases m0 <;> decide +kernel

private theorem extend_chain_sub {n : Nat} {c k : Klass} {ms : List Mx} (h : Klass.extend n c ms = .ok k) :
    ∀ m ∈ k.chain, m ∈ c.chain ∨ ∃ m0 ∈ ms, m ∈ lineage m0 := by
  unfold Klass.extend at h
  simp only [bind_eq_ok] at h
  obtain ⟨ks, hks, hm⟩ := h
  obtain ⟨t, h1, -, -, h4⟩ := Klass.make_mro hm
  intro m hmk
  rw [Klass.mem_chain, h1] at hmk
  rcases List.mem_cons.1 hmk with e | hmt
  · cases e
  · obtain ⟨b, hb, hmb⟩ := h4 _ hmt
    rcases List.mem_cons.1 hb with rfl | hb
    · exact .inl (Klass.mem_chain.2 hmb)
    · obtain ⟨m0, hm0, hk0⟩ := (mem_mapM_except hks b).1 hb
      obtain ⟨k0, hk0', hall⟩ := ofMx_chain m0
      rw [hk0] at hk0'
      cases hk0'
      exact .inr ⟨m0, hm0, hall m (Klass.mem_chain.2 hmb)⟩

/-- C60, what holds: a setting that `make` accepts, other than those of every entity, belongs to a behaviour in the
row of the table for the type of the entity, or to a custom one for that type. -/
theorem C60_in_row {b : BpId} {kw : Dict} {w w' : World} {r : Ref} {k : String}
    (h : layerMake b kw w = (.ok r, w')) (hk : List.lookup k kw ≠ none) (hne : k ∉ entityKeys) :
    ∃ t ms m0 m, prototypeMixins t = some ms ∧
      (m0 ∈ ms ∨ ∃ cs, List.lookup t (w.bp b).custom = some cs ∧ m0 ∈ cs) ∧ m ∈ lineage m0 ∧ k ∈ settings m := by
  obtain ⟨e, n, he, hh⟩ := layerMake_new h
  rcases C32_entity h hk with h1 | ⟨m, hm, hkm⟩
  · exact absurd h1 hne
  · rw [hh] at hm
    replace hm : m ∈ e.klass.chain := hm
    obtain ⟨-, -, name, position, number, e', -, -, -, hs, hf⟩ := Entity.new_ok.1 he
    obtain ⟨pos, dir, cb, a, -, -, -, -, rfl⟩ := Entity.finish_ok.1 hf
    obtain ⟨s, -, ⟨-, rfl⟩ | ⟨-, data, t, ms, kl, -, -, hms, hk, rfl⟩⟩ := Entity.setName_ok hs
    · exact absurd (show m ∈ Klass.entity.chain from hm) (by intro h; cases h)
    · rcases extend_chain_sub hk m hm with h0 | ⟨m0, hm0, hml⟩
      · exact absurd (show m ∈ Klass.entity.chain from h0) (by intro h; cases h)
      · unfold mixinsFor at hms
        split at hms
        · rename_i t
          split at hms
          · cases hms
          · rename_i ms' hms'
            cases hms
            refine ⟨t, ms', m0, m, hms', ?_, hml, hkm⟩
            rcases List.mem_append.1 hm0 with h0 | h0
            · refine .inr ?_
              cases hc : List.lookup t (w.bp b).custom with
              | none =>
                rw [show ((w.customOf (some b)).getD []).lookup t = _ from hc] at h0
                cases h0
              | some cs =>
                rw [show ((w.customOf (some b)).getD []).lookup t = _ from hc] at h0
                exact ⟨cs, rfl, h0⟩
            · exact .inl h0
        · split at hms <;> cases hms

/-- The settings that belong to no row of the table. -/
theorem C60_rows (k : String) (hk : ∃ m, k ∈ settings m) :
    (∃ row ∈ entityPrototypes, ∃ m0 ∈ row.2, ∃ m ∈ lineage m0, k ∈ settings m) ↔ k ≠ "bar" ∧ k ≠ "variation" := by
  constructor
  · rintro ⟨row, hrow, m0, h0, m, hm, hkm⟩
    have hall : ∀ row ∈ entityPrototypes, ∀ m0 ∈ row.2, ∀ m ∈ lineage m0,
        "bar" ∉ settings m ∧ "variation" ∉ settings m := by decide +kernel
    have := hall row hrow m0 h0 m hm
    exact ⟨fun e => this.1 (e ▸ hkm), fun e => this.2 (e ▸ hkm)⟩
  · rintro ⟨h1, h2⟩
    obtain ⟨m, hm⟩ := hk
    have hall : ∀ m : Mx, m = .Container ∨ m = .Variation ∨
        (entityPrototypes.any (fun row => row.2.any (fun m0 => decide (m ∈ lineage m0)))) = true := by
      intro m
      cases m <;> decide +kernel
    rcases hall m with rfl | rfl | h
    · exact absurd (List.mem_singleton.1 hm) h1
    · exact absurd (List.mem_singleton.1 hm) h2
    · obtain ⟨row, hrow, h⟩ := List.any_eq_true.1 h
      obtain ⟨m0, hm0, h⟩ := List.any_eq_true.1 h
      exact ⟨row, hrow, m0, hm0, m, of_decide_eq_true h, hm⟩

/-- C60 is false of the code: no entity whatsoever can be given the settings `bar` and `variation`, unless the
blueprint has custom behaviours. -/
theorem C60_unusable {b : BpId} {kw : Dict} {w w' : World} {r : Ref} (hc : (w.bp b).custom = [])
    (h : layerMake b kw w = (.ok r, w')) : List.lookup "bar" kw = none ∧ List.lookup "variation" kw = none := by
  have key : ∀ k, k ∉ entityKeys → (∃ m, k ∈ settings m) → (k = "bar" ∨ k = "variation") → List.lookup k kw = none := by
    intro k hne hm hk
    refine Classical.byContradiction (fun hn => ?_)
    obtain ⟨t, ms, m0, m, hms, h0, hml, hkm⟩ := C60_in_row h hn hne
    rcases h0 with h0 | ⟨cs, hcs, -⟩
    · have := (C60_rows k hm).1 ⟨(t, ms), mem_of_lookup hms, m0, h0, m, hml, hkm⟩
      rcases hk with e | e
      · exact this.1 e
      · exact this.2 e
    · rw [hc] at hcs
      cases hcs
  exact ⟨key "bar" (by decide) ⟨.Container, by decide⟩ (.inl rfl),
    key "variation" (by decide) ⟨.Variation, by decide⟩ (.inr rfl)⟩

/-! ### All other settings can be used -/

namespace Sample

/-- For each setting: a type of entity, a value, and settings that have to be given as well. -/
def showcase : List (String × String × Val × Dict) :=
  [("items", "beacon", .dict [("iron", .int 2)], []),
   ("orientation", "locomotive", .flt (1/2), []),
   ("inventory", "cargo-wagon", .dict [("bar", .int 3)], []),
   ("color", "train-stop", .dict [("r", .int 1), ("g", .int 0), ("b", .int 0), ("a", .int 1)], []),
   ("override_stack_size", "inserter", .int 2, []),
   ("drop_position", "inserter", pos 0 1, []),
   ("pickup_position", "inserter", pos 0 (-1), []),
   ("filters", "inserter", .list [.dict [("index", .int 1), ("name", .str "iron")]], []),
   ("filter_mode", "inserter", .str "blacklist", []),
   ("infinity_settings", "infinity-container",
     .dict [("remove_unfiltered_items", .bool true), ("filters", .list [])], []),
   ("recipe", "assembling-machine", .str "gear", []),
   ("request_from_buffers", "logistic-container", .bool true, []),
   ("request_filters", "logistic-container",
     .list [.dict [("index", .int 1), ("name", .str "iron"), ("count", .int 5)]], []),
   ("auto_launch", "rocket-silo", .bool true, []),
   ("parameters", "programmable-speaker",
     .dict [("playback_volume", .flt 1), ("playback_globally", .bool true), ("allow_polyphony", .bool false)], []),
   ("alert_parameters", "programmable-speaker",
     .dict [("show_alert", .bool true), ("show_on_map", .bool true), ("alert_message", .str "help")], []),
   ("input_priority", "splitter", .str "left", []),
   ("output_priority", "splitter", .str "right", []),
   ("filter", "splitter", .str "iron", []),
   ("station", "train-stop", .str "home", []),
   ("type", "underground-belt", .str "input", [])]

/-- A world that knows one entity, called `it`, of the given type. -/
def worldOf (t : String) : World :=
  World.init { env with
    entities := [("it", proto t (box (-1/2) (-1/2) (1/2) (1/2)))]
    defaults := [("iron", .dict [("type", .str "item")])] }

/-- The settings given for an entry. -/
def shownKw (x : String × String × Val × Dict) : Dict :=
  ("name", .str "it") :: ("position", pos 0 0) :: (x.1, x.2.2.1) :: x.2.2.2

/-- The entity can be made, and its export has the setting. -/
def shown (x : String × String × Val × Dict) : Bool :=
  decide (x.2.2.1 ≠ .none) && decide (List.lookup x.1 (shownKw x) = some x.2.2.1) &&
  match layerMake 0 (shownKw x) (worldOf x.2.1) with
  | (.ok r, w) =>
    match (entToJson r w).1 with
    | .ok (.dict o) => (List.lookup x.1 o).isSome
    | _ => false
  | _ => false

end Sample

/-- C60 (partial: all settings but `bar` and `variation`): every setting can be given to some entity of a blueprint
without custom behaviours, and is then part of its export. -/
theorem C60_usable_partial {k : String} (hk : ∃ m, k ∈ settings m) (h1 : k ≠ "bar") (h2 : k ≠ "variation") :
    ∃ env kw v r w' o, layerMake 0 kw (World.init env) = (.ok r, w') ∧ List.lookup k kw = some v ∧ v ≠ .none ∧
      (entToJson r w').1 = .ok (.dict o) ∧ List.lookup k o ≠ none := by
  have hall : ∀ m : Mx, ∀ k ∈ settings m, k = "bar" ∨ k = "variation" ∨ k ∈ Sample.showcase.map (·.1) := by
    intro m
    cases m <;> decide +kernel
  obtain ⟨m, hm⟩ := hk
  rcases hall m k hm with h | h | h
  · exact absurd h h1
  · exact absurd h h2
  · obtain ⟨x, hx, rfl⟩ := List.mem_map.1 h
    have hs : ∀ x ∈ Sample.showcase, Sample.shown x = true := by decide +kernel
    have := hs x hx
    unfold Sample.shown at this
    simp only [Bool.and_eq_true, decide_eq_true_eq] at this
    obtain ⟨⟨hv, hl⟩, hrun⟩ := this
    split at hrun
    · rename_i r w hmake
      split at hrun
      · rename_i o ho
        refine ⟨_, _, _, r, w, o, hmake, hl, hv, ho, ?_⟩
        intro hn
        rw [hn] at hrun
        cases hrun
      · cases hrun
    · cases hrun

/-- The setting `bar` is refused. -/
example : (layerMake 0 (Sample.ent "belt" 0 0 ++ [("bar", Val.int 3)]) (World.init Sample.env)).1 = .error .typeError := by
  decide +kernel

/-- With a custom behaviour the setting is accepted. -/
example : ((do let _ ← (Op.setCustom 0 [("transport-belt", [.Container])]).run
               layerMake 0 (Sample.ent "belt" 0 0 ++ [("bar", Val.int 3)])) (World.init Sample.env)).1 = .ok 0 := by
  decide +kernel

/-- The hypotheses of `C60_in_row`. -/
example : (layerMake 0 (Sample.ent "asm" 0 0 ++ [("recipe", .str "gear")]) (World.init Sample.env)).1 = .ok 0 ∧
    "recipe" ∉ entityKeys := by
  decide +kernel

end Verif
