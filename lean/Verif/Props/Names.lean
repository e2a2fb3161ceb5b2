import Verif.Proofs.Names
import Verif.Props.Sample
/-!
# Property C31: unknown prototypes are rejected and nothing is added
-/
set_option autoImplicit false

namespace Verif
open Spec

/-- C31: whatever `make` raises, nothing has changed. -/
theorem C31_unchanged {b : BpId} {kw : Dict} {w w' : World} {x : Exc}
    (h : layerMake b kw w = (.error x, w')) : w' = w := (layerMake_error h).1

/-- C31: `make` with an unknown name raises `UnknownEntity` and changes nothing, whatever other settings
are passed. -/
theorem C31_entity {b : BpId} {kw : Dict} {w : World} {s : String} {n : Option Int}
    (hname : List.lookup "name" kw = some (.str s)) (hunknown : Unknown w.env.entities s)
    (hstrict : Strict kw) (hpos : List.lookup "position" kw ≠ none) (hnum : NumberOf kw n)
    (hself : List.lookup "self" kw = none) (hlayer : List.lookup "blueprint_layer" kw = none) :
    layerMake b kw w = (.error .unknownEntity, w) := by
  refine layerMake_of_error ?_
  obtain ⟨p, hp⟩ := Option.ne_none_iff_exists'.1 hpos
  have hst := strict_true hstrict
  have hn : Entity.numberOf (Dict.getD kw "entity_number" .none) = .ok n := by
    unfold Dict.getD Dict.get?
    cases hnum with
    | absent h => rw [h]; rfl
    | null h => rw [h]; rfl
    | given z h => rw [h]; rfl
  unfold Entity.new
  simp only [Dict.mem, Dict.get?, hself, hlayer, hname, hp, Option.isSome_none, Bool.or_self,
    Bool.false_eq_true, if_false, hn]
  unfold Entity.setName
  simp only [hst, Bool.not_true, Bool.false_eq_true, if_false, Dict.get?]
  rw [show List.lookup s w.env.entities = none from hunknown]

/-- C31: without the side conditions on the other settings, it still never succeeds. -/
theorem C31_entity_never {b : BpId} {kw : Dict} {w w' : World} {s : String} {r : Ref}
    (hname : List.lookup "name" kw = some (.str s)) (hunknown : Unknown w.env.entities s)
    (hstrict : Strict kw) : layerMake b kw w ≠ (.ok r, w') := by
  intro h
  obtain ⟨e, n, he, -⟩ := layerMake_new h
  exact new_known he hname hstrict hunknown

example : layerMake 0 (Sample.ent "no such" 1 2) Sample.belts = (.error .unknownEntity, Sample.belts) :=
  C31_entity (s := "no such") (n := none) rfl rfl (by intro v h; cases h) (by decide)
    (.absent _ rfl) rfl rfl

/-- C31: if `make` without a recipe would give an entity with a recipe setting, then with an unknown
recipe it raises `UnknownRecipe` and changes nothing. -/
theorem C31_recipe {b : BpId} {kw : Dict} {w w' : World} {s : String} {r : Ref}
    (hmake : layerMake b (Dict.erase kw "recipe") w = (.ok r, w'))
    (hrec : .Recipe ∈ (w'.heap r).klass.chain) (hitems : .Items ∉ (w'.heap r).klass.chain)
    (hstrict : (w'.heap r).strict = true)
    (hname : List.lookup "recipe" kw = some (.str s)) (hunknown : Unknown w.env.recipes s) :
    layerMake b kw w = (.error .unknownRecipe, w) := by
  refine layerMake_of_error ?_
  obtain ⟨e, n, he, hh⟩ := layerMake_new hmake
  rw [hh] at hrec hitems hstrict
  refine Entity.new_erase (k := "recipe") (by decide) he (fun a ha => ?_)
  refine initChain_bad hrec (by decide) (.inr hitems) (v := .str s) ?_ ?_ ha
  · rw [get_eraseKeys (by decide)]
    exact hname
  · intro g g' u _ hv _ _
    simp only [mxRead, Kw.orNone, hv, recipeSet, Option.getD_some]
    rw [show e.strict = true from hstrict]
    simp only [Bool.not_true, Bool.false_eq_true, if_false, inTable, Dict.mem, Dict.get?]
    rw [show List.lookup s w.env.recipes = none from hunknown]
    rfl

example : layerMake 0 (Sample.ent "asm" 1 2 ++ [("recipe", .str "no such")]) Sample.belts =
    (.error .unknownRecipe, Sample.belts) :=
  C31_recipe (s := "no such") (r := 3)
    (w' := (layerMake 0 (Sample.ent "asm" 1 2) Sample.belts).2)
    (Sample.run_eq (by decide +kernel)) (by decide +kernel) (by decide +kernel) (by decide +kernel) rfl rfl

/-- C31: without the other conditions, a strict entity never ends up with an unknown recipe. -/
theorem C31_recipe_never {b : BpId} {kw : Dict} {w w' : World} {s : String} {r : Ref}
    (hmake : layerMake b kw w = (.ok r, w')) (hstrict : (w'.heap r).strict = true)
    (h : List.lookup "recipe" (w'.heap r).attrs = some (.str s)) : ¬ Unknown w.env.recipes s := by
  intro hu
  obtain ⟨e, n, he, hh⟩ := layerMake_new hmake
  rw [hh] at h hstrict
  obtain ⟨-, -, name, position, number, e', -, -, -, -, hf⟩ := Entity.new_ok.1 he
  obtain ⟨pos, dir, cb, a, -, -, -, ha, rfl⟩ := Entity.finish_ok.1 hf
  rcases initChain_attr ha h with h | ⟨m, -, g, u, hr, hm⟩
  · cases h
  · have : m = .Recipe := by
      have := mxRead_keys hr _ hm
      dsimp only at this
      revert this
      clear hm hr
      cases m <;> decide
    subst this
    simp only [mxRead, bind_eq_ok, pure_eq_ok, Except.ok.injEq] at hr
    obtain ⟨v, hv, rfl⟩ := hr
    simp only [List.mem_singleton, Prod.mk.injEq, true_and] at hm
    subst hm
    unfold recipeSet at hv
    generalize g.orNone "recipe" = x at hv
    rw [show e'.strict = true from hstrict] at hv
    simp only [Bool.not_true, Bool.false_eq_true, if_false] at hv
    split at hv
    · cases hv
    · simp only [bind_eq_ok] at hv
      obtain ⟨t, ht, hv⟩ := hv
      split at hv
      · rename_i htt
        cases hv
        simp only [inTable, Dict.mem, Dict.get?] at ht
        rw [show List.lookup s w.env.recipes = none from hu] at ht
        rw [htt] at ht
        cases ht
      · cases hv

example : (layerMake 0 (Sample.ent "asm" 1 2 ++ [("recipe", .str "gear")]) Sample.belts).1 = .ok 3 ∧
    List.lookup "recipe" ((layerMake 0 (Sample.ent "asm" 1 2 ++ [("recipe", .str "gear")])
      Sample.belts).2.heap 3).attrs = some (.str "gear") := by decide +kernel

/-- C31: if `make` without some signal setting of the control behaviour succeeds, then with an unknown
signal there it raises `UnknownSignal` and changes nothing. -/
theorem C31_signal {b : BpId} {kw d : Dict} {w w' : World} {s k : String} {v : Val} {m : Mx} {r : Ref}
    (hk : (m, k) ∈ signalSettings)
    (hcb : List.lookup "control_behavior" kw = some (.dict d))
    (hmake : layerMake b (Dict.set kw "control_behavior" (.dict (Dict.erase d k))) w = (.ok r, w'))
    (hm : m ∈ (w'.heap r).klass.cbChain)
    (hins : ∀ n ∈ (w'.heap r).klass.cbChain, n ≠ m → n ≠ .Inserter)
    (hv : List.lookup k d = some v) (hname : NamesSignal s v) (hs : s ≠ "")
    (hunknown : Unknown w.env.signals s) :
    layerMake b kw w = (.error .unknownSignal, w) := by
  refine layerMake_of_error ?_
  obtain ⟨e, n, he, hh⟩ := layerMake_new hmake
  rw [hh] at hm hins
  have hbad := signalSet_unknown (env := w.env) hname hs hunknown
  have hfield : k ≠ e.klass.ctx.field := by
    have hf : ∃ t, t ∈ ["arithmetic", "decider", ""] ∧ e.klass.ctx.field = t ++ "_conditions" := by
      refine ⟨e.klass.ctx.type, ?_, rfl⟩
      unfold Klass.ctx
      dsimp only
      split <;> simp
    obtain ⟨t, ht, hf⟩ := hf
    rw [hf]
    clear hf hmake hm hins hv hcb he hh
    revert m k
    have : ∀ p ∈ signalSettings, ∀ t ∈ ["arithmetic", "decider", ""], p.2 ≠ t ++ "_conditions" := by decide
    intro k m hk
    exact this _ hk t ht
  simp only [signalSettings, List.mem_cons, Prod.mk.injEq, List.not_mem_nil, or_false] at hk
  refine Entity.new_cb (k := k) ?_ ?_ hcb he (fun a ha => ?_)
  · rcases hk with ⟨rfl, rfl⟩ | ⟨rfl, rfl⟩ | ⟨rfl, rfl⟩ | ⟨rfl, rfl⟩ | ⟨rfl, rfl⟩ | ⟨rfl, rfl⟩ | ⟨rfl, rfl⟩ |
      ⟨rfl, rfl⟩ | ⟨rfl, rfl⟩ | ⟨rfl, rfl⟩ | ⟨rfl, rfl⟩ <;> decide
  · rcases hk with ⟨rfl, rfl⟩ | ⟨rfl, rfl⟩ | ⟨rfl, rfl⟩ | ⟨rfl, rfl⟩ | ⟨rfl, rfl⟩ | ⟨rfl, rfl⟩ | ⟨rfl, rfl⟩ |
      ⟨rfl, rfl⟩ | ⟨rfl, rfl⟩ | ⟨rfl, rfl⟩ | ⟨rfl, rfl⟩ <;> decide
  · refine cbInitChain_bad hm ?_ ?_ ?_ ?_ hv ?_ ha
    · rcases hk with ⟨rfl, rfl⟩ | ⟨rfl, rfl⟩ | ⟨rfl, rfl⟩ | ⟨rfl, rfl⟩ | ⟨rfl, rfl⟩ | ⟨rfl, rfl⟩ | ⟨rfl, rfl⟩ |
        ⟨rfl, rfl⟩ | ⟨rfl, rfl⟩ | ⟨rfl, rfl⟩ | ⟨rfl, rfl⟩ <;> decide
    · rcases hk with ⟨rfl, rfl⟩ | ⟨rfl, rfl⟩ | ⟨rfl, rfl⟩ | ⟨rfl, rfl⟩ | ⟨rfl, rfl⟩ | ⟨rfl, rfl⟩ | ⟨rfl, rfl⟩ |
        ⟨rfl, rfl⟩ | ⟨rfl, rfl⟩ | ⟨rfl, rfl⟩ | ⟨rfl, rfl⟩ <;> decide
    · intro n hn hne
      have := hins n hn hne
      simp [cbStops, this]
    · intro n _ hne hin
      unfold cbKeysIn at hin
      split at hin
      · exact hfield (List.mem_singleton.1 hin)
      · exact hfield (List.mem_singleton.1 hin)
      · clear hfield hv hcb hmake ha he
        rcases hk with ⟨rfl, rfl⟩ | ⟨rfl, rfl⟩ | ⟨rfl, rfl⟩ | ⟨rfl, rfl⟩ | ⟨rfl, rfl⟩ | ⟨rfl, rfl⟩ | ⟨rfl, rfl⟩ |
          ⟨rfl, rfl⟩ | ⟨rfl, rfl⟩ | ⟨rfl, rfl⟩ | ⟨rfl, rfl⟩ <;> revert hin hne <;> cases n <;> decide
    · intro g g' u heq hg _ hok
      rcases hk with ⟨rfl, rfl⟩ | ⟨rfl, rfl⟩ | ⟨rfl, rfl⟩ | ⟨rfl, rfl⟩ | ⟨rfl, rfl⟩ | ⟨rfl, rfl⟩ | ⟨rfl, rfl⟩ |
        ⟨rfl, rfl⟩ | ⟨rfl, rfl⟩ | ⟨rfl, rfl⟩ | ⟨rfl, rfl⟩
      all_goals
        simp only [cbRead, Kw.orNone, bind_eq_ok] at hok
        simp only [cbRead, Kw.orNone, hg, Option.getD_some, hbad]
      any_goals rfl
      · obtain ⟨x, h1, -⟩ := hok
        rw [heq _ (by decide), h1]
        rfl
      · obtain ⟨x, h1, y, h2, -⟩ := hok
        rw [heq _ (by decide), heq "orange_output_signal" (by decide), h1, h2]
        rfl
      · obtain ⟨x, h1, -⟩ := hok
        rw [heq _ (by decide), h1]
        rfl
      · obtain ⟨x, h1, y, h2, -⟩ := hok
        rw [heq _ (by decide), heq "total_construction_output_signal" (by decide), h1, h2]
        rfl
      · obtain ⟨x, h1, y, h2, z, h3, -⟩ := hok
        rw [heq _ (by decide), heq "total_construction_output_signal" (by decide),
          heq "available_logistic_output_signal" (by decide), h1, h2, h3]
        rfl

/-- C31: no signal attribute of the control behaviour of a new entity holds an unknown name. -/
theorem C31_signal_never {b : BpId} {kw : Dict} {w w' : World} {c : Cb} {k s : String} {r : Ref}
    (hmake : layerMake b kw w = (.ok r, w')) (hc : (w'.heap r).cb = some c) (hk : k ∈ signalAttrs)
    (h : List.lookup k c.attrs = some (.str s)) (hs : s ≠ "") : ¬ Unknown w.env.signals s := by
  obtain ⟨e, n, he, hh⟩ := layerMake_new hmake
  rw [hh] at hc
  obtain ⟨-, -, name, position, number, e', -, -, -, -, hf⟩ := Entity.new_ok.1 he
  obtain ⟨pos, dir, cb, a, -, -, hcb, -, rfl⟩ := Entity.finish_ok.1 hf
  have hc : cb = some c := hc
  subst hc
  unfold Entity.cbOf at hcb
  split at hcb
  · simp only [bind_eq_ok, Cb.new, pure_eq_ok, Except.ok.injEq, Option.some.injEq] at hcb
    obtain ⟨c', ⟨d, -, hx⟩, rfl⟩ := hcb
    split at hx
    · cases hx
    · simp only [bind_eq_ok, Except.ok.injEq] at hx
      obtain ⟨a', ha', rfl⟩ := hx
      rcases cbInitChain_signal ha' hk h hs with h | h
      · cases h
      · exact h
  · cases hcb

/-- Keywords of an accumulator with a control behaviour. -/
def Sample.accKw (d : Dict) : Dict := Sample.ent "acc" 1 2 ++ [("control_behavior", .dict d)]

example : layerMake 0 (Sample.accKw [("output_signal", Sample.sig "no such" "item")]) Sample.belts =
    (.error .unknownSignal, Sample.belts) :=
  C31_signal (s := "no such") (r := 3) (k := "output_signal") (m := .Accumulator)
    (d := [("output_signal", Sample.sig "no such" "item")])
    (w' := (layerMake 0 (Sample.accKw []) Sample.belts).2)
    (by decide) rfl (Sample.run_eq (by decide +kernel)) (by decide +kernel) (by decide +kernel) rfl
    (.obj _ rfl) (by decide) rfl

example : (layerMake 0 (Sample.accKw [("output_signal", Sample.sig "iron" "item")]) Sample.belts).1 = .ok 3 ∧
    ((layerMake 0 (Sample.accKw [("output_signal", Sample.sig "iron" "item")]) Sample.belts).2.heap 3).cb.map
      (·.attrs) = some [("output_signal", .str "iron")] := by decide +kernel

/-- C31: a tile with an unknown name is rejected with `UnknownTile`, whatever other settings are passed. -/
theorem C31_tile {tiles : List String} {kw : Dict} {s : String} (hname : List.lookup "name" kw = some (.str s))
    (hunknown : s ∉ tiles) : Tile.new tiles kw = .error .unknownTile := by
  unfold Tile.new Dict.getItem Dict.get?
  rw [hname]
  have : tiles.contains s = false := by simpa using hunknown
  simp only [ok_bind, Tile.setName, this, Bool.false_eq_true, if_false, error_bind]

/-- C31: `tiles.make` with an unknown name raises `UnknownTile` and changes nothing. -/
theorem C31_tiles_make {b : BpId} {kw : Dict} {w : World} {s : String}
    (hname : List.lookup "name" kw = some (.str s)) (hunknown : Unknown w.env.tiles s)
    (hself : List.lookup "self" kw = none) (hlayer : List.lookup "blueprint_layer" kw = none) :
    tilesMake b kw w = (.error .unknownTile, w) := by
  unfold tilesMake
  simp only [Dict.mem, Dict.get?, hself, hlayer, Option.isSome_none, Bool.or_self, Bool.false_eq_true,
    if_false]
  rw [M.bind_get]
  refine M.bind_error ?_
  rw [M.lift_eq, C31_tile (s := s)]
  · rw [List.lookup_append, hname]
    rfl
  · intro h
    exact mem_keys_iff.1 h hunknown

example : Tile.new ["stone"] (Sample.ent "no such" 1 2) = .error .unknownTile :=
  C31_tile (s := "no such") rfl (by decide)

example : tilesMake 0 (Sample.ent "no such" 1 2) Sample.belts = (.error .unknownTile, Sample.belts) :=
  C31_tiles_make (s := "no such") rfl rfl rfl rfl

/-- C31: a blueprint in which some entity has an unknown name cannot be imported. -/
theorem C31_import {b : BpId} {data : Val} {w w' : World} {d : Dict} {l : List Val} {k : Dict} {s : String}
    (hd : Content data d) (hl : ListAt d "entities" l) (hk : .dict k ∈ l)
    (hname : List.lookup "name" k = some (.str s)) (hunknown : Unknown w.env.entities s) (hstrict : Strict k) :
    load b data w ≠ (.ok (), w') := by
  intro h
  obtain ⟨d', col, iv, ic, ev, es, w₃, sv, scheds, h1, -, -, -, h5, h6, -⟩ := load_iff.1 h
  cases Content.unique (content_iff.1 h1) hd
  rw [listAt_iter hl] at h5
  cases h5
  obtain ⟨e, he⟩ := mapM_total h6 _ hk
  exact new_known he hname hstrict hunknown

example : Content (.dict [("entities", .list [.dict (Sample.ent "no such" 1 2)])])
      [("entities", .list [.dict (Sample.ent "no such" 1 2)])] ∧
    ListAt [("entities", .list [.dict (Sample.ent "no such" 1 2)])] "entities"
      [.dict (Sample.ent "no such" 1 2)] ∧
    Unknown Sample.env.entities "no such" ∧ Strict (Sample.ent "no such" 1 2) :=
  ⟨.bare _ rfl, .inl rfl, rfl, by intro v h; cases h⟩

end Verif
