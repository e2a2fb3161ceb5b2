import Verif.Spec.Names
import Verif.Proofs.Dict
import Verif.Proofs.Load
import Verif.Proofs.Data
import Verif.Proofs.Export
import Verif.Props.Sample
/-!
# Property C42: tiles in a blueprint

The property is false of the code: the constructor `Tile(**kwargs)` (`util.py:592-595`) passes the keyword
`blueprint_layer`, which every call from a layer contains, on to `object.__init__`, which rejects it; and
`add` (`blueprint.py:71`) reads an attribute that tiles do not have.  So no tile ever gets into a blueprint.
The theorems say exactly that, and that nothing is damaged by trying.
-/
set_option autoImplicit false

namespace Verif
open Spec

/-- The statement of C42 for `make`: a tile with a known name and a position can be placed. -/
def TilesCanBePlaced : Prop :=
  ∀ (env : Env) (w : World) (b : BpId) (s : String) (x y : Int), Reachable env w →
    ¬ Unknown w.env.tiles s →
    ∃ t w', tilesMake b [("name", .str s), ("position", .dict [("x", .int x), ("y", .int y)])] w = (.ok t, w')

/-- C42: `tiles.make` raises for all arguments in all states, and changes nothing. -/
theorem C42_make_fails (b : BpId) (kw : Dict) (w : World) : ∃ e, tilesMake b kw w = (.error e, w) :=
  tilesMake_error b kw w

/-- C42: with a known name, a position and nothing else, the exception is `TypeError`. -/
theorem C42_make_valid {b : BpId} {w : World} {s : String} {x y : Int} (h : ¬ Unknown w.env.tiles s) :
    tilesMake b [("name", .str s), ("position", .dict [("x", .int x), ("y", .int y)])] w =
      (.error .typeError, w) := by
  unfold tilesMake
  rw [if_neg (by simp [Dict.mem, Dict.get?, List.lookup])]
  rw [M.bind_get]
  refine M.bind_error ?_
  rw [M.lift_eq]
  have hm : (Dict.keys w.env.tiles).contains s = true := by
    have : s ∈ Dict.keys w.env.tiles := mem_keys_iff.2 h
    simpa using this
  have : Tile.new (Dict.keys w.env.tiles)
      ([("name", .str s), ("position", .dict [("x", .int x), ("y", .int y)])] ++ [("blueprint_layer", .none)]) =
      .error .typeError := by
    unfold Tile.new
    have h1 : Tile.setName (Dict.keys w.env.tiles) (.str s) = .ok s := by
      unfold Tile.setName
      simp only [hm, if_true]
    have h2 : Dict.getItem ([("name", .str s), ("position", .dict [("x", .int x), ("y", .int y)])] ++
      [("blueprint_layer", .none)]) "name" = .ok (.str s) := rfl
    rw [h2]
    simp only [ok_bind, h1]
    rfl
  rw [this]

/-- C42: adding a tile object (or anything else) to the tile layer raises and changes nothing. -/
theorem C42_add_fails (b : BpId) (o : Obj) (w : World) : ∃ e, tilesAdd b o w = (.error e, w) := by
  cases o <;> exact ⟨_, rfl⟩

/-- C42: a blueprint with tiles can never be imported. -/
theorem C42_import_fails {b : BpId} {data : Val} {w w' : World} {d : Dict} {v : Val} {l : List Val}
    (hd : Content data d) (ht : ListAt d "tiles" (v :: l)) : load b data w ≠ (.ok (), w') := by
  intro h
  obtain ⟨d', col, iv, ic, ev, es, w₃, sv, scheds, h1, -, -, -, -, -, -, h8, -⟩ := load_iff.1 h
  cases Content.unique (content_iff.1 h1) hd
  rw [listAt_iter ht] at h8
  cases h8

/-- C42: no sequence of calls puts a tile into a blueprint. -/
theorem C42_no_tiles {env : Env} {w : World} (h : Reachable env w) (b : BpId) : (w.bp b).tiles = [] :=
  h.noTiles b

/-- C42 (partial): the lookup by position works on what is there, which is nothing. -/
theorem C42_lookup_partial {env : Env} {w : World} (h : Reachable env w) (b : BpId) (p : Vec) :
    tilesGet b p w = (.ok [], w) := by
  unfold tilesGet
  rw [h.noTiles b]
  rfl

/-- C42: on a tile the lookup would raise `TypeError`. -/
theorem C42_lookup_fails (b : BpId) (p : Vec) (w : World) (h : (w.bp b).tiles ≠ []) :
    tilesGet b p w = (.error .typeError, w) := by
  unfold tilesGet
  cases ht : (w.bp b).tiles with
  | nil => exact absurd ht h
  | cons t ts => rfl

/-- C42: the property is false of the code. -/
theorem C42_false : ¬ TilesCanBePlaced := by
  intro h
  obtain ⟨t, w', ht⟩ := h Sample.env Sample.belts 0 "stone" 1 2 Sample.belts_reachable (by unfold Unknown; decide)
  rw [C42_make_valid (by unfold Unknown; decide)] at ht
  cases ht

/-- C42 (partial): outside of a blueprint a tile can be made from its name and position, and its export
makes the same tile again. -/
theorem C42_json_partial {tiles : List String} {kw : Dict} {t : Tile} (h : Tile.new tiles kw = .ok t) :
    ∃ d, t.toJson = .dict d ∧ Tile.new tiles d = .ok t ∧ t.name ∈ tiles := by
  refine ⟨_, rfl, ?_⟩
  have hn : tiles.contains t.name = true := by
    unfold Tile.new at h
    simp only [bind_eq_ok] at h
    obtain ⟨_, -, n, hn, _, -, p, -, h⟩ := h
    split at h
    · cases h
    · split at h
      · cases h
        unfold Tile.setName at hn
        split at hn
        · split at hn
          · cases hn; assumption
          · cases hn
        · split at hn <;> cases hn
      · cases h
  refine ⟨?_, by simpa using hn⟩
  have h2 : Dict.getItem [("name", .str t.name), ("position", t.pos.toJson)] "name" = .ok (.str t.name) := rfl
  have h1 : Tile.setName tiles (.str t.name) = .ok t.name := by
    unfold Tile.setName
    simp only [hn, if_true]
  unfold Tile.new
  rw [h2]
  simp only [ok_bind, h1]
  rfl

example : ¬ Unknown Sample.belts.env.tiles "stone" := by unfold Unknown; decide

example : Content (.dict [("tiles", .list [.dict (Sample.ent "stone" 1 2)])])
      [("tiles", .list [.dict (Sample.ent "stone" 1 2)])] ∧
    ListAt [("tiles", .list [.dict (Sample.ent "stone" 1 2)])] "tiles" [.dict (Sample.ent "stone" 1 2)] :=
  ⟨.bare _ rfl, .inl rfl⟩

example : Tile.new ["stone"] (Sample.ent "stone" 1 2) = .ok ⟨"stone", ⟨.int 1, .int 2⟩⟩ := by
  decide +kernel

end Verif
