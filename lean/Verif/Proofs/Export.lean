import Verif.Proofs.LoadBase
/-!
# Helper lemmas: the result of `Blueprint.to_json`
-/
set_option autoImplicit false

namespace Verif
open Spec

/-- The inner dict of the export. -/
def exportDict (p : Bp) (ents icons scheds : List Val) : Dict :=
  ("item", p.item) :: objSet "label" p.label ++
    (match p.labelColor with | some c => [("label_color", c.toJson)] | none => []) ++
    layerJson "entities" ents ++ layerJson "tiles" (p.tiles.map Tile.toJson) ++
    [("icons", .list icons), ("version", p.version)] ++ layerJson "schedules" scheds

theorem toJson_ok {b : BpId} {w w' : World} {v : Val} :
    toJson b w = (.ok v, w') ↔ ∃ ents icons,
      M.mapL entToJson (w.bp b).objs w = (.ok ents, w') ∧ iconsJson w.env 0 (w.bp b).icons = .ok icons ∧
      v = .dict [("blueprint", .dict (exportDict (w.bp b) ents icons
        ((w.bp b).schedules.map (scheduleJson w.heap))))] := by
  unfold toJson
  rw [M.bind_get]
  simp only [M.bind_eq_ok, M.lift_eq, Prod.mk.injEq]
  constructor
  · rintro ⟨ents, v, h1, icons, _, ⟨h2, rfl⟩, h⟩
    cases h
    exact ⟨ents, icons, h1, h2, rfl⟩
  · rintro ⟨ents, icons, h1, h2, rfl⟩
    exact ⟨ents, w', h1, icons, w', ⟨h2, rfl⟩, rfl⟩

theorem lookup_append {l l' : Dict} {k : String} :
    List.lookup k (l ++ l') = (List.lookup k l).or (List.lookup k l') := List.lookup_append

theorem lookup_objSet (k k' : String) (v : Val) :
    List.lookup k' (objSet k v) = if k' = k then (if v = .none then none else some v) else none := by
  unfold objSet
  split
  · simp
  · rename_i h
    rw [List.lookup_cons]
    split
    · rename_i e
      simp only [beq_iff_eq] at e
      rw [if_pos e, if_neg h]
    · rename_i e
      simp only [beq_eq_false_iff_ne, ne_eq] at e
      rw [if_neg e]
      rfl

theorem lookup_layerJson (k k' : String) (l : List Val) :
    List.lookup k' (layerJson k l) = if k' = k then (if l = [] then none else some (.list l)) else none := by
  unfold layerJson
  cases l with
  | nil => simp
  | cons a l =>
    simp only [List.isEmpty_cons, Bool.false_eq_true, if_false, List.lookup_cons, List.lookup_nil]
    by_cases h : k' = k
    · simp [h]
    · have : (k' == k) = false := by simpa using h
      simp [h, this]

theorem lookup_labelColor (k : String) (c : Option Color) :
    List.lookup k (match c with | some c => [("label_color", c.toJson)] | none => []) =
      if k = "label_color" then c.map Color.toJson else none := by
  cases c with
  | none => simp
  | some c =>
    simp only [List.lookup_cons, List.lookup_nil, Option.map_some]
    by_cases h : k = "label_color"
    · simp [h]
    · have : (k == "label_color") = false := by simpa using h
      simp [h, this]

theorem export_lookup (p : Bp) (ents icons scheds : List Val) :
    (exportDict p ents icons scheds).lookup "item" = some p.item ∧
    (exportDict p ents icons scheds).lookup "label" = (if p.label = .none then none else some p.label) ∧
    (exportDict p ents icons scheds).lookup "label_color" = p.labelColor.map Color.toJson ∧
    (exportDict p ents icons scheds).lookup "entities" = (if ents = [] then none else some (.list ents)) ∧
    (exportDict p ents icons scheds).lookup "tiles" =
      (if p.tiles = [] then none else some (.list (p.tiles.map Tile.toJson))) ∧
    (exportDict p ents icons scheds).lookup "icons" = some (.list icons) ∧
    (exportDict p ents icons scheds).lookup "version" = some p.version ∧
    (exportDict p ents icons scheds).lookup "schedules" =
      (if scheds = [] then none else some (.list scheds)) ∧
    (exportDict p ents icons scheds).lookup "blueprint" = none := by
  unfold exportDict
  simp only [List.cons_append, List.lookup_cons, List.lookup_append, lookup_objSet, lookup_layerJson, lookup_labelColor, List.lookup_nil]
  refine ⟨?_, ?_, ?_, ?_, ?_, ?_, ?_, ?_, ?_⟩ <;> simp

end Verif
