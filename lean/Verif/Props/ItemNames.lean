import Verif.Proofs.Unread
import Verif.Proofs.ItemNames
import Verif.Proofs.Residue
import Verif.Props.Assign
import Verif.Props.Types
/-!
# Property C66: names of items in settings are checked against the imported prototype data

False of the code.  The imported table of items is never read, and the names of items in settings are checked against
a table that is part of the library.  Items that the game has, and that the imported data lists, are refused if they
are missing from that table, and names of tiles and signals in it are taken as items.
-/
set_option autoImplicit false

namespace Verif
open Spec

/-- C66 is false of the code: no sequence of calls can tell which table of items was imported. -/
theorem C66_unused (ops : List Op) (w : World) (d : Dict) :
    ∃ d', history ops (withItems w d) = ((history ops w).1, withItems (history ops w).2 d') := by
  induction ops generalizing w d with
  | nil => exact ⟨d, rfl⟩
  | cons op ops ih =>
    obtain ⟨d1, h1⟩ := Unread.run op w d
    obtain ⟨d2, h2⟩ := ih (op.run w).2 d1
    refine ⟨d2, ?_⟩
    unfold history
    rw [h1, h2]

/-- … and the exported data is the same. -/
theorem C66_unused_export (w : World) (d : Dict) (b : BpId) : (toJson b (withItems w d)).1 = (toJson b w).1 := by
  obtain ⟨d', h⟩ := Unread.toJson b w d
  rw [h]

/-- The static table of names stays what it is. -/
theorem C66_static {env : Env} {w : World} (h : Reachable env w) : w.env.defaults = env.defaults := by
  induction h with
  | init => rfl
  | step op _ hr ih => rw [op.defaults hr, ih]

private theorem assign_known {w w' : World} (hd : w.env.defaults = defaultTable) {r : Ref} {k s : String} {v : Val}
    (h : (Op.setAttr r k v).run w = (.ok (), w')) (hn : NamesItem k v s) : s ∈ defaultNames.map (·.1) := by
  refine (nameStr_iff hd).1 ?_
  rw [run_setAttr] at h
  injection h with h1 h2
  unfold Entity.setAttr at h1
  split at h1
  · cases h1
  · split at h1
    · exact mxAssign_names hn h1
    · cases h1

/-- C66: a setting that names an item is accepted only if the item is in the static table, whatever was imported. -/
theorem C66_assign {env : Env} {w w' : World} (hw : Reachable env w) (hd : env.defaults = defaultTable) {r : Ref}
    {k s : String} {v : Val} (h : (Op.setAttr r k v).run w = (.ok (), w')) (hn : NamesItem k v s) :
    s ∈ defaultNames.map (·.1) :=
  assign_known ((C66_static hw).trans hd) h hn

/-- The same for the constructor. -/
theorem C66_make {env : Env} {w w' : World} (hw : Reachable env w) (hd : env.defaults = defaultTable) {b : BpId}
    {kw : Dict} {r : Ref} {k s : String} {v : Val} (h : layerMake b kw w = (.ok r, w'))
    (hv : List.lookup k kw = some v) (hn : NamesItem k v s) : s ∈ defaultNames.map (·.1) := by
  rcases C32_entity h (k := k) (by rw [hv]; simp) with he | ⟨m, hm, hk⟩
  · exact absurd he hn.settings
  · have hset : Dict.set kw k v = kw := set_same hv
    rcases like_make v h hm hk (given_not_behind h hk hv) with ⟨w₁, h1, h2⟩ | ⟨x, w₁, h1, h2⟩
    · rw [hset, h] at h2
      cases h2
      refine assign_known ?_ h1 hn
      rw [layerMake_env h, C66_static hw, hd]
    · rw [hset, h] at h2
      cases h2

/-- The same for imported blueprints: an import that names an item that is not in the static table fails. -/
theorem C66_import {env : Env} {w : World} (hw : Reachable env w) (hd : env.defaults = defaultTable) {b : BpId}
    {data : Val} {d kw : Dict} {l : List Val} (hdata : Content data d)
    (hl : ListAt d "entities" l) (hkw : Val.dict kw ∈ l) {k s : String} {v : Val}
    (hv : List.lookup k kw = some v) (hn : NamesItem k v s) (hsd : s ∉ defaultNames.map (·.1)) (w' : World) :
    load b data w ≠ (.ok (), w') := by
  intro h
  obtain ⟨kw', r, w'', he, hm⟩ := C65_import_makes hw hdata hl h hkw
  cases he
  exact hsd (C66_make hw hd hm hv hn)

/-- Items of the game, listed in the prototype data that comes with the library, that the static table lacks. -/
def newItems : List String :=
  ["automation-science-pack", "logistic-science-pack", "chemical-science-pack", "utility-science-pack", "nuclear-fuel",
   "artillery-shell", "artillery-turret", "artillery-wagon", "cliff-explosives"]

/-- C66 is false of the code: whatever was imported, no filter and no request can name one of these items. -/
theorem C66_missing_false {env : Env} {w w' : World} (hw : Reachable env w) (hd : env.defaults = defaultTable) {r : Ref}
    {k s : String} {v : Val} (hs : s ∈ newItems) (hn : NamesItem k v s) :
    (Op.setAttr r k v).run w ≠ (.ok (), w') := by
  intro h
  have hm := C66_assign hw hd h hn
  have : ∀ s ∈ newItems, s ∉ defaultNames.map (·.1) := by decide +kernel
  exact this s hs hm

/-- C66 is false of the code: whatever was imported, all names of the static table can be the filter of a splitter:
those of items the game does not have any more, and those of tiles and signals. -/
theorem C66_accepts {env : Env} {w : World} (hw : Reachable env w) (hd : env.defaults = defaultTable) {r : Ref}
    (hm : Mx.Splitter ∈ (w.heap r).klass.chain) {s : String} (hs : s ∈ defaultNames.map (·.1)) :
    ((Op.setAttr r "filter" (.str s)).run w).1 = .ok () := by
  obtain ⟨x, hx⟩ := (nameStr_iff ((C66_static hw).trans hd)).2 hs
  rw [run_setAttr]
  unfold Entity.setAttr
  have hhas : (w.heap r).klass.has .Splitter = true := by
    unfold Klass.has
    simpa using Klass.mem_chain.1 hm
  rw [show attrOwner "filter" = some .Splitter from rfl]
  dsimp only
  rw [if_pos hhas]
  show (setOne "filter" (nameStr w.env (.str s))).1 = _
  rw [hx]
  rfl

/-- Such names: an item of earlier versions, a tile, a signal and a fluid. -/
example : ∀ s ∈ ["science-pack-1", "stone-path", "signal-red", "water"], s ∈ defaultNames.map (·.1) := by decide +kernel

namespace Sample

/-- A world with the static table of the library, which knows one entity, called `it`, of the given type. -/
def shopWith (t : String) : World :=
  World.init { env with
    entities := [("it", proto t (box (-1) (-1/2) 1 (1/2)))]
    items := [("automation-science-pack", .dict []), ("concrete", .dict [])]
    signals := [("concrete", .dict [("type", .str "item")])]
    defaults := defaultTable }

/-- A speaker whose alert shows the item `s`. -/
def alarm (s : String) : Dict :=
  [("name", .str "it"), ("position", pos 0 0),
   ("alert_parameters", .dict [("show_alert", .bool true), ("show_on_map", .bool true), ("alert_message", .str "help"),
      ("icon_signal_id", sig s "item")])]

/-- Does the alert of the entity show the signal `v` in the export? -/
def shows (x : Except Exc Ref × World) (v : Val) : Bool :=
  match x with
  | (.ok r, w) =>
    match (entToJson r w).1 with
    | .ok (.dict o) =>
      match List.lookup "alert_parameters" o with
      | some (.dict a) => decide (List.lookup "icon_signal_id" a = some v)
      | _ => false
    | _ => false
  | _ => false

end Sample

/-- C66 is false of the code: the type of a name is that of the static table as well.  The icon of an alert that shows
the item `concrete` is exported as a tile, although the imported data has it as an item. -/
theorem C66_type_false : ∃ w b kw r w' o a,
    List.lookup "concrete" w.env.signals = some (.dict [("type", .str "item")]) ∧
    NamesItem "alert_parameters" (Dict.getD kw "alert_parameters" .none) "concrete" ∧ layerMake b kw w = (.ok r, w') ∧
    (entToJson r w').1 = .ok (.dict o) ∧ List.lookup "alert_parameters" o = some (.dict a) ∧
    List.lookup "icon_signal_id" a = some (Sample.sig "concrete" "tile") := by
  have h : Sample.shows (layerMake 0 (Sample.alarm "concrete") (Sample.shopWith "programmable-speaker"))
      (Sample.sig "concrete" "tile") = true := by decide +kernel
  unfold Sample.shows at h
  split at h
  · next r w' hm =>
    split at h
    · next o ho =>
      split at h
      · next a ha =>
        refine ⟨_, _, _, r, w', o, a, rfl, ?_, hm, ho, ha, of_decide_eq_true h⟩
        exact .alert (icon := [("name", .str "concrete"), ("type", .str "item")]) rfl rfl
      · cases h
    · cases h
  · cases h

namespace Sample

/-- The hypotheses of C66 hold of an imported splitter, and the item with a new name is refused. -/
def splitterOf (s : String) : Dict := [("name", .str "it"), ("position", pos 0 0), ("filter", .str s)]

def shopData (s : String) : Val := .dict [("blueprint", .dict [("entities", .list [.dict (splitterOf s)])])]

example : (shopWith "splitter").env.defaults = defaultTable ∧ ((shopWith "splitter").bp 0).custom = [] := ⟨rfl, rfl⟩

example : Reachable (shopWith "splitter").env (shopWith "splitter") := Reachable.init

example : (load 0 (shopData "iron-plate") (shopWith "splitter")).1 = .ok () := by decide +kernel

example : (load 0 (shopData "automation-science-pack") (shopWith "splitter")).1 = .error .unknownEntity := by
  decide +kernel

example : (load 0 (shopData "signal-red") (shopWith "splitter")).1 = .ok () := by decide +kernel

example : List.lookup "automation-science-pack" (shopWith "splitter").env.items = some (.dict []) := rfl

example : NamesItem "filter" (.str "iron-plate") "iron-plate" := .splitter _

example : (layerMake 0 (splitterOf "iron-plate") (shopWith "splitter")).1 = .ok 0 := by decide +kernel

example : Mx.Splitter ∈ (((layerMake 0 (splitterOf "iron-plate") (shopWith "splitter")).2).heap 0).klass.chain := by
  decide +kernel

example : ((Op.setAttr 0 "filter" (.str "water")).run
    (layerMake 0 (splitterOf "iron-plate") (shopWith "splitter")).2).1 = .ok () := by decide +kernel

example : NamesItem "request_filters" (.list [.dict [("index", .int 1), ("name", .str "coal"), ("count", .int 5)]]) "coal" :=
  .request (List.mem_singleton.2 rfl) ⟨_, rfl, rfl⟩

/-- Two histories with different tables of items. -/
example : (history [.make 0 (splitterOf "coal"), .toJson 0] (withItems (shopWith "splitter") [("coal", .dict [])])).1 =
    [.ok (), .ok ()] := by decide +kernel

end Sample
end Verif
