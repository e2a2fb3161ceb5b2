import Verif.Proofs.Rename
import Verif.Proofs.WireExport
import Verif.Proofs.Gatherer
import Verif.Spec.Prototypes
import Verif.Props.Tables
import Verif.Props.Sample
import Mathlib.Tactic.FinCases
/-!
# Properties C44, C48: prototypes, their classes, and the data gatherer
-/
set_option autoImplicit false

namespace Verif
open Spec

/-! ## C44 Every supported prototype composes into a usable class -/

/-- Every row of the table makes a class, whose behaviours are consulted in the order of the row, each before
what it derives from; and so are the control behaviours. -/
theorem C44_builds {t : String} {ms : List Mx} (h : prototypeMixins t = some ms) (n : Nat) :
    ∃ k, Klass.extend n Klass.entity ms = .ok k ∧ k.chain = rowOrder ms ∧
      k.cbChain = (rowOrder ms).filter (·.hasInner) := by
  have key : ∀ p ∈ entityPrototypes, ((Klass.extend 0 Klass.entity p.2).toOption.any fun k =>
      decide (k.chain = rowOrder p.2) && decide (k.cbChain = (rowOrder p.2).filter (·.hasInner)) &&
      decide (k.mro.head? = some (.dyn 0)) && decide (k.cb.head? = some (.made (.dyn 0)))) = true := by
    decide +kernel
  have hm : (t, ms) ∈ entityPrototypes := mem_of_lookup h
  have := key _ hm
  rw [Klass.extend_number n 0]
  cases hk : Klass.extend 0 Klass.entity ms with
  | error e => rw [hk] at this; cases this
  | ok k =>
    rw [hk] at this
    simp only [Except.toOption, Option.any_some, Bool.and_eq_true, decide_eq_true_eq] at this
    obtain ⟨⟨⟨h1, h2⟩, h3⟩, h4⟩ := this
    refine ⟨_, rfl, ?_, ?_⟩
    · rw [← h1]
      unfold Klass.chain
      cases hm : k.mro with
      | nil => rw [hm] at h3; cases h3
      | cons c l => rw [hm] at h3; cases h3; dsimp only; rw [hm]; rfl
    · rw [← h2]
      unfold Klass.cbChain
      cases hm : k.cb with
      | nil => rw [hm] at h4; cases h4
      | cons c l => rw [hm] at h4; cases h4; dsimp only; rw [hm]; rfl

example : ∃ ms, prototypeMixins "inserter" = some ms ∧
    rowOrder ms = [.CircuitCondition, .FilterInserter, .Inserter, .Rotatable] := ⟨_, rfl, by decide +kernel⟩

/-- With any mixins, also custom ones: if the class can be made, each of them is consulted exactly once, in
the order given, and before what it derives from. -/
theorem C44_order {n : Nat} {ms : List Mx} {k : Klass} (h : Klass.extend n Klass.entity ms = .ok k) :
    ms.Sublist k.chain ∧ k.chain.Nodup ∧
      ∀ m ∈ k.chain, ∀ p, m.parent = some p → [m, p].Sublist k.chain := by
  have hf := Klass.extend_fits h (Klass.entity_fresh n)
  have hk := Klass.extend_ok h Klass.entity_ok
  refine ⟨?_, hk.1, fun m hm p hp => hk.parent hm hp⟩
  obtain ⟨c, t, e, hsub⟩ := hf.heads
  have := (hsub.cons c).filterMap (fun c : Cls => match c with | .mx m => some m | _ => none)
  rw [List.filterMap_map, ← e] at this
  have hid : ms.filterMap ((fun c : Cls => match c with | .mx m => some m | _ => none) ∘ Cls.mx) = ms := by
    rw [show ((fun c : Cls => match c with | .mx m => some m | _ => none) ∘ Cls.mx) = some from rfl]
    exact List.filterMap_some
  rw [hid] at this
  exact this

example : ∃ k, Klass.extend 0 Klass.entity [.Container, .Requester] = .ok k := by
  cases h : Klass.extend 0 Klass.entity [.Container, .Requester] with
  | ok k => exact ⟨k, rfl⟩
  | error e => exact absurd h (by intro h; have : (Klass.extend 0 Klass.entity [.Container, .Requester]).toOption.isSome = true := by decide +kernel
                                  rw [h] at this; cases this)

/-- Some lists of mixins cannot be combined: a class before one that derives from it. -/
theorem C44_conflict (n : Nat) : Klass.extend n Klass.entity [.CircuitCondition, .Lamp] = .error .typeError := by
  rw [Klass.extend_number n 0]
  have : Klass.extend 0 Klass.entity [.CircuitCondition, .Lamp] = .error .typeError := by decide +kernel
  rw [this]
  rfl

/-- Renaming an entity any number of times to names of the type of the name it was given last: every
assignment succeeds, nothing but its name and its class object changes, the behaviours are the same, and all
entities export as before but for the name. -/
theorem C44_rename {env : Env} {w w1 : World} (h : Reachable env w) {r : Ref} {s : String}
    (h1 : entSetName r (.str s) w = (.ok (), w1)) (names : List String) (hs : ∀ n ∈ names, SameType w.env n s) :
    ∃ w2, M.forEach (fun n => entSetName r (.str n)) names w1 = (.ok (), w2) ∧
      (w2.heap r).name = names.getLast?.getD s ∧
      w2.heap r = { w1.heap r with name := (w2.heap r).name, klass := (w2.heap r).klass, depth := (w2.heap r).depth } ∧
      (w2.heap r).klass.chain = (w1.heap r).klass.chain ∧ (w2.heap r).klass.cbChain = (w1.heap r).klass.cbChain ∧
      w2.env = w1.env ∧ w2.bp = w1.bp ∧ (∀ q, q ≠ r → w2.heap q = w1.heap q) ∧
      (∀ v, (entToJson r w1).1 = .ok v → ∃ u, (entToJson r w2).1 = .ok u ∧ SameButName (w2.heap r).name v u) ∧
      ∀ q, q ≠ r → (entToJson q w2).1 = (entToJson q w1).1 := by
  obtain ⟨henv, hname, hfit⟩ := entSetName_fits h h1
  obtain ⟨w2, g1, g2, g3, g4, g5⟩ := rename_all names (w1 := w1) (by rw [henv]; exact hs) hname hfit
  refine ⟨w2, g1, g2, g3.ent r, (g3.klass r).1, (g3.klass r).2.1, g3.env, g3.bp, g5, ?_, ?_⟩
  · exact fun v hv => g3.sameButName hv
  · exact fun q hq => g3.entToJson_same (by rw [g5 q hq])

example : ∀ n ∈ ["fast-belt", "belt", "fast-belt"], SameType Sample.env n "belt" := by
  intro n hn
  fin_cases hn <;> exact ⟨_, _, _, rfl, rfl, rfl, rfl⟩

example : (entSetName 1 (.str "belt") Sample.belts).1 = .ok () ∧ Reachable Sample.env Sample.belts :=
  ⟨by decide +kernel, Sample.belts_reachable⟩

example : ((entSetName 1 (.str "belt") >>= fun _ =>
      M.forEach (fun n => entSetName 1 (.str n)) ["fast-belt", "belt", "fast-belt"] >>= fun _ =>
      entToJson 1) Sample.belts).1 = (entToJson 1 Sample.belts).1.map (fun v => match v with
    | .dict d => .dict (Dict.set d "name" (.str "fast-belt"))
    | v => v) := by decide +kernel

/-- The same directly after the entity was made. -/
theorem C44_rename_new {w w1 : World} {l : Option BpId} {kw : Dict} {r : Ref}
    (h1 : newEntity l kw w = (.ok r, w1)) (names : List String)
    (hs : ∀ n ∈ names, SameType w.env n (w1.heap r).name) :
    ∃ w2, M.forEach (fun n => entSetName r (.str n)) names w1 = (.ok (), w2) ∧
      (w2.heap r).name = names.getLast?.getD (w1.heap r).name ∧
      w2.heap r = { w1.heap r with name := (w2.heap r).name, klass := (w2.heap r).klass, depth := (w2.heap r).depth } ∧
      (w2.heap r).klass.chain = (w1.heap r).klass.chain ∧ (w2.heap r).klass.cbChain = (w1.heap r).klass.cbChain ∧
      (∀ v, (entToJson r w1).1 = .ok v → ∃ u, (entToJson r w2).1 = .ok u ∧ SameButName (w2.heap r).name v u) := by
  obtain ⟨henv, hfit⟩ := newEntity_fits h1
  obtain ⟨w2, g1, g2, g3, g4, g5⟩ := rename_all names (w1 := w1) (by rw [henv]; exact hs) rfl hfit
  exact ⟨w2, g1, g2, g3.ent r, (g3.klass r).1, (g3.klass r).2.1, fun v hv => g3.sameButName hv⟩

/-! ## C48 Everything the data gatherer collects is supported by the library -/

/-- The two tables list the same types. -/
theorem C48_table (t : String) : t ∈ gathererTypes ↔ ∃ ms, prototypeMixins t = some ms := by
  have h1 : ∀ t ∈ gathererTypes, (prototypeMixins t).isSome = true := by decide +kernel
  have h2 : ∀ p ∈ entityPrototypes, p.1 ∈ gathererTypes := by decide +kernel
  refine ⟨fun h => Option.isSome_iff_exists.1 (h1 t h), fun ⟨ms, h⟩ => h2 (t, ms) (mem_of_lookup h)⟩

/-- A name in the entity table whose type has a row can be given to a new entity. -/
theorem C48_named {env : Env} {name t : String} {data : Val} {ms : List Mx}
    (hd' : List.lookup name env.entities = some data) (hsub : data.subscript "type" = .ok (.str t))
    (hms : prototypeMixins t = some ms) {e : Entity} (he : e.klass = Klass.entity) :
    ∃ e', e.setName env none (.str name) = (.ok (), e') ∧ e'.name = name ∧
      (e.strict = true → e'.klass.chain = rowOrder ms) := by
  cases hs : e.strict with
  | false => exact ⟨_, Entity.setName_lax hs, rfl, fun h => by cases h⟩
  | true =>
    obtain ⟨k, hk, hc, -⟩ := C44_builds hms e.depth
    refine ⟨{ e with name := name, klass := k, depth := e.depth + 1 }, ?_, rfl, fun _ => hc⟩
    unfold Entity.setName
    rw [if_neg (by rw [hs]; decide)]
    dsimp only
    rw [show Dict.get? env.entities name = _ from hd']
    dsimp only
    rw [hsub]
    dsimp only
    unfold mixinsFor
    dsimp only
    rw [hms]
    dsimp only
    rw [he, show ((none : Option Custom).getD []).lookup t = none from rfl]
    dsimp only [Option.getD_none, List.nil_append]
    rw [hk]

/-- Whatever the game contains: the gathered data can be imported, and then every name in the entity table has
a type with a row, and can be given to a new entity. -/
theorem C48_gathered (g : Game) (w : World) : ∃ w', importProtos (.dict (gatherData g)) false w = (.ok (), w') ∧
    ∀ name data, List.lookup name w'.env.entities = some data →
      ∃ t ms, data.subscript "type" = .ok (.str t) ∧ prototypeMixins t = some ms ∧
        ∀ e : Entity, e.klass = Klass.entity → ∃ e', e.setName w'.env none (.str name) = (.ok (), e') ∧
          e'.name = name ∧ (e.strict = true → e'.klass.chain = rowOrder ms) := by
  let tab : Table → Dict := fun t => match t with
    | .entity => gatherPrototypes g.entity (some gathererTypes) entityFields
    | .recipe => gatherPrototypes g.recipe none recipeFields
    | .item => gatherPrototypes g.item none itemFields
    | .signal => gatherSignalData g
    | .tile => gatherPrototypes g.tile none tileFields
  obtain ⟨w', h1, -, -, -, h2⟩ := C37_import (gatherData g) false tab (by intro t; cases t <;> rfl) w
  have h3 : w'.env.entities = gatherPrototypes g.entity (some gathererTypes) entityFields := h2 .entity
  refine ⟨w', h1, ?_⟩
  intro name data hd
  have hd' := hd
  rw [h3] at hd
  obtain ⟨p, -, hg, rfl⟩ := gatherPrototypes_sound hd
  obtain ⟨t, ht, hm⟩ := gathers_some.1 hg
  obtain ⟨ms, hms⟩ := (C48_table t).1 hm
  have hsub : (Val.dict (gatherFields entityFields p)).subscript "type" = .ok (.str t) := by
    refine lookup_getItem.2 ?_
    rw [lookup_gatherFields, if_pos (by decide), ht]
  refine ⟨t, ms, hsub, hms, ?_⟩
  exact fun e he => C48_named hd' hsub hms he

/-- The other way round: a placeable of the game whose type has a row is gathered, with its type. -/
theorem C48_complete (g : Game) (hg : (g.entity.map (·.1)).Nodup) {name t : String} {p : GameProto}
    (hp : (name, p) ∈ g.entity) (ht : List.lookup "type" p.attrs = some (.str t)) {ms : List Mx}
    (hms : prototypeMixins t = some ms) (w : World) :
    ∃ w' data, importProtos (.dict (gatherData g)) false w = (.ok (), w') ∧
      List.lookup name w'.env.entities = some data ∧ data.subscript "type" = .ok (.str t) := by
  let tab : Table → Dict := fun t => match t with
    | .entity => gatherPrototypes g.entity (some gathererTypes) entityFields
    | .recipe => gatherPrototypes g.recipe none recipeFields
    | .item => gatherPrototypes g.item none itemFields
    | .signal => gatherSignalData g
    | .tile => gatherPrototypes g.tile none tileFields
  obtain ⟨w', h1, -, -, -, h2⟩ := C37_import (gatherData g) false tab (by intro t; cases t <;> rfl) w
  have h3 : w'.env.entities = gatherPrototypes g.entity (some gathererTypes) entityFields := h2 .entity
  refine ⟨w', .dict (gatherFields entityFields p), h1, ?_, ?_⟩
  · rw [h3]
    exact gatherPrototypes_complete hg hp (gathers_some.2 ⟨t, ht, (C48_table t).2 ⟨ms, hms⟩⟩)
  · refine lookup_getItem.2 ?_
    rw [lookup_gatherFields, if_pos (by decide)]
    exact ht

/-- … and with its selection box, so that the extent and the collisions of such entities are known. -/
theorem C48_boxes (g : Game) (hg : (g.entity.map (·.1)).Nodup) {name t : String} {p : GameProto}
    (hp : (name, p) ∈ g.entity) (ht : List.lookup "type" p.attrs = some (.str t)) {ms : List Mx}
    (hms : prototypeMixins t = some ms) {x0 y0 x1 y1 : Num} {lt rb box : Dict}
    (hb : List.lookup "selection_box" p.attrs = some (.dict box))
    (h1 : List.lookup "left_top" box = some (.dict lt)) (h2 : List.lookup "right_bottom" box = some (.dict rb))
    (hx0 : List.lookup "x" lt = some (.num x0)) (hy0 : List.lookup "y" lt = some (.num y0))
    (hx1 : List.lookup "x" rb = some (.num x1)) (hy1 : List.lookup "y" rb = some (.num y1)) (w : World) :
    ∃ w', importProtos (.dict (gatherData g)) false w = (.ok (), w') ∧ HasBox w'.env name x0 y0 x1 y1 := by
  let tab : Table → Dict := fun t => match t with
    | .entity => gatherPrototypes g.entity (some gathererTypes) entityFields
    | .recipe => gatherPrototypes g.recipe none recipeFields
    | .item => gatherPrototypes g.item none itemFields
    | .signal => gatherSignalData g
    | .tile => gatherPrototypes g.tile none tileFields
  obtain ⟨w', e1, -, -, -, e2⟩ := C37_import (gatherData g) false tab (by intro t; cases t <;> rfl) w
  have e3 : w'.env.entities = gatherPrototypes g.entity (some gathererTypes) entityFields := e2 .entity
  refine ⟨w', e1, gatherFields entityFields p, box, lt, rb, ?_, ?_, h1, h2, hx0, hy0, hx1, hy1⟩
  · rw [e3]
    exact gatherPrototypes_complete hg hp (gathers_some.2 ⟨t, ht, (C48_table t).2 ⟨ms, hms⟩⟩)
  · rw [lookup_gatherFields, if_pos (by decide)]
    exact hb

/-- Every prototype of the game - of the entities, every one whose type has a row - has an entry after the import, with
exactly the attributes to be gathered that the prototype has. -/
theorem C48_fields (g : Game) (t : Table) (hg : ((prototypesOf g t).map (·.1)).Nodup) {name : String} {p : GameProto}
    (hp : (name, p) ∈ prototypesOf g t)
    (ht : t = .entity → ∃ ty ms, List.lookup "type" p.attrs = some (.str ty) ∧ prototypeMixins ty = some ms) (w : World) :
    ∃ w' d, importProtos (.dict (gatherData g)) false w = (.ok (), w') ∧
      List.lookup name (w'.env.table t) = some (.dict d) ∧
      ∀ k, List.lookup k d = if k ∈ gathered t then List.lookup k p.attrs else none := by
  let tab : Table → Dict := fun t => match t with
    | .entity => gatherPrototypes g.entity (some gathererTypes) entityFields
    | .recipe => gatherPrototypes g.recipe none recipeFields
    | .item => gatherPrototypes g.item none itemFields
    | .signal => gatherSignalData g
    | .tile => gatherPrototypes g.tile none tileFields
  obtain ⟨w', h1, -, -, -, h2⟩ := C37_import (gatherData g) false tab (by intro t; cases t <;> rfl) w
  have h3 : w'.env.table t = tab t := h2 t
  have all : ∀ p : GameProto, Gathers none p := fun _ => rfl
  cases t with
  | signal => cases hp
  | entity =>
    obtain ⟨ty, ms, h4, h5⟩ := ht rfl
    exact ⟨w', _, h1, by rw [h3]; exact gatherPrototypes_complete hg hp (gathers_some.2 ⟨ty, h4, (C48_table ty).2 ⟨ms, h5⟩⟩),
      lookup_gatherFields entityFields p⟩
  | recipe => exact ⟨w', _, h1, by rw [h3]; exact gatherPrototypes_complete hg hp (all p), lookup_gatherFields recipeFields p⟩
  | item => exact ⟨w', _, h1, by rw [h3]; exact gatherPrototypes_complete hg hp (all p), lookup_gatherFields itemFields p⟩
  | tile => exact ⟨w', _, h1, by rw [h3]; exact gatherPrototypes_complete hg hp (all p), lookup_gatherFields tileFields p⟩

example : ∃ w' d, importProtos (.dict (gatherData { tile := [("stone", ⟨[("can_be_part_of_blueprint", .bool true), ("order", .str "z")],
      false⟩)] })) false (World.init Sample.env) = (.ok (), w') ∧ List.lookup "stone" (w'.env.table .tile) = some (.dict d) ∧
    ∀ k, List.lookup k d = if k ∈ gathered .tile then
      List.lookup k [("can_be_part_of_blueprint", .bool true), ("order", .str "z")] else none :=
  C48_fields { tile := [("stone", ⟨[("can_be_part_of_blueprint", .bool true), ("order", .str "z")], false⟩)] } .tile
    (by decide) (List.mem_singleton.2 rfl) (fun h => by cases h) _

/-- Every gathered signal carries its own name and one of the three kinds of signals. -/
theorem C48_signals (g : Game) (w : World) : ∃ w', importProtos (.dict (gatherData g)) false w = (.ok (), w') ∧
    ∀ name data, List.lookup name w'.env.signals = some data →
      ∃ kind ∈ ["virtual", "fluid", "item"], data = .dict [("name", .str name), ("type", .str kind)] := by
  let tab : Table → Dict := fun t => match t with
    | .entity => gatherPrototypes g.entity (some gathererTypes) entityFields
    | .recipe => gatherPrototypes g.recipe none recipeFields
    | .item => gatherPrototypes g.item none itemFields
    | .signal => gatherSignalData g
    | .tile => gatherPrototypes g.tile none tileFields
  obtain ⟨w', h1, -, -, -, h2⟩ := C37_import (gatherData g) false tab (by intro t; cases t <;> rfl) w
  have h3 : w'.env.signals = gatherSignalData g := h2 .signal
  refine ⟨w', h1, ?_⟩
  intro name data hd
  rw [h3] at hd
  rcases gatherSignals_sound _ _ _ hd with hd | hd
  · rcases gatherSignals_sound _ _ _ hd with hd | hd
    · rcases gatherSignals_sound _ _ _ hd with hd | hd
      · cases hd
      · exact ⟨_, by decide, hd⟩
    · exact ⟨_, by decide, hd⟩
  · exact ⟨_, by decide, hd⟩

open Classical in
/-- The signals after the import are those of the game, each with its kind. -/
theorem C48_signal_kinds (g : Game) (w : World) : ∃ w', importProtos (.dict (gatherData g)) false w = (.ok (), w') ∧
    ∀ name data, List.lookup name w'.env.signals = some data ↔
      ∃ kind, SignalKind g name kind ∧ data = .dict [("name", .str name), ("type", .str kind)] := by
  let tab : Table → Dict := fun t => match t with
    | .entity => gatherPrototypes g.entity (some gathererTypes) entityFields
    | .recipe => gatherPrototypes g.recipe none recipeFields
    | .item => gatherPrototypes g.item none itemFields
    | .signal => gatherSignalData g
    | .tile => gatherPrototypes g.tile none tileFields
  obtain ⟨w', h1, -, -, -, h2⟩ := C37_import (gatherData g) false tab (by intro t; cases t <;> rfl) w
  have h3 : w'.env.signals = gatherSignalData g := h2 .signal
  refine ⟨w', h1, ?_⟩
  intro name data
  rw [h3]
  unfold gatherSignalData
  dsimp only
  rw [lookup_gatherSignals]
  by_cases hi : Shown g.item name
  · rw [if_pos hi]
    constructor
    · intro e; cases e; exact ⟨_, .item hi, rfl⟩
    · rintro ⟨kind, hk, rfl⟩
      cases hk with
      | item => rfl
      | fluid h => exact absurd hi h
      | «virtual» h => exact absurd hi h
  · rw [if_neg hi, lookup_gatherSignals]
    by_cases hf : Shown g.fluid name
    · rw [if_pos hf]
      constructor
      · intro e; cases e; exact ⟨_, .fluid hi hf, rfl⟩
      · rintro ⟨kind, hk, rfl⟩
        cases hk with
        | item h => exact absurd h hi
        | fluid => rfl
        | «virtual» _ h => exact absurd hf h
    · rw [if_neg hf, lookup_gatherSignals]
      have hv : Shown (g.virtual.map (fun (p : String × GameProto) => (p.1, { p.2 with hidden := false }))) name ↔ name ∈ g.virtual.map (·.1) := by
        constructor
        · rintro ⟨p, hp, -⟩
          obtain ⟨q, hq, e⟩ := List.mem_map.1 hp
          cases e
          exact List.mem_map.2 ⟨q, hq, rfl⟩
        · intro h
          obtain ⟨q, hq, rfl⟩ := List.mem_map.1 h
          exact ⟨_, List.mem_map.2 ⟨q, hq, rfl⟩, rfl⟩
      by_cases hn : name ∈ g.virtual.map (·.1)
      · rw [if_pos (hv.2 hn)]
        constructor
        · intro e; cases e; exact ⟨_, .virtual hi hf hn, rfl⟩
        · rintro ⟨kind, hk, rfl⟩
          cases hk with
          | item h => exact absurd h hi
          | fluid _ h => exact absurd h hf
          | «virtual» => rfl
      · rw [if_neg (fun h => hn (hv.1 h))]
        constructor
        · intro e; cases e
        · rintro ⟨kind, hk, rfl⟩
          cases hk with
          | item h => exact absurd h hi
          | fluid _ h => exact absurd h hf
          | «virtual» _ _ h => exact absurd h hn

/-- A hidden virtual signal is a signal all the same. -/
example : SignalKind { virtual := [("signal-A", ⟨[], true⟩)] } "signal-A" "virtual" :=
  .virtual (by rintro ⟨p, hp, -⟩; cases hp) (by rintro ⟨p, hp, -⟩; cases hp) (by decide)

/-- A game with two placeables, one of which has a type the gatherer does not collect. -/
def Sample.game : Game :=
  { entity := [("belt", ⟨[("name", .str "belt"), ("type", .str "transport-belt")], false⟩),
               ("tree", ⟨[("name", .str "tree"), ("type", .str "tree")], false⟩)]
    fluid := [("water", ⟨[], false⟩), ("dark", ⟨[], true⟩)] }

example : gatherData Sample.game =
    [("entity", .dict [("belt", .dict [("name", .str "belt"), ("type", .str "transport-belt")])]),
     ("recipe", .dict []), ("signal", .dict [("water", .dict [("name", .str "water"), ("type", .str "fluid")])]),
     ("item", .dict []), ("tile", .dict [])] := rfl

/-- The box of a gathered entity. -/
example : ∃ w', importProtos (.dict (gatherData { entity := [("belt", ⟨[("type", .str "transport-belt"),
      ("selection_box", Sample.box (-1/2) (-1/2) (1/2) (1/2))], false⟩)] })) false (World.init Sample.env) = (.ok (), w') ∧
    HasBox w'.env "belt" (.flt (-1/2)) (.flt (-1/2)) (.flt (1/2)) (.flt (1/2)) :=
  C48_boxes _ (by decide) (List.mem_singleton.2 rfl) rfl (ms := [.Rotatable, .TransportBelt, .CircuitCondition]) rfl
    rfl rfl rfl rfl rfl rfl rfl _

example : (Sample.game.entity.map (·.1)).Nodup ∧ prototypeMixins "transport-belt" ≠ none := by decide +kernel

end Verif
