import Verif.Proofs.Load
import Mathlib.Data.List.Forall2
import Verif.Proofs.Dict
import Verif.Proofs.WireExport
import Verif.Props.Sample
import Verif.Spec.KeyOrder
/-!
# The order of keys in the imported data and unknown keys (C63)
-/
set_option autoImplicit false

namespace Verif
open Spec

private theorem same_get {d d' : Dict} (h : SameEntries d d') (k : String) : Dict.get? d k = Dict.get? d' k := h k

private theorem same_fun {d d' : Dict} (h : SameEntries d d') : Dict.get? d = Dict.get? d' := funext h

private theorem same_getD {d d' : Dict} (h : SameEntries d d') (k : String) (v : Val) : Dict.getD d k v = Dict.getD d' k v := by
  unfold Dict.getD; rw [same_get h]

private theorem same_getItem {d d' : Dict} (h : SameEntries d d') (k : String) : Dict.getItem d k = Dict.getItem d' k := by
  unfold Dict.getItem; rw [same_get h]

private theorem same_mem {d d' : Dict} (h : SameEntries d d') (k : String) : Dict.mem d k = Dict.mem d' k := by
  unfold Dict.mem; rw [same_get h]

private theorem same_erase {d d' : Dict} (h : SameEntries d d') (k : String) :
    SameEntries (Dict.erase d k) (Dict.erase d' k) := fun k' => by
  rw [lookup_erase, lookup_erase, h]

private theorem same_eraseKeys {d d' : Dict} (h : SameEntries d d') (ks : List String) :
    SameEntries (eraseKeys d ks) (eraseKeys d' ks) := fun k' => by
  rw [lookup_eraseKeys, lookup_eraseKeys, h]

private theorem same_set {d d' : Dict} (h : SameEntries d d') (k : String) (v : Val) :
    SameEntries (Dict.set d k v) (Dict.set d' k v) := fun k' => by
  rw [lookup_set, lookup_set, h]

private theorem nil_of_lookup {d : Dict} (h : ∀ k, List.lookup k d = none) : d = [] := by
  cases d with
  | nil => rfl
  | cons p d =>
    have := h p.1
    rw [List.lookup_cons_self] at this
    cases this

private theorem same_isEmpty {d d' : Dict} (h : SameEntries d d') : d.isEmpty = d'.isEmpty := by
  cases d with
  | nil => rw [nil_of_lookup (d := d') (fun k => (h k).symm)]
  | cons p d =>
    cases d' with
    | nil => have := nil_of_lookup h; cases this
    | cons _ _ => rfl

private theorem same_initChain {env : Env} {s sh : Bool} {x : Exc} (ms : List Mx) :
    ∀ {kw kw' : Dict} (_ : SameEntries kw kw') (args : Bool) (a : Attrs),
      initChain env s sh x ms args kw a = initChain env s sh x ms args kw' a := by
  induction ms with
  | nil =>
    intro kw kw' h args a
    unfold initChain
    rw [same_isEmpty h]
  | cons m ms ih =>
    intro kw kw' h args a
    unfold initChain
    rw [same_fun h]
    have he := same_eraseKeys h (mxKeys m)
    dsimp only
    rw [same_isEmpty he]
    split
    · rfl
    · split
      · rfl
      · exact ih he _ _

private theorem same_cbInit {env : Env} {ctx : CbCtx} (m : Mx) {kw kw' : Dict} (h : SameEntries kw kw') :
    (∃ x, cbInit env ctx m kw = .error x ∧ cbInit env ctx m kw' = .error x) ∨
    (∃ a k k', cbInit env ctx m kw = .ok (a, k) ∧ cbInit env ctx m kw' = .ok (a, k') ∧ SameEntries k k') := by
  have gen : (∃ x, (do let a ← cbRead env ctx m (Dict.get? kw); return (a, eraseKeys kw (cbKeys m)) : Except Exc (Attrs × Dict)) = .error x ∧
        (do let a ← cbRead env ctx m (Dict.get? kw'); return (a, eraseKeys kw' (cbKeys m)) : Except Exc (Attrs × Dict)) = .error x) ∨
      (∃ a k k', (do let a ← cbRead env ctx m (Dict.get? kw); return (a, eraseKeys kw (cbKeys m)) : Except Exc (Attrs × Dict)) = .ok (a, k) ∧
        (do let a ← cbRead env ctx m (Dict.get? kw'); return (a, eraseKeys kw' (cbKeys m)) : Except Exc (Attrs × Dict)) = .ok (a, k') ∧
        SameEntries k k') := by
    rw [same_fun h]
    cases cbRead env ctx m (Dict.get? kw') with
    | error x => exact .inl ⟨x, rfl, rfl⟩
    | ok a => exact .inr ⟨a, _, _, rfl, rfl, same_eraseKeys h _⟩
  have comb : (∃ x, combinatorInit env ctx kw = .error x ∧ combinatorInit env ctx kw' = .error x) ∨
      (∃ a k k', combinatorInit env ctx kw = .ok (a, k) ∧ combinatorInit env ctx kw' = .ok (a, k') ∧ SameEntries k k') := by
    unfold combinatorInit
    rw [same_getD h]
    cases (Dict.getD kw' ctx.field (.dict [])).asPopDict with
    | error x => exact .inl ⟨x, rfl, rfl⟩
    | ok cond =>
      simp only [ok_bind]
      cases combinatorBody env ctx cond with
      | mk r rest =>
        cases r with
        | error x => exact .inl ⟨x, rfl, rfl⟩
        | ok a =>
          refine .inr ⟨a, _, _, rfl, rfl, ?_⟩
          split
          · exact same_erase h _
          · exact same_set (same_erase h _) _ _
  have dec : (∃ x, deciderInit ctx kw = .error x ∧ deciderInit ctx kw' = .error x) ∨
      (∃ a k k', deciderInit ctx kw = .ok (a, k) ∧ deciderInit ctx kw' = .ok (a, k') ∧ SameEntries k k') := by
    unfold deciderInit
    rw [same_getItem h]
    cases Dict.getItem kw' ctx.field with
    | error x => exact .inl ⟨x, rfl, rfl⟩
    | ok v =>
      simp only [ok_bind]
      cases v.asPopDict with
      | error x => exact .inl ⟨x, rfl, rfl⟩
      | ok cond =>
        refine .inr ⟨_, _, _, rfl, rfl, ?_⟩
        split
        · exact same_erase h _
        · exact same_set (same_erase h _) _ _
  unfold cbInit
  cases m
  case Combinator => exact comb
  case Decider => exact dec
  all_goals exact gen

private theorem same_cbInitChain {env : Env} {ctx : CbCtx} {x : Exc} (ms : List Mx) :
    ∀ {kw kw' : Dict} (_ : SameEntries kw kw') (a : Attrs),
      cbInitChain env ctx x ms kw a = cbInitChain env ctx x ms kw' a := by
  induction ms with
  | nil =>
    intro kw kw' h a
    unfold cbInitChain
    rw [same_isEmpty h]
  | cons m ms ih =>
    intro kw kw' h a
    unfold cbInitChain
    rcases same_cbInit (env := env) (ctx := ctx) m h with ⟨y, h1, h2⟩ | ⟨c, k, k', h1, h2, h3⟩
    · rw [h1, h2]
    · rw [h1, h2]
      dsimp only
      split
      · rfl
      · exact ih h3 _

private theorem same_cb {env : Env} {x : Exc} {k : Klass} {d d' : Dict} (h : SameEntries d d') :
    Cb.new env x k (.dict d) = Cb.new env x k (.dict d') := by
  unfold Cb.new
  simp only [Val.kwargs, ok_bind]
  rw [same_mem h, same_mem h, same_cbInitChain _ h]

private theorem like_new {env : Env} {custom : Option Custom} {l : Option BpId} {kw kw' : Dict}
    (h : ∀ k, k ≠ "control_behavior" → List.lookup k kw = List.lookup k kw')
    (hc : List.lookup "control_behavior" kw = List.lookup "control_behavior" kw' ∨
      ∃ d d', List.lookup "control_behavior" kw = some (.dict d) ∧ List.lookup "control_behavior" kw' = some (.dict d') ∧
        SameEntries d d') : Entity.new env custom l kw = Entity.new env custom l kw' := by
  have hg : ∀ k, k ≠ "control_behavior" → Dict.get? kw k = Dict.get? kw' k := h
  have hm : ∀ k, k ≠ "control_behavior" → Dict.mem kw k = Dict.mem kw' k := fun k hk => by
    unfold Dict.mem; rw [hg k hk]
  have hd : ∀ k v, k ≠ "control_behavior" → Dict.getD kw k v = Dict.getD kw' k v := fun k v hk => by
    unfold Dict.getD; rw [hg k hk]
  have hcb : ∀ e, Entity.cbOf env e kw = Entity.cbOf env e kw' := by
    intro e
    unfold Entity.cbOf Dict.get?
    rcases hc with hc | ⟨d, d', h1, h2, h3⟩
    · rw [hc]
    · rw [h1, h2]
      dsimp only
      rw [same_cb h3]
  have hf : ∀ e p, Entity.finish env e p kw = Entity.finish env e p kw' := by
    intro e p
    unfold Entity.finish
    rw [hd "direction" _ (by decide), hd "connections" _ (by decide), hcb,
      same_initChain (kw := eraseKeys kw (Entity.ownKeys ++ ["connections", "control_behavior"]))
        (kw' := eraseKeys kw' (Entity.ownKeys ++ ["connections", "control_behavior"])) _ ?_]
    intro k
    rw [lookup_eraseKeys, lookup_eraseKeys]
    split
    · rfl
    · rename_i hk
      exact h k (fun e => hk (by rw [e]; decide))
  unfold Entity.new
  rw [hm "self" (by decide), hm "blueprint_layer" (by decide), hg "name" (by decide), hg "position" (by decide),
    hd "entity_number" _ (by decide), hd "strict" _ (by decide)]
  simp only [hf]

/-- The keywords of an entity may come in any order, also those of its control behaviour: the same entity is made, or
the same exception is raised. -/
theorem C63_entity {l : Option BpId} {kw kw' : Dict} (w : World)
    (h : ∀ k, k ≠ "control_behavior" → List.lookup k kw = List.lookup k kw')
    (hc : List.lookup "control_behavior" kw = List.lookup "control_behavior" kw' ∨
      ∃ d d', List.lookup "control_behavior" kw = some (.dict d) ∧ List.lookup "control_behavior" kw' = some (.dict d') ∧
        SameEntries d d') : newEntity l kw w = newEntity l kw' w := by
  unfold newEntity
  rw [like_new h hc]

private theorem like_layerLoad {b : BpId} {v v' : Val} (h : LikeEntity v v') : layerLoad b v = layerLoad b v' := by
  rcases h with rfl | ⟨kw, kw', rfl, rfl, h, hc⟩
  · rfl
  · funext w
    unfold layerLoad
    rw [M.bind_eq, M.bind_eq, M.lift_eq, M.lift_eq]
    dsimp only [Val.kwargs]
    rw [M.bind_eq, M.bind_eq, C63_entity w h hc]

private theorem like_forEach {b : BpId} {l l' : List Val} (h : List.Forall₂ LikeEntity l l') :
    M.forEach (layerLoad b) l = M.forEach (layerLoad b) l' := by
  induction h with
  | nil => rfl
  | cons h _ ih =>
    unfold M.forEach
    rw [like_layerLoad h, ih]

/-- The import depends only on the known keys of the data, not on their order and not on other keys; nor does the order
of the keys of the entities matter. -/
theorem C63_known {b : BpId} {d d' : Dict} (w : World) (hb : List.lookup "blueprint" d = none) (hb' : List.lookup "blueprint" d' = none)
    (h : ∀ k ∈ knownKeys, k ≠ "entities" → List.lookup k d = List.lookup k d')
    (he : List.lookup "entities" d = List.lookup "entities" d' ∨ ∃ l l', List.lookup "entities" d = some (.list l) ∧
      List.lookup "entities" d' = some (.list l') ∧ List.Forall₂ LikeEntity l l') :
    load b (.dict d) w = load b (.dict d') w := by
  have hd : ∀ k ∈ knownKeys, k ≠ "entities" → ∀ v, Dict.getD d k v = Dict.getD d' k v := fun k hk hn v => by
    unfold Dict.getD Dict.get?; rw [h k hk hn]
  have hu : ∀ d : Dict, List.lookup "blueprint" d = none → unwrapData (.dict d) = .ok d := fun d hb => by
    unfold unwrapData Dict.get?
    simp only [hb]
  have hents : ∃ l l', (∀ k : List Val → M Unit, (M.lift (Dict.getD d "entities" (.list [])).iter >>= k) = (M.lift l >>= k)) ∧
      (∀ k : List Val → M Unit, (M.lift (Dict.getD d' "entities" (.list [])).iter >>= k) = (M.lift l' >>= k)) ∧
      ((l = l') ∨ ∃ m m', l = .ok m ∧ l' = .ok m' ∧ List.Forall₂ LikeEntity m m') := by
    refine ⟨_, _, fun _ => rfl, fun _ => rfl, ?_⟩
    unfold Dict.getD Dict.get?
    rcases he with he | ⟨l, l', h1, h2, h3⟩
    · rw [he]; exact .inl rfl
    · rw [h1, h2]; exact .inr ⟨l, l', rfl, rfl, h3⟩
  unfold load
  rw [hu d hb, hu d' hb']
  have e0 : ∀ (e : Dict) (k : Dict → M Unit), (M.lift (.ok e) >>= k) = k e := fun e k => rfl
  rw [e0, e0]
  simp only [hd "item" (by decide) (by decide), hd "label" (by decide) (by decide),
    hd "label_color" (by decide) (by decide), hd "version" (by decide) (by decide), hd "icons" (by decide) (by decide),
    hd "tiles" (by decide) (by decide), hd "schedules" (by decide) (by decide)]
  obtain ⟨l, l', h1, h2, h3⟩ := hents
  simp only [h1, h2]
  rcases h3 with rfl | ⟨m, m', rfl, rfl, h3⟩
  · rfl
  · have e1 : ∀ (e : List Val) (k : List Val → M Unit), (M.lift (.ok e) >>= k) = k e := fun e k => rfl
    simp only [e1, like_forEach h3]

/-- Data may be wrapped into an object with the key `blueprint`. -/
theorem C63_wrapped {b : BpId} {d d' : Dict} (w : World) (hb : List.lookup "blueprint" d = none)
    (h : List.lookup "blueprint" d' = some (.dict d)) : load b (.dict d') w = load b (.dict d) w := by
  have h1 : unwrapData (.dict d) = .ok d := by
    unfold unwrapData Dict.get?
    simp only [hb]
  have h2 : unwrapData (.dict d') = .ok d := by
    unfold unwrapData Dict.get?
    simp only [h]
    rfl
  unfold load
  rw [h1, h2]

/-- The export has no other keys: what the library does not know of the imported data is lost. -/
theorem C63_exported {b : BpId} {w w' : World} {v : Val} (h : toJson b w = (.ok v, w')) :
    ∃ o, v = .dict [("blueprint", .dict o)] ∧ (o.map Prod.fst).Nodup ∧ ∀ k ∈ o.map Prod.fst, k ∈ knownKeys := by
  unfold toJson at h
  rw [M.bind_get, M.bind_eq_ok] at h
  obtain ⟨ents, w1, -, h⟩ := h
  rw [M.bind_eq_ok] at h
  obtain ⟨icons, w2, -, h⟩ := h
  cases h
  refine ⟨_, rfl, ?_⟩
  have hl : ∀ k l, (layerJson k l).map Prod.fst = [] ∨ (layerJson k l).map Prod.fst = [k] := by
    intro k l
    unfold layerJson
    split
    · exact .inl rfl
    · exact .inr rfl
  have ho : ∀ k v, (objSet k v).map Prod.fst = [] ∨ (objSet k v).map Prod.fst = [k] := by
    intro k v
    cases v <;> first | exact .inl rfl | exact .inr rfl
  simp only [List.map_append, List.map_cons, List.map_nil]
  rcases ho "label" (w.bp b).label with e1 | e1 <;> rw [e1] <;>
  rcases hl "entities" ents with e2 | e2 <;> rw [e2] <;>
  rcases hl "tiles" ((w.bp b).tiles.map Tile.toJson) with e3 | e3 <;> rw [e3] <;>
  rcases hl "schedules" ((w.bp b).schedules.map (scheduleJson w.heap)) with e4 | e4 <;> rw [e4] <;>
  cases (w.bp b).labelColor <;> dsimp only [List.map] <;> constructor <;> decide

/-! ### Examples -/

/-- A belt whose data come in another order, also those of its control behaviour. -/
example : LikeEntity
    (.dict [("name", .str "belt"), ("position", Sample.pos 1 2), ("control_behavior",
      .dict [("circuit_enable_disable", .bool true), ("circuit_read_hand_contents", .bool false)])])
    (.dict [("control_behavior", .dict [("circuit_read_hand_contents", .bool false), ("circuit_enable_disable", .bool true)]),
      ("position", Sample.pos 1 2), ("name", .str "belt")]) := by
  refine .inr ⟨_, _, rfl, rfl, fun k hk => ?_, .inr ⟨_, _, rfl, rfl, fun k => ?_⟩⟩
  · simp only [lookup_cons_if]
    by_cases h1 : k = "name"
    · subst h1; rfl
    · rw [if_neg h1, if_neg hk, if_neg h1, if_neg hk]
  · simp only [lookup_cons_if]
    by_cases h1 : k = "circuit_enable_disable"
    · subst h1; rfl
    · rw [if_neg h1, if_neg h1]

example : (newEntity none [("name", .str "belt"), ("position", Sample.pos 1 2), ("control_behavior",
      .dict [("circuit_enable_disable", .bool true), ("circuit_read_hand_contents", .bool false)])]
    (World.init Sample.env)).1 = .ok 0 := by decide +kernel

/-- Blueprint data with a description and in another order are imported alike, and the description is lost. -/
example : load 0 (.dict [("description", .str "d"), ("version", .int 3), ("item", .str "blueprint")]) (World.init Sample.env) =
    load 0 (.dict [("item", .str "blueprint"), ("version", .int 3)]) (World.init Sample.env) := by
  refine C63_known _ rfl rfl ?_ (.inl rfl)
  decide

end Verif
