import Verif.Proofs.ShownCombi
import Verif.Proofs.ShownSlots
import Verif.Props.Sample
/-!
# What was given is what is exported (C83)

The forms in which settings are given are those of `Spec/Shown.lean`: the ones that the game writes.  Other forms are
accepted by the library too; they are exported in one of these forms, or not at all, see C03, C27, C52 and C57.
-/
set_option autoImplicit false

namespace Verif
open Spec

/-- C83 for a single entity: as long as it is not changed, its exported data say everything that was given when it was
made, and nothing else, in every world over the same prototype data. -/
theorem C83_entity {b : BpId} {kw d : Dict} {w w1 w2 w3 : World} {r : Ref} (hm : layerMake b kw w = (.ok r, w1))
    (henv : w2.env = w.env) (hsame : SameButNumber (w2.heap r) (w1.heap r)) (he : entToJson r w2 = (.ok (.dict d), w3)) :
    Shows w.env (w1.heap r).klass kw d := by
  obtain ⟨e, n, hn, hh⟩ := layerMake_new hm
  obtain ⟨o, d', hd, -, hem⟩ := entToJson_parts he
  cases hd
  obtain ⟨-, -, -, h4, h5, h6, h7, h8, h9⟩ := SameButNumber.eqs hsame
  rw [hh] at h4 h5 h6 h7 h8 h9 ⊢
  rw [henv] at hem
  exact new_shows (e := e) hn h6 h8 h4 h5 h7 hem

/-- The same for the settings under `control_behavior`, unless custom behaviours change those of the table. -/
theorem C83_control {b : BpId} {kw d : Dict} {w w1 w2 w3 : World} {r : Ref} (hm : layerMake b kw w = (.ok r, w1))
    (hc : OwnControls w.env (w1.heap r)) (henv : w2.env = w.env) (hsame : SameButNumber (w2.heap r) (w1.heap r))
    (he : entToJson r w2 = (.ok (.dict d), w3)) : ShowsControl w.env (w1.heap r).klass kw d := by
  obtain ⟨e, n, hn, hh⟩ := layerMake_new hm
  obtain ⟨o, d', hd, -, hem⟩ := entToJson_parts he
  cases hd
  obtain ⟨-, -, -, -, -, h6, -, -, h9⟩ := SameButNumber.eqs hsame
  rw [hh] at hc h6 h9 ⊢
  rw [henv] at hem
  exact new_showsControl (e := e) hn hc h6 h9 hem

/-- Without custom behaviours for its type, an entity has the control behaviours of the table. -/
theorem C83_own_controls {b : BpId} {kw : Dict} {w w1 : World} {r : Ref} (hm : layerMake b kw w = (.ok r, w1))
    (hc : NoCustom w.env (w.bp b) (w1.heap r).name) : OwnControls w.env (w1.heap r) := by
  obtain ⟨e, n, hn, hh⟩ := layerMake_new hm
  rw [hh] at hc ⊢
  exact new_ownControls (e := e) hn hc

/-- C83 for blueprints: an imported and exported blueprint has, beside the entities that were there before, one entity
for each entry of the imported list, and the exported data of this entity say what the entry said. -/
theorem C83_import {env : Env} {w w1 w2 : World} (h : Reachable env w) {b : BpId} {data v : Val} {d : Dict} {l : List Val}
    (hd : Content data d) (hl : ListAt d "entities" l) (hw : load b data w = (.ok (), w1))
    (he : toJson b w1 = (.ok v, w2)) :
    ∃ o out, Content v o ∧ ListAt o "entities" out ∧ out.length = (w.bp b).objs.length + l.length ∧
      ∃ place : Nat → Nat, (∀ i < l.length, ∀ j < l.length, place i = place j → i = j) ∧
        ∀ i < l.length, ∃ kw x e, l[i]? = some (.dict kw) ∧ out[place i]? = some (.dict x) ∧
          e = w.next + i ∧ (w1.bp b).objs[place i]? = some e ∧ Shows w.env (w1.heap e).klass kw x ∧
          (OwnControls w.env (w1.heap e) → ShowsControl w.env (w1.heap e).klass kw x) ∧
          (NoCustom w.env (w.bp b) (w1.heap e).name → OwnControls w.env (w1.heap e)) := by
  have how : Owned w1 := by
    have := (Reachable.step (.load b data) h trivial).owned
    have e : ((Op.load b data).run w).2 = w1 := by
      show (load b data w).2 = w1
      rw [hw]
    rw [e] at this
    exact this
  obtain ⟨ents, icons, -, rfl, hlen, hents⟩ := export_parts how he
  obtain ⟨d', col, iv, ic, ev, es, cs, sv, scheds, h1, h2, h3, h4, h5, h6, h7, h8, h9, h10, h11, rfl⟩ :=
    (load_ok h.owned).1 hw
  cases Content.unique (content_iff.1 h1) hd
  rw [listAt_iter hl] at h5
  cases h5
  obtain ⟨k1, k2⟩ := buildAll_get h6
  have hord := base_inOrder w b d col ic es h.owned
  have hnd := base_objs_nodup w b d col ic es h.owned
  generalize hobjs : ((w.base b d col ic es).bp b).objs = objs at *
  simp only [setBp_bp_self, hobjs] at hents hlen ⊢
  have hmem : ∀ i < l.length, w.next + i ∈ objs := fun i hi => by
    rw [← hobjs]
    exact (base_mem w b d col ic es h.owned).2 (.inr ⟨i, by omega, rfl⟩)
  refine ⟨_, ents, .wrapped _ _ rfl, ?_, ?_, fun i => objs.idxOf (w.next + i), fun i hi j hj hij => ?_, fun i hi => ?_⟩
  · rw [show ListAt _ "entities" ents ↔ _ from Iff.rfl]
    unfold ListAt
    rw [(export_lookup _ _ _ _).2.2.2.1]
    split
    · exact .inr ⟨rfl, by assumption⟩
    · exact .inl rfl
  · rw [hlen, ← hobjs, hord.same.length_eq, List.length_append, List.length_range', k1]
  · have := (List.idxOf_inj (hmem i hi)).1 hij
    exact Nat.add_left_cancel this
  · have hp := List.idxOf_lt_length_of_mem (hmem i hi)
    obtain ⟨kw, hkw, hnew⟩ := k2 i hi (by omega)
    obtain ⟨x, o, -, hx, hem, -⟩ := hents _ hp
    have hget : objs[objs.idxOf (w.next + i)] = w.next + i := List.getElem_idxOf hp
    rw [hget] at hem
    obtain ⟨-, -, -, p4, p5, p6, p7, p8, p9⟩ :=
      SameButNumber.eqs (base_heap_new w b d col ic es (i := i) (by omega))
    have pst : ((w.base b d col ic es).heap (w.next + i)).strict = es[i].strict := by
      have hsame := base_heap_new w b d col ic es (i := i) (by omega)
      unfold SameButNumber at hsame
      exact (Entity.mk.injEq .. ▸ hsame).1
    refine ⟨kw, x, w.next + i, by rw [List.getElem?_eq_getElem hi, hkw], hx, rfl, by rw [List.getElem?_eq_getElem hp, hget], ?_, fun hc => ?_, fun hc => ?_⟩
    · show Shows w.env ((w.base b d col ic es).heap (w.next + i)).klass kw x
      rw [p6]
      exact new_shows hnew p6 p8 p4 p5 p7 (by simpa using hem)
    · have hc : OwnControls w.env ((w.base b d col ic es).heap (w.next + i)) := hc
      show ShowsControl w.env ((w.base b d col ic es).heap (w.next + i)).klass kw x
      rw [p6]
      refine new_showsControl hnew (fun hs t ht => ?_) p6 p9 (by simpa using hem)
      have := hc (pst.trans hs) t (p7 ▸ ht)
      rwa [p6] at this
    · show OwnControls w.env ((w.base b d col ic es).heap (w.next + i))
      have hc : NoCustom w.env (w.bp b) ((w.base b d col ic es).heap (w.next + i)).name := hc
      rw [p7] at hc
      intro hs t ht
      rw [p6]
      exact new_ownControls hnew hc (pst.symm.trans hs) t (p7 ▸ ht)

/-- Every filter of an accepted list of filters with slots names its slot, by a value that can be a key: a list or an
object in its place is refused. -/
theorem C83_slots {b : BpId} {kw : Dict} {w w1 : World} {r : Ref} (hm : layerMake b kw w = (.ok r, w1)) {k : String} {v : Val}
    {l : List Val} (hk : List.lookup k kw = some v) (hs : SlotFilters k v l) {f : Val} (hf : f ∈ l) :
    ∃ d i, f = .dict d ∧ List.lookup "index" d = some i ∧ CanBeKey i := by
  obtain ⟨e, n, hn, -⟩ := layerMake_new hm
  exact new_slots hn hk hs hf

namespace Sample

def shownAsmKw : Dict :=
  [("name", .str "asm"), ("position", pos 1 2), ("recipe", .str "gear")]

def shownAccKw : Dict :=
  [("name", .str "acc"), ("position", pos 1 2), ("control_behavior", .dict [("output_signal", sig "A" "virtual")])]

def shownAsm : World := (layerMake 0 shownAsmKw (World.init env)).2
def shownAcc : World := (layerMake 0 shownAccKw (World.init env)).2

theorem shownAsm_made : layerMake 0 shownAsmKw (World.init env) = (.ok 0, shownAsm) := run_eq (by decide +kernel)
theorem shownAcc_made : layerMake 0 shownAccKw (World.init env) = (.ok 0, shownAcc) := run_eq (by decide +kernel)

end Sample

/-- The export of the assembling machine. -/
def Sample.shownAsmOut : Dict :=
  [("entity_number", .int 1), ("name", .str "asm"), ("position", pos 1 2), ("recipe", .str "gear")]

/-- The export of the accumulator. -/
def Sample.shownAccOut : Dict :=
  [("entity_number", .int 1), ("name", .str "acc"), ("position", pos 1 2),
    ("control_behavior", .dict [("output_signal", sig "A" "virtual")])]

example : (entToJson 0 Sample.shownAsm).1 = .ok (.dict Sample.shownAsmOut) ∧
    Shows Sample.env (Sample.shownAsm.heap 0).klass Sample.shownAsmKw Sample.shownAsmOut ∧
    List.lookup "recipe" Sample.shownAsmKw = some (.str "gear") ∧ GameForm Sample.env "recipe" (.str "gear") :=
  ⟨by decide +kernel, C83_entity Sample.shownAsm_made (w2 := Sample.shownAsm) rfl rfl (Sample.run_eq (by decide +kernel)), rfl,
    .recipe _ ⟨_, rfl⟩⟩

theorem Sample.sig_isSignal : IsSignal env (sig "A" "virtual") := by
  refine ⟨_, "A", .str "virtual", rfl, fun k hk => ?_, rfl, rfl, by decide, ⟨_, rfl, rfl⟩⟩
  by_contra! h
  refine hk ?_
  rw [List.lookup_cons, beq_eq_false_iff_ne.2 h.1]
  dsimp only
  rw [List.lookup_cons, beq_eq_false_iff_ne.2 h.2]
  rfl

example : (entToJson 0 Sample.shownAcc).1 = .ok (.dict Sample.shownAccOut) ∧
    ShowsControl Sample.env (Sample.shownAcc.heap 0).klass Sample.shownAccKw Sample.shownAccOut ∧
    .Accumulator ∈ (Sample.shownAcc.heap 0).klass.cbChain ∧
    ControlForm Sample.env .Accumulator "output_signal" (Sample.sig "A" "virtual") :=
  ⟨by decide +kernel, C83_control Sample.shownAcc_made (w2 := Sample.shownAcc) (C83_own_controls Sample.shownAcc_made (fun _ _ => rfl)) rfl rfl
    (Sample.run_eq (by decide +kernel)), by decide +kernel, .signal _ _ _ (by decide) Sample.sig_isSignal⟩

/-- A blueprint that gives accumulators a colour, and an accumulator in it. -/
def Sample.shownPainted : World :=
  (layerMake 0 shownAccKw ((Op.setCustom 0 [("accumulator", [.Color])]).run (World.init env)).2).2

example : (layerMake 0 Sample.shownAccKw ((Op.setCustom 0 [("accumulator", [.Color])]).run (World.init Sample.env)).2).1 =
      .ok 0 ∧ .Color ∈ (Sample.shownPainted.heap 0).klass.chain ∧
    TypeOf Sample.env (Sample.shownPainted.heap 0).name "accumulator" ∧ OwnControls Sample.env (Sample.shownPainted.heap 0) := by
  have ht : TypeOf Sample.env (Sample.shownPainted.heap 0).name "accumulator" := by
    rw [show (Sample.shownPainted.heap 0).name = "acc" by decide +kernel]
    exact ⟨_, rfl, rfl⟩
  refine ⟨by decide +kernel, by decide +kernel, ht, fun _ t ht' => ?_⟩
  obtain ⟨d, h1, h2⟩ := ht
  obtain ⟨d', h3, h4⟩ := ht'
  cases h1.symm.trans h3
  cases h2.symm.trans h4
  exact ⟨_, _, rfl, rfl, by decide +kernel, by decide +kernel⟩

example : ∃ d, Content Sample.data d ∧ ListAt d "entities" [Sample.decData, Sample.ariData, Sample.locoData] ∧
    (load 0 Sample.data (World.init Sample.env)).1 = .ok () ∧ ∃ v, (toJson 0 Sample.loaded).1 = .ok v :=
  ⟨_, .wrapped _ _ rfl, .inl rfl, by decide +kernel, _, Sample.loaded_out⟩

def Sample.slotEnv : Env :=
  { entities := [("chest", .dict [("type", .str "logistic-container")])],
    defaults := [("wooden-chest", .dict [("type", .str "item")])] }

/-- A chest that requests chests. -/
def Sample.slotKw (i : Val) : Dict :=
  ent "chest" 0 0 ++ [("request_filters", .list [.dict [("index", i), ("name", .str "wooden-chest"), ("count", .int 5)]])]

example : (layerMake 0 (Sample.slotKw (.int 1)) (World.init Sample.slotEnv)).1 = .ok 0 ∧
    SlotFilters "request_filters" (.list [.dict [("index", .int 1), ("name", .str "wooden-chest"), ("count", .int 5)]])
      [.dict [("index", .int 1), ("name", .str "wooden-chest"), ("count", .int 5)]] ∧
    (layerMake 0 (Sample.slotKw (.list [])) (World.init Sample.slotEnv)).1 = .error .typeError :=
  ⟨by decide +kernel, .request _, by decide +kernel⟩

end Verif
