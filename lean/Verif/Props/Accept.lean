import Verif.Proofs.Accept
import Verif.Props.DataWires
/-!
# An import is accepted exactly if each of its parts is (C85)
-/
set_option autoImplicit false

namespace Verif
open Spec

/-- C85: the data are imported into an empty blueprint exactly if each of their parts is good. -/
theorem C85_import {env : Env} {w : World} (h : Reachable env w) {b : BpId} (hb : (w.bp b).objs = []) (data : Val) :
    (load b data w).1 = .ok () ↔ Acceptable w.env (fun kw => ∃ r, (layerMake b kw w).1 = .ok r) data := by
  -- the references of the `i`-th entry
  have key : ∀ (d : Dict) (col : Option Color) (ic : List (Option Val)) (ents : List Val) (es : List Entity),
      buildAll w.env (w.customOf (some b)) b ents = .ok es →
      ((∃ cs, (w.base b d col ic es).rawWires b = .ok cs ∧ ∀ c ∈ cs, c.joined) ↔
        ∀ v ∈ ents, ∀ kw, v = .dict kw → LinksOk ents kw) := by
    intro d col ic ents es hes
    obtain ⟨hlen, hget⟩ := buildAll_get hes
    have hmem : ∀ s, s ∈ ((w.base b d col ic es).bp b).objs ↔ ∃ i, i < es.length ∧ s = w.next + i := by
      intro s
      rw [base_mem w b d col ic es h.owned, hb]
      simp
    have hraw : ∀ i (hi : i < es.length) kw, ents[i]? = some (.dict kw) →
        ((w.base b d col ic es).heap (w.next + i)).raw = Dict.getD kw "connections" .none ∧
        NumberOf kw ((w.base b d col ic es).heap (w.next + i)).number := by
      intro i hi kw hkw
      obtain ⟨kw', hk, hne⟩ := hget i (by omega) hi
      rw [List.getElem?_eq_getElem (by omega), hk] at hkw
      cases hkw
      obtain ⟨-, p2, p3, -⟩ := SameButNumber.eqs (base_heap_new w b d col ic es hi)
      refine ⟨by rw [p3, Entity.new_raw hne], ?_⟩
      rw [p2]
      exact numberOf_iff.1 (Entity.new_number hne).1
    have hid : ∀ id, (∃ s ∈ ((w.base b d col ic es).bp b).objs, IdIs ((w.base b d col ic es).heap s).number id) ↔
        ∃ kw n, Val.dict kw ∈ ents ∧ NumberOf kw n ∧ IdIs n id := by
      intro id
      constructor
      · rintro ⟨s, hs, hi⟩
        obtain ⟨i, hi', rfl⟩ := (hmem s).1 hs
        obtain ⟨kw, hk, -⟩ := hget i (by omega) hi'
        have he : ents[i]? = some (.dict kw) := by rw [List.getElem?_eq_getElem (by omega), hk]
        exact ⟨kw, _, List.mem_of_getElem? he, (hraw i hi' kw he).2, hi⟩
      · rintro ⟨kw, n, hkw, hn, hi⟩
        obtain ⟨i, hi', hk⟩ := List.getElem_of_mem hkw
        have he : ents[i]? = some (.dict kw) := by rw [List.getElem?_eq_getElem hi', hk]
        refine ⟨w.next + i, (hmem _).2 ⟨i, by omega, rfl⟩, ?_⟩
        rw [NumberOf.inj (hraw i (by omega) kw he).2 hn]
        exact hi
    have hlinks : ∀ i (hi : i < es.length) kw, ents[i]? = some (.dict kw) →
        ((∃ cs, rawRefs (w.base b d col ic es) b (w.next + i) ((w.base b d col ic es).heap (w.next + i)).raw = .ok cs ∧
          ∀ c ∈ cs, c.joined) ↔ LinksOk ents kw) := by
      intro i hi kw hkw
      rw [(hraw i hi kw hkw).1, rawRefs_joined]
      unfold LinksOk RefOk
      simp only [refConn_joined, hid]
      unfold Dict.getD Dict.get?
      cases List.lookup "connections" kw with
      | none => simp
      | some raw => simp
    rw [rawWires_joined]
    constructor
    · intro hall v hv kw hkw
      subst hkw
      obtain ⟨i, hi', hk⟩ := List.getElem_of_mem hv
      have he : ents[i]? = some (.dict kw) := by rw [List.getElem?_eq_getElem hi', hk]
      exact (hlinks i (by omega) kw he).1 (hall _ ((hmem _).2 ⟨i, by omega, rfl⟩))
    · intro hall r hr
      obtain ⟨i, hi', rfl⟩ := (hmem r).1 hr
      obtain ⟨kw, hk, -⟩ := hget i (by omega) hi'
      have he : ents[i]? = some (.dict kw) := by rw [List.getElem?_eq_getElem (by omega), hk]
      exact (hlinks i hi' kw he).2 (hall _ (List.mem_of_getElem? he) kw rfl)
  constructor
  · intro hl
    obtain ⟨d, col, iv, ic, ev, es, cs, sv, scheds, h1, h2, h3, h4, h5, h6, h7, h8, h9, h10, h11, -⟩ :=
      (load_ok h.owned (w' := (load b data w).2)).1 (Prod.ext hl rfl)
    have hicons := (iconsAll_iff rfl).1 ⟨_, h4⟩
    have hents := buildAll_iff.1 ⟨_, h6⟩
    have hscheds : ∀ v ∈ sv, ScheduleOk v := fun v hv => scheduleOk_iff.1 (mapM_total h11 v hv)
    have hlinks := (key d col ic ev es h6).1 ⟨cs, h7, h8⟩
    refine ⟨d, iv, ev, sv, content_iff.1 h1, colorAfter_iff.1 ⟨_, h2⟩, (seriesAt_iff fun u hu => ?_).1 h3, hicons,
      (seriesAt_iff fun u hu => ?_).1 h5, fun v hv => ?_, (seriesAt_iff (by simp)).1 h9,
      (seriesAt_iff fun u hu => ?_).1 h10, hscheds⟩
    · obtain ⟨d, -, -, h, -⟩ := hicons u hu
      exact ⟨d, h⟩
    · obtain ⟨kw, h, -⟩ := hents u hu
      exact ⟨kw, h⟩
    · obtain ⟨kw, hk, he⟩ := hents v hv
      exact ⟨kw, hk, layerMake_iff.2 he, hlinks v hv kw hk⟩
    · obtain ⟨d, -, -, h, -⟩ := hscheds u hu
      exact ⟨d, h⟩
  · rintro ⟨d, iv, ev, sv, h1, h2, h3, h4, h5, h6, h7, h8, h9⟩
    obtain ⟨col, hcol⟩ := (colorAfter_iff (old := (w.bp b).labelColor)).2 h2
    obtain ⟨ic, hic⟩ := (iconsAll_iff (acc := [none, none, none, none]) rfl).2 h4
    obtain ⟨es, hes⟩ := (buildAll_iff (env := w.env) (custom := w.customOf (some b)) (b := b) (l := ev)).2 fun v hv => by
      obtain ⟨kw, hk, hm, -⟩ := h6 v hv
      exact ⟨kw, hk, layerMake_iff.1 hm⟩
    obtain ⟨cs, hcs, hj⟩ := (key d col ic ev es hes).2 fun v hv kw hk => by
      obtain ⟨kw', hk', -, hl⟩ := h6 v hv
      rw [hk'] at hk
      cases hk
      exact hl
    obtain ⟨scheds, hsch⟩ := mapM_iff.2 fun v hv => (scheduleOk_iff (w := w.base b d col ic es) (b := b)).2 (h9 v hv)
    have := (load_ok h.owned (b := b) (data := data)).2 ⟨d, col, iv, ic, ev, es, cs, sv, scheds, content_iff.2 h1, hcol,
      (seriesAt_iff fun u hu => by
        obtain ⟨d, -, -, h, -⟩ := h4 u hu
        exact ⟨d, h⟩).2 h3, hic,
      (seriesAt_iff fun u hu => by
        obtain ⟨kw, h, -⟩ := h6 u hu
        exact ⟨kw, h⟩).2 h5, hes, hcs, hj, (seriesAt_iff (by simp)).2 h7,
      (seriesAt_iff fun u hu => by
        obtain ⟨d, -, -, h, -⟩ := h9 u hu
        exact ⟨d, h⟩).2 h8, hsch, rfl⟩
    rw [this]

/-- C85 for exchange strings: a blueprint is made from a string exactly if the string holds nothing or data whose parts
are good. -/
theorem C85_string {rt : Runtime} {env : Env} {w : World} (h : Reachable env w) {b : BpId} (hb : w.bp b = {}) {s : String}
    (given : Val) (custom : Option Custom) (strict : Bool) :
    (construct rt b (some s) given custom strict w).1 = .ok () ↔
      ∃ data, decode rt s = .ok data ∧ (data = .none ∨ Acceptable w.env
        (fun kw => ∃ r, (layerMake b kw (w.setBp b { custom := custom.getD [], strict := strict })).1 = .ok r) data) := by
  have hr : Reachable env (w.setBp b { custom := custom.getD [], strict := strict }) := by
    have h := Reachable.step (.setCustom b (custom.getD [])) (Reachable.step (.setStrict b strict) h trivial) trivial
    have e : ((Op.setCustom b (custom.getD [])).run ((Op.setStrict b strict).run w).2).2 =
        (w.setBp b { w.bp b with strict := strict }).setBp b
          { (w.setBp b { w.bp b with strict := strict }).bp b with custom := custom.getD [] } := rfl
    rw [e, setBp_bp_self, hb, setBp_setBp] at h
    exact h
  have hc : construct rt b (some s) given custom strict w =
      (match decode rt s with
      | .ok data => loadGiven b data (w.setBp b { custom := custom.getD [], strict := strict })
      | .error e => (.error e, w.setBp b { custom := custom.getD [], strict := strict })) := by
    unfold construct ctorData
    dsimp only
    cases decode rt s <;> rfl
  rw [hc]
  cases decode rt s with
  | error e => simp
  | ok data =>
    simp only [Except.ok.injEq, exists_eq_left']
    by_cases hn : data = .none
    · subst hn
      exact ⟨fun _ => .inl rfl, fun _ => rfl⟩
    · have : loadGiven b data = load b data := by
        unfold loadGiven
        split
        · exact absurd rfl hn
        · rfl
      rw [this, C85_import hr (by rw [setBp_bp_self]) data]
      exact ⟨.inr, fun h => h.resolve_left hn⟩

/-- The parts of the sample are good. -/
example : Acceptable Sample.env (fun kw => ∃ r, (layerMake 0 kw (World.init Sample.env)).1 = .ok r) Sample.data :=
  (C85_import .init rfl _).1 (by decide +kernel)

/-- An icon with the signal 5 in the slot -3 is good, and so is an empty text in the place of the schedules. -/
example : (load 0 (.dict [("icons", .list [.dict [("signal", .int 5), ("index", .int (-3))]]), ("schedules", .str "")])
    (World.init Sample.env)).1 = .ok () :=
  (C85_import .init rfl _).2 ⟨_, _, [], [], .bare _ rfl, by simp [List.lookup], .inr ⟨_, rfl, .inl rfl⟩,
    by
      intro v hv
      cases List.mem_singleton.1 hv
      exact ⟨_, _, _, rfl, rfl, .inl ⟨5, rfl⟩, rfl, .inl ⟨-3, rfl, by decide, by decide⟩⟩,
    .inl ⟨rfl, rfl⟩, by simp, .inl ⟨rfl, rfl⟩, .inr ⟨_, rfl, .inr ⟨rfl, .inl rfl⟩⟩, by simp⟩

/-- A reference to an entity that is not in the data makes them unacceptable, and so does a tile. -/
example : ¬ Acceptable Sample.env (fun kw => ∃ r, (layerMake 0 kw (World.init Sample.env)).1 = .ok r)
    (.dict [("entities", .list [.dict [("name", .str "belt"), ("position", Sample.pos 1 2), ("entity_number", .int 1),
      ("connections", .dict [("1", .dict [("red", .list [.dict [("entity_id", .int 2)]])])])]])]) ∧
    ¬ Acceptable Sample.env (fun kw => ∃ r, (layerMake 0 kw (World.init Sample.env)).1 = .ok r)
    (.dict [("tiles", .list [.dict [("name", .str "concrete"), ("position", Sample.pos 1 2)]])]) :=
  ⟨fun h => absurd ((C85_import .init rfl _).2 h) (by decide +kernel),
    fun h => absurd ((C85_import .init rfl _).2 h) (by decide +kernel)⟩

end Verif
