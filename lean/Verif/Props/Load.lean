import Verif.Proofs.Data
import Verif.Props.Sample
/-!
# Properties C13 (load), C18, C29: loading entities and wires
-/
set_option autoImplicit false

namespace Verif
open Spec

/-! ## C13 Entities are kept in reading order and numbered 1..n — after `load` -/

/-- After a successful load the blueprint lists its old entities and one new entity object per entry of
the data, in reading order; at the same point the old ones come first, then the new ones as in the
data; all are numbered from one. -/
theorem C13_load {env : Env} {w w' : World} (h : Reachable env w) {b : BpId} {data : Val} {d : Dict}
    {l : List Val} (hd : Content data d) (hl : ListAt d "entities" l)
    (hw : load b data w = (.ok (), w')) :
    w'.next = w.next + l.length ∧ InOrder w' b ((w.bp b).objs ++ List.range' w.next l.length) := by
  obtain ⟨d', col, iv, ic, ev, es, cs, sv, scheds, h1, h2, h3, h4, h5, h6, h7, h8, h9, h10, h11, rfl⟩ :=
    (load_ok h.owned).1 hw
  cases Content.unique (content_iff.1 h1) hd
  rw [listAt_iter hl] at h5
  cases h5
  rw [← (buildAll_get h6).1]
  refine ⟨base_next w b _ col ic es, ?_⟩
  have := base_inOrder w b d col ic es h.owned
  refine ⟨?_, ?_, fun p => ?_, fun i hi => ?_⟩
  · rw [setBp_bp_self]; exact this.same
  · rw [setBp_bp_self]; exact this.sorted
  · rw [setBp_bp_self]; exact this.stable p
  · simp only [setBp_bp_self] at hi ⊢
    exact this.numbered i hi

example : ∃ d, Content Sample.data d ∧ ListAt d "entities" [Sample.decData, Sample.ariData, Sample.locoData] ∧
    (load 0 Sample.data (World.init Sample.env)).1 = .ok () ∧
    (Sample.loaded.bp 0).objs = [1, 0, 2] :=
  ⟨_, .wrapped _ _ rfl, .inl rfl, by decide +kernel, by decide +kernel⟩

/-! ## C18 The order of entities in the imported data does not matter -/

/-- Two descriptions that differ only in the order of their entities: if the first loads and no two
entities of the blueprint are at the same point then, the second loads as well and gives the same
entities with the same numbers and settings, and the same wires, schedules and attributes. -/
theorem C18_permutation {env : Env} {w w' : World} (h : Reachable env w) {b : BpId} {data data' : Val}
    {d d' : Dict} {l l' : List Val} (hd : Content data d) (hd' : Content data' d')
    (hl : ListAt d "entities" l) (hl' : ListAt d' "entities" l') (hp : l.Perm l')
    (hrest : ∀ k, k ≠ "entities" → List.lookup k d' = List.lookup k d)
    (hw : load b data w = (.ok (), w'))
    (hpos : (w'.bp b).objs.Pairwise (fun r s => ¬ SamePos (w'.heap r).pos (w'.heap s).pos)) :
    ∃ w'', load b data' w = (.ok (), w'') ∧ view w'' b = view w' b := by
  obtain ⟨e, col, iv, ic, ev, es, cs, sv, ss, h1, h2, h3, h4, h5, h6, h7, h8, h9, h10, h11, hv⟩ :=
    (load_view h.owned (view w' b)).1 ⟨w', hw, rfl⟩
  cases Content.unique (content_iff.1 h1) hd
  rw [listAt_iter hl] at h5
  cases h5
  have hent : (view w' b).entities = (w.base b d col ic es).vals b := by rw [hv]
  obtain ⟨es', he', hpe⟩ := buildAll_perm hp h6
  have hvals := base_vals_eq h.owned b d d' col ic hpe (by
    rw [← hent]
    show ((w'.bp b).objs.map w'.heap).Pairwise _
    rw [List.pairwise_map]
    exact hpos)
  have hg : ∀ k v, k ≠ "entities" → Dict.getD d' k v = Dict.getD d k v := by
    intro k v hk
    unfold Dict.getD Dict.get?
    rw [hrest k hk]
  refine (load_view h.owned (view w' b)).2
    ⟨d', col, iv, ic, l', es', cs, sv, ss, content_iff.2 hd', ?_, ?_, h4, listAt_iter hl', he', ?_, h8, ?_, ?_, ?_, ?_⟩
  · rw [hg _ _ (by decide)]; exact h2
  · rw [hg _ _ (by decide)]; exact h3
  · rw [← hvals]; exact h7
  · rw [hg _ _ (by decide)]; exact h9
  · rw [hg _ _ (by decide)]; exact h10
  · rw [← hvals]; exact h11
  · rw [hg _ _ (by decide), hg _ _ (by decide), hg _ _ (by decide), ← hvals]; exact hv

/-- The hypotheses are met by the sample data in another order. -/
example : ∃ (data' : Val) (d d' : Dict), Content Sample.data d ∧ Content data' d' ∧
    ListAt d "entities" [Sample.decData, Sample.ariData, Sample.locoData] ∧
    ListAt d' "entities" [Sample.ariData, Sample.decData, Sample.locoData] ∧
    (∀ k, k ≠ "entities" → List.lookup k d' = List.lookup k d) ∧
    (load 0 Sample.data (World.init Sample.env)).1 = .ok () ∧
    (Sample.loaded.bp 0).objs.Pairwise
      (fun r s => ¬ SamePos (Sample.loaded.heap r).pos (Sample.loaded.heap s).pos) := by
  refine ⟨.dict [("item", .str "blueprint"), ("label", .str "sample"), ("version", .int 5),
     ("icons", .list [.dict [("index", .int 2), ("signal", Sample.sig "iron" "item")]]),
     ("entities", .list [Sample.ariData, Sample.decData, Sample.locoData]),
     ("schedules", .list [.dict [("locomotives", .list [.int 12]), ("schedule", .list [])]])],
    _, _, .wrapped _ _ rfl, .bare _ rfl, .inl rfl, .inl rfl, ?_, by decide +kernel, by decide +kernel⟩
  intro k hk
  have : (k == "entities") = false := by simpa using hk
  simp only [List.lookup_cons, this]

/-! ## C29 Importing wires -/

/-- After a successful load every reference in the connection data of an entity resolves to an entity
of the blueprint. -/
theorem C29_resolved {env : Env} {w w' : World} (h : Reachable env w) {b : BpId} {data : Val}
    (hw : load b data w = (.ok (), w')) {a : Ref} (ha : a ∈ (w'.bp b).objs) {side color : String} {v : Val}
    (hv : Listed (w'.heap a).raw side color v) :
    ∃ c id s sa sb, v = .dict c ∧ List.lookup "entity_id" c = some id ∧
      FirstWithId w' (w'.bp b).objs id s ∧ Whole (.str side) sa ∧ Whole (refSide c) sb := by
  obtain ⟨d, col, iv, ic, ev, es, cs, sv, scheds, h1, h2, h3, h4, h5, h6, h7, h8, h9, h10, h11, rfl⟩ :=
    (load_ok h.owned).1 hw
  rw [setBp_bp_self] at ha ⊢
  have h7' := h7
  unfold World.rawWires at h7'
  simp only [bind_eq_ok, pure_eq_ok, Except.ok.injEq] at h7'
  obtain ⟨css, hcss, rfl⟩ := h7'
  obtain ⟨x, hx⟩ := mapM_total hcss a ha
  obtain ⟨cn, hcn, hr⟩ := (mem_rawRefs hx).2 side color v hv
  obtain ⟨c, id, sa, sb, rfl, hid, hsa, hsb, rfl⟩ := refConn_iff.1 hr
  have hj := h8 _ (List.mem_flatten.2 ⟨x, (mem_mapM_except hcss x).2 ⟨a, ha, hx⟩, hcn⟩)
  obtain ⟨s, hs⟩ := Option.ne_none_iff_exists'.1 hj.2
  exact ⟨c, id, s, sa, sb, rfl, hid, getById_some.1 hs, hsa, hsb⟩

/-- After a successful load the recorded wires are exactly the references in the connection data:
every reference has its wire, every wire comes from a reference, and no two wires join the same end
points with the same colour. -/
theorem C29_wires {env : Env} {w w' : World} (h : Reachable env w) {b : BpId} {data : Val}
    (hw : load b data w = (.ok (), w')) :
    (∀ a ∈ (w'.bp b).objs, ∀ sa s sb color, Refers w' b a sa s sb color →
      ∃ c ∈ (w'.bp b).conns, Joins c a sa s sb color) ∧
    (∀ c ∈ (w'.bp b).conns, ∃ a ∈ (w'.bp b).objs, ∃ sa s sb color,
      Refers w' b a sa s sb color ∧ Joins c a sa s sb color) ∧
    (w'.bp b).conns.Pairwise (fun c c' => ∀ a sa s sb color,
      ¬ (Joins c a sa s sb color ∧ Joins c' a sa s sb color)) := by
  have hres := fun a ha side color v hv => C29_resolved h hw (a := a) ha (side := side) (color := color) (v := v) hv
  obtain ⟨d, col, iv, ic, ev, es, cs, sv, scheds, h1, h2, h3, h4, h5, h6, h7, h8, h9, h10, h11, rfl⟩ :=
    (load_ok h.owned).1 hw
  have h7' := h7
  unfold World.rawWires at h7'
  simp only [bind_eq_ok, pure_eq_ok, Except.ok.injEq] at h7'
  obtain ⟨css, hcss, rfl⟩ := h7'
  unfold Refers
  rw [setBp_bp_self]
  refine ⟨?_, ?_, ?_⟩
  · rintro a ha sa s sb color ⟨side, c, id, hl, hid, hf, hsa, hsb⟩
    obtain ⟨x, hx⟩ := mapM_total hcss a ha
    obtain ⟨cn, hcn, hr⟩ := (mem_rawRefs hx).2 side color _ hl
    have hr' : refConn (w.base b d col ic es) b a side color (.dict c) =
        .ok ⟨some a, some s, sa, sb, color⟩ := by
      rw [refConn_iff]
      exact ⟨c, id, sa, sb, rfl, hid, hsa, hsb, by rw [getById_some.2 hf]⟩
    rw [hr] at hr'
    cases hr'
    obtain ⟨c', hc', hs'⟩ := foldl_addConn_has css.flatten [] _
      (List.mem_flatten.2 ⟨x, (mem_mapM_except hcss x).2 ⟨a, ha, hx⟩, hcn⟩)
    exact ⟨_, List.mem_map.2 ⟨c', hc', rfl⟩,
      joins_of_sameWire ((SameWire.orientTo _ c').trans hs')⟩
  · intro cn hcn
    obtain ⟨c', hc', rfl⟩ := List.mem_map.1 hcn
    rcases mem_foldl_addConn hc' with hc' | hc'
    · cases hc'
    obtain ⟨x, hx, hcx⟩ := List.mem_flatten.1 hc'
    obtain ⟨a, ha, hra⟩ := (mem_mapM_except hcss x).1 hx
    obtain ⟨side, color, v, hl, hr⟩ := (mem_rawRefs hra).1 c' hcx
    obtain ⟨c, id, s, sa, sb, rfl, hid, hf, hsa, hsb⟩ := hres a (by rw [setBp_bp_self]; exact ha) side color v hl
    rw [setBp_bp_self] at hf
    refine ⟨a, ha, sa, s, sb, color, ⟨side, c, id, hl, hid, hf, hsa, hsb⟩, ?_⟩
    have hr' : refConn (w.base b d col ic es) b a side color (.dict c) =
        .ok ⟨some a, some s, sa, sb, color⟩ := by
      rw [refConn_iff]
      exact ⟨c, id, sa, sb, rfl, hid, hsa, hsb, by rw [getById_some.2 hf]⟩
    rw [hr] at hr'
    cases hr'
    exact joins_of_sameWire (SameWire.orientTo _ _)
  · rw [List.pairwise_map]
    refine (foldl_addConn_distinct (l := css.flatten) (cs := []) .nil).imp ?_
    intro c c' hn a sa s sb color ⟨hj, hj'⟩
    exact hn ((SameWire.orientTo _ c).symm.trans ((sameWire_of_joins hj hj').trans (SameWire.orientTo _ c')))

/-- A reference to an id that no entity of the data and no entity of the blueprint has makes the load
fail. -/
theorem C29_dangling {env : Env} {w : World} (h : Reachable env w) {b : BpId} {data : Val} {d : Dict}
    {l : List Val} (hd : Content data d) (hl : ListAt d "entities" l)
    {kw raw c : Dict} {side color : String} {id : Val} (hkw : Val.dict kw ∈ l)
    (hraw : List.lookup "connections" kw = some (.dict raw)) (href : Listed (.dict raw) side color (.dict c))
    (hid : List.lookup "entity_id" c = some id)
    (hnew : ∀ kw', Val.dict kw' ∈ l → ∀ n, NumberOf kw' n → ¬ IdIs n id)
    (hold : ∀ r ∈ (w.bp b).objs, ¬ IdIs (w.heap r).number id) :
    ∀ w', load b data w ≠ (.ok (), w') := by
  intro w' hw
  have hres := fun a ha side color v hv => C29_resolved h hw (a := a) ha (side := side) (color := color) (v := v) hv
  obtain ⟨d', col, iv, ic, ev, es, cs, sv, scheds, h1, h2, h3, h4, h5, h6, h7, h8, h9, h10, h11, rfl⟩ :=
    (load_ok h.owned).1 hw
  cases Content.unique (content_iff.1 h1) hd
  rw [listAt_iter hl] at h5
  cases h5
  obtain ⟨hlen, hget⟩ := buildAll_get h6
  obtain ⟨i, hi, hli⟩ := List.getElem_of_mem hkw
  have hi' : i < es.length := by rw [hlen]; exact hi
  obtain ⟨kw', hk, hne⟩ := hget i hi hi'
  rw [hli] at hk
  cases hk
  have hraw' : ((w.base b d col ic es).heap (w.next + i)).raw = .dict raw := by
    rw [(SameButNumber.eqs (base_heap_new w b d col ic es hi')).2.2.1, Entity.new_raw hne]
    unfold Dict.getD Dict.get?
    rw [hraw]
    rfl
  have hmem := (base_mem w b d col ic es h.owned).2 (.inr ⟨i, hi', rfl⟩)
  obtain ⟨c', id', s, sa, sb, hc, hid', hf, -⟩ := hres (w.next + i) (by rw [setBp_bp_self]; exact hmem)
    side color (.dict c) (by
      show Listed ((w.base b d col ic es).heap (w.next + i)).raw side color _
      rw [hraw']
      exact href)
  cases hc
  rw [hid] at hid'
  cases hid'
  rw [setBp_bp_self] at hf
  obtain ⟨before, after, ho, hs, -⟩ := hf
  have hsm : s ∈ ((w.base b d col ic es).bp b).objs := by
    show s ∈ _
    rw [show ((w.base b d col ic es).bp b).objs = before ++ s :: after from ho]
    simp
  have hs' : IdIs ((w.base b d col ic es).heap s).number id := hs
  rcases (base_mem w b d col ic es h.owned).1 hsm with hsm | ⟨j, hj, rfl⟩
  · rw [(SameButNumber.eqs (base_heap_old w b d col ic es (h.owned.exist b s hsm))).2.1] at hs'
    exact hold s hsm hs'
  · rw [(SameButNumber.eqs (base_heap_new w b d col ic es hj)).2.1] at hs'
    have hj' : j < l.length := by rw [← hlen]; exact hj
    obtain ⟨kw', hk, hne⟩ := hget j hj' hj
    refine hnew kw' (by rw [← hk]; exact List.getElem_mem hj') _ (numberOf_iff.1 (Entity.new_number hne).1) hs'

/-- The sample has a wire between the two combinators, recorded although only one of them mentions it. -/
example : (load 0 Sample.data (World.init Sample.env)).1 = .ok () ∧
    (Sample.loaded.bp 0).conns = [⟨some 0, some 1, 1, 2, "red"⟩] ∧
    Listed (Sample.loaded.heap 0).raw "1" "red" (.dict [("entity_id", .int 9), ("circuit_id", .int 2)]) :=
  ⟨by decide +kernel, by decide +kernel, _, _, _, by decide +kernel, List.mem_singleton.2 rfl,
    List.mem_singleton.2 rfl, List.mem_singleton.2 rfl⟩

/-- Data with a dangling reference. -/
example : ∃ (data : Val) (d : Dict) (l : List Val) (kw raw c : Dict) (side color : String) (id : Val),
    Content data d ∧ ListAt d "entities" l ∧ Val.dict kw ∈ l ∧
    List.lookup "connections" kw = some (.dict raw) ∧ Listed (.dict raw) side color (.dict c) ∧
    List.lookup "entity_id" c = some id ∧
    (∀ kw', Val.dict kw' ∈ l → ∀ n, NumberOf kw' n → ¬ IdIs n id) := by
  refine ⟨.dict [("entities", .list [Sample.decData])], _, _, _, _, _, _, _, _, .bare _ rfl, .inl rfl,
    List.mem_singleton.2 rfl, rfl, ⟨_, _, _, rfl, List.mem_singleton.2 rfl,
    List.mem_singleton.2 rfl, List.mem_singleton.2 rfl⟩, rfl, ?_⟩
  intro kw' hk n hn hi
  simp only [List.mem_singleton, Sample.decData, Val.dict.injEq] at hk
  subst hk
  cases hn with
  | absent h => exact absurd h (by decide)
  | null h => exact absurd h (by decide)
  | given z h =>
    have : z = 7 := by simpa [List.lookup, eq_comm] using h
    subst this
    cases hi with
    | num _ _ h => exact absurd h (by decide)

end Verif
