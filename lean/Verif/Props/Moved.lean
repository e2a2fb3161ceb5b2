import Verif.Proofs.Moved
import Verif.Props.Rotation
import Verif.Props.Extent
import Verif.Props.Sorting
/-!
# Property C72: exports before and after entities are turned, moved or sorted
-/
set_option autoImplicit false

namespace Verif
open Spec

/-! ## C72 Turning, moving or sorting the entities changes the export accordingly and nothing else -/

/-- The exports before and after turning a blueprint: the same entities, each with its position, direction and
orientation turned, everything else as before; the numbers are new, consistently in the entities, the wires and the
schedules. -/
theorem C72_rotate {env : Env} {w w' w1 w2 : World} (h : Reachable env w) {b : BpId} {k : Int} {a : Option Operand}
    {c : Vec} (ha : a = none ∧ c = ⟨.int 0, .int 0⟩ ∨ ∃ o, a = some o ∧ o.parts = some (c.x, c.y))
    {d : Option DirArg} (hd : d = none ∨ d = some (.int Direction.CLOCKWISE))
    (hr : bpRotate b k a d w = (.ok (), w')) (hw : WellNumbered w b) {v v' : Val} {o o' : Dict}
    (he : toJson b w = (.ok v, w1)) (ho : Content v o) (he' : toJson b w' = (.ok v', w2)) (ho' : Content v' o') :
    SameExport w w' b (fun r => TurnedData (w.heap r).klass.chain k c.x.val c.y.val) o o' := by
  have h' : Reachable env w' := by
    have := Reachable.step (.rotate b k a d) h trivial
    rwa [show (Op.rotate b k a d).run w = (.ok (), w') from hr] at this
  obtain ⟨hio, hturn, -, -, hrest, henv, -⟩ := C19_meaning h ha hd hr
  exact sameExport h.owned h'.owned hio.same hrest henv hw he ho he' ho'
    (fun r hr c c' d d' hd hd' => emit_turned (h.klass r) (h.oriOk r) (hturn r hr) hd hd')

/-- If every wire joins two entities of the blueprint, turning does not make the export fail. -/
theorem C72_rotate_works {env : Env} {w w' w1 : World} (h : Reachable env w) {b : BpId} {k : Int} {a : Option Operand}
    {c : Vec} (ha : a = none ∧ c = ⟨.int 0, .int 0⟩ ∨ ∃ o, a = some o ∧ o.parts = some (c.x, c.y))
    {d : Option DirArg} (hd : d = none ∨ d = some (.int Direction.CLOCKWISE))
    (hr : bpRotate b k a d w = (.ok (), w'))
    (hw : ∀ c ∈ (w.bp b).conns, (∃ r ∈ (w.bp b).objs, c.fromE = some r) ∧ ∃ s ∈ (w.bp b).objs, c.toE = some s)
    {v : Val} (he : toJson b w = (.ok v, w1)) : ∃ v' w2, toJson b w' = (.ok v', w2) := by
  have h' : Reachable env w' := by
    have := Reachable.step (.rotate b k a d) h trivial
    rwa [show (Op.rotate b k a d).run w = (.ok (), w') from hr] at this
  obtain ⟨hio, hturn, -, -, hrest, henv, -⟩ := C19_meaning h ha hd hr
  have hconns : (w'.bp b).conns = (w.bp b).conns := congrArg (·.conns) hrest
  have hicons : (w'.bp b).icons = (w.bp b).icons := congrArg (·.icons) hrest
  obtain ⟨ents, icons, hi, rfl, hlen, hall⟩ := export_parts h.owned he
  refine toJson_total h'.owned ?_ ?_ ?_ ⟨icons, by rw [henv, hicons]; exact hi⟩
  · intro c hc
    obtain ⟨⟨r, -, h1⟩, s, -, h2⟩ := hw c (hconns ▸ hc)
    exact ⟨by rw [h1]; simp, by rw [h2]; simp⟩
  · intro c hc t ht
    have hmem : t ∈ (w'.bp b).objs := by
      obtain ⟨⟨r, hr, h1⟩, s, hs, h2⟩ := hw c (hconns ▸ hc)
      rcases ht with ht | ht
      · rw [h1] at ht; cases ht; exact hio.same.mem_iff.2 hr
      · rw [h2] at ht; cases ht; exact hio.same.mem_iff.2 hs
    obtain ⟨i, hi, rfl⟩ := List.getElem_of_mem hmem
    exact ⟨_, hio.numbered i hi⟩
  · intro r hr
    have hr := hio.same.mem_iff.1 hr
    have ht := hturn r hr
    obtain ⟨i, hi, rfl⟩ := List.getElem_of_mem hr
    obtain ⟨d, oc, -, -, hemit, -⟩ := hall i hi
    rw [henv]
    unfold Entity.settings
    refine emitRest_turned_ok (congrArg (·.klass) ht.rest) (congrArg (·.cb) ht.rest)
      (fun key hkey => ht.attrs key (.inl hkey)) (fun hne => ?_) hemit _
    by_cases hO : Mx.Orientation ∈ (w.heap (w.bp b).objs[i]).klass.chain
    · obtain ⟨-, -, q, -, -, hq, -⟩ := ht.orientation hO
      rw [hq]
      simp
    · rw [ht.attrs "orientation" (.inr hO)]
      exact hne

/-- The exports before and after `recenter`, which moves the entities and then raises: the positions are moved, nothing
else changes, and the entities have the same numbers in the same order. -/
theorem C72_recenter {env : Env} {w w' w1 w2 : World} (h : Reachable env w) {b : BpId} {p : Vec} {x : Exc}
    (hr : (recenter b (some (.vec p)) : M Unit) w = (.error x, w')) (hw : WellNumbered w b) {v v' : Val} {o o' : Dict}
    (he : toJson b w = (.ok v, w1)) (ho : Content v o) (he' : toJson b w' = (.ok v', w2)) (ho' : Content v' o') :
    (w'.bp b).objs = (w.bp b).objs ∧ (∀ r, (w'.heap r).auto = (w.heap r).auto) ∧
    SameExport w w' b (fun _ => ShiftedData p.x.val p.y.val) o o' := by
  have h' : Reachable env w' := by
    have := Reachable.step (.recenter b (some (.vec p))) h trivial
    rwa [show (Op.recenter b (some (.vec p))).run w = (.error x, w') from hr] at this
  have hs : ShiftedBy w w' b p.x.val p.y.val := by
    by_cases hz : SamePos p ⟨.int 0, .int 0⟩
    · rw [(C40_around_partial h b p).1 hz] at hr
      cases hr
    · obtain ⟨w3, h1, h2⟩ := (C40_around_partial h b p).2 hz
      rw [hr] at h1
      cases h1
      exact h2
  obtain ⟨henv, -, hbp, hout, hin⟩ := hs
  refine ⟨by rw [hbp], fun r => ?_, sameExport h.owned h'.owned (by rw [hbp]) (by rw [hbp]) henv hw he ho he' ho' ?_⟩
  · by_cases hr : r ∈ (w.bp b).objs
    · obtain ⟨q, hq, -⟩ := hin r hr
      rw [hq]
    · rw [hout r hr]
  · intro r hr c c' d d' hd hd'
    obtain ⟨q, hq, hx, hy⟩ := hin r hr
    rw [hq] at hd'
    refine ⟨emit_moved (e := w.heap r) (e' := { w.heap r with pos := q }) rfl rfl rfl (fun _ _ => rfl) ⟨hx, hy⟩ hd hd', ?_, ?_⟩
    · by_cases hm : Mx.Rotatable ∈ (w.heap r).klass.chain
      · obtain ⟨out, h1, h2⟩ := emitRest_owned (h.klass r) hd hm
        obtain ⟨out', h1', h2'⟩ := emitRest_owned (e := { w.heap r with pos := q }) (h.klass r) hd' hm
        rw [h1] at h1'
        cases h1'
        rw [h2 _ (by decide) (by decide), h2' _ (by decide) (by decide)]
      · rw [emit_no_facing hd hm, emit_no_facing (e := { w.heap r with pos := q }) hd' hm]
    · by_cases hm : Mx.Train ∈ (w.heap r).klass.chain
      · obtain ⟨out, h1, h2⟩ := emitRest_owned (h.klass r) hd hm
        obtain ⟨out', h1', h2'⟩ := emitRest_owned (e := { w.heap r with pos := q }) (h.klass r) hd' hm
        rw [h1] at h1'
        cases h1'
        rw [h2 _ (by decide) (by decide), h2' _ (by decide) (by decide)]
      · rw [emit_no_orientation hd hm, emit_no_orientation (e := { w.heap r with pos := q }) hd' hm]

/-- The exports before and after sorting: only the numbers, and with them the wires and schedules, are new. -/
theorem C72_sort {env : Env} {w w' w1 w2 : World} (h : Reachable env w) {b : BpId}
    (hs : (Op.sort b).run w = (.ok (), w')) (hw : WellNumbered w b) {v v' : Val} {o o' : Dict}
    (he : toJson b w = (.ok v, w1)) (ho : Content v o) (he' : toJson b w' = (.ok v', w2)) (ho' : Content v' o') :
    SameExport w w' b (fun _ d d' => ∀ key, key ≠ "entity_number" → key ≠ "connections" →
      List.lookup key d' = List.lookup key d) o o' := by
  have h' : Reachable env w' := by
    have := Reachable.step (.sort b) h trivial
    rwa [hs] at this
  obtain ⟨u, hu, hio, hbp, -, hheap, -, henv, -⟩ := C67_sort h b
  rw [hs] at hu
  cases hu
  have hrest : { w'.bp b with objs := (w.bp b).objs } = w.bp b := by
    have := congrArg (fun p : Bp => { p with objs := (w.bp b).objs }) hbp
    exact this
  refine sameExport h.owned h'.owned hio.same hrest henv hw he ho he' ho' (fun r hr c c' d d' hd hd' key k1 k2 => ?_)
  obtain ⟨n, hn⟩ : ∃ n, w'.heap r = { w.heap r with auto := n } := by
    refine ⟨(w'.heap r).auto, ?_⟩
    have := congrArg (fun e : Entity => { e with auto := (w'.heap r).auto }) (hheap r)
    exact this
  rw [hn] at hd'
  by_cases hp : key = "position"
  · subst hp
    rw [emit_position hd, emit_position hd']
  by_cases hdir : key = "direction"
  · subst hdir
    by_cases hm : Mx.Rotatable ∈ (w.heap r).klass.chain
    · obtain ⟨out, h1, h2⟩ := emitRest_owned (h.klass r) hd hm
      obtain ⟨out', h1', h2'⟩ := emitRest_owned (e := { w.heap r with auto := n }) (h.klass r) hd' hm
      rw [h1] at h1'
      cases h1'
      rw [h2 _ (by decide) (by decide), h2' _ (by decide) (by decide)]
    · rw [emit_no_facing hd hm, emit_no_facing (e := { w.heap r with auto := n }) hd' hm]
  by_cases hor : key = "orientation"
  · subst hor
    by_cases hm : Mx.Train ∈ (w.heap r).klass.chain
    · obtain ⟨out, h1, h2⟩ := emitRest_owned (h.klass r) hd hm
      obtain ⟨out', h1', h2'⟩ := emitRest_owned (e := { w.heap r with auto := n }) (h.klass r) hd' hm
      rw [h1] at h1'
      cases h1'
      rw [h2 _ (by decide) (by decide), h2' _ (by decide) (by decide)]
    · rw [emit_no_orientation hd hm, emit_no_orientation (e := { w.heap r with auto := n }) hd' hm]
  refine (emit_moved (R := fun _ _ => True) (e := w.heap r) (e' := { w.heap r with auto := n }) rfl rfl rfl (fun _ _ => rfl) trivial hd hd').rest key ?_
  simp [k1, k2, hp, hdir, hor]

/-- Sorting does not make the export fail either. -/
theorem C72_sort_works {env : Env} {w w' w1 : World} (h : Reachable env w) {b : BpId}
    (hs : (Op.sort b).run w = (.ok (), w'))
    (hw : ∀ c ∈ (w.bp b).conns, (∃ r ∈ (w.bp b).objs, c.fromE = some r) ∧ ∃ s ∈ (w.bp b).objs, c.toE = some s)
    {v : Val} (he : toJson b w = (.ok v, w1)) : ∃ v' w2, toJson b w' = (.ok v', w2) := by
  have h' : Reachable env w' := by
    have := Reachable.step (.sort b) h trivial
    rwa [hs] at this
  obtain ⟨u, hu, hio, hbp, -, hheap, -, henv, -⟩ := C67_sort h b
  rw [hs] at hu
  cases hu
  have hconns : (w'.bp b).conns = (w.bp b).conns := congrArg (·.conns) hbp
  have hicons : (w'.bp b).icons = (w.bp b).icons := congrArg (·.icons) hbp
  obtain ⟨ents, icons, hi, rfl, hlen, hall⟩ := export_parts h.owned he
  refine toJson_total h'.owned ?_ ?_ ?_ ⟨icons, by rw [henv, hicons]; exact hi⟩
  · intro c hc
    obtain ⟨⟨r, -, h1⟩, s, -, h2⟩ := hw c (hconns ▸ hc)
    exact ⟨by rw [h1]; simp, by rw [h2]; simp⟩
  · intro c hc t ht
    have hmem : t ∈ (w'.bp b).objs := by
      obtain ⟨⟨r, hr, h1⟩, s, hs, h2⟩ := hw c (hconns ▸ hc)
      rcases ht with ht | ht
      · rw [h1] at ht; cases ht; exact hio.same.mem_iff.2 hr
      · rw [h2] at ht; cases ht; exact hio.same.mem_iff.2 hs
    obtain ⟨i, hi, rfl⟩ := List.getElem_of_mem hmem
    exact ⟨_, hio.numbered i hi⟩
  · intro r hr
    have hr := hio.same.mem_iff.1 hr
    have ht := hheap r
    obtain ⟨i, hi, rfl⟩ := List.getElem_of_mem hr
    obtain ⟨d, oc, -, -, hemit, -⟩ := hall i hi
    have ha : (w'.heap (w.bp b).objs[i]).attrs = (w.heap (w.bp b).objs[i]).attrs := congrArg (·.attrs) ht
    rw [henv]
    unfold Entity.settings
    exact emitRest_turned_ok (congrArg (·.klass) ht) (congrArg (·.cb) ht) (fun key _ => by rw [ha])
      (fun hne => by rw [ha]; exact hne) hemit _

/-! The imported sample, with its wire and its schedule, turned by a quarter: exports before and after. -/

namespace Sample

theorem loaded_wellNumbered : WellNumbered loaded 0 :=
  ⟨by decide +kernel, by decide +kernel, by decide +kernel⟩

/-- The sample after a quarter turn. -/
def quarter : World := (bpRotate 0 1 none none loaded).2

theorem quarter_run : bpRotate 0 1 none none loaded = (.ok (), quarter) := run_eq (by decide +kernel)

end Sample

example : ∃ v w1 o v' w2 o', toJson 0 Sample.loaded = (.ok v, w1) ∧ Content v o ∧ toJson 0 Sample.quarter = (.ok v', w2) ∧
    Content v' o' ∧ SameExport Sample.loaded Sample.quarter 0
      (fun r => TurnedData (Sample.loaded.heap r).klass.chain 1 0 0) o o' := by
  have he := Sample.run_eq Sample.loaded_out
  obtain ⟨v', w2, he'⟩ := C72_rotate_works Sample.loaded_reachable (.inl ⟨rfl, rfl⟩) (.inl rfl) Sample.quarter_run
    Sample.loaded_wellNumbered.wires he
  obtain ⟨ents, icons, -, rfl⟩ : ∃ ents icons, True ∧ v' = .dict [("blueprint", .dict (exportDict (Sample.quarter.bp 0)
      ents icons ((Sample.quarter.bp 0).schedules.map (scheduleJson Sample.quarter.heap))))] := by
    obtain ⟨ents, icons, -, -, h⟩ := toJson_ok.1 he'
    exact ⟨ents, icons, trivial, h⟩
  refine ⟨_, _, _, _, _, _, he, .wrapped _ _ rfl, he', .wrapped _ _ rfl, ?_⟩
  have := C72_rotate Sample.loaded_reachable (c := ⟨.int 0, .int 0⟩) (.inl ⟨rfl, rfl⟩) (.inl rfl) Sample.quarter_run
    Sample.loaded_wellNumbered he (.wrapped _ _ rfl) he' (.wrapped _ _ rfl)
  exact this

/-- The order of the entities changes by the turn, so that the renumbering is not the identity. -/
example : (Sample.loaded.bp 0).objs ≠ (Sample.quarter.bp 0).objs := by decide +kernel

/-- A blueprint that is not in order, and one that `recenter` moves. -/
example : WellNumbered Sample.shuffled 0 ∧ (toJson 0 Sample.shuffled).1.toOption.isSome = true ∧
    (toJson 0 ((Op.sort 0).run Sample.shuffled).2).1.toOption.isSome = true ∧
    ((Op.sort 0).run Sample.shuffled).1 = .ok () :=
  ⟨⟨by decide +kernel, by decide +kernel, by decide +kernel⟩, by decide +kernel, by decide +kernel, by decide +kernel⟩

example : WellNumbered Sample.belts 0 ∧ (toJson 0 Sample.belts).1.toOption.isSome = true ∧
    ((recenter 0 (some (.vec ⟨.int 1, .int 2⟩)) : M Unit) Sample.belts).1 = .error .attributeError ∧
    (toJson 0 ((recenter 0 (some (.vec ⟨.int 1, .int 2⟩)) : M Unit) Sample.belts).2).1.toOption.isSome = true :=
  ⟨⟨by decide +kernel, by decide +kernel, by decide +kernel⟩, by decide +kernel, by decide +kernel, by decide +kernel⟩

end Verif
