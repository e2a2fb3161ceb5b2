import Verif.Props.Reload
/-!
# Numbers, order and schedules after any history of calls (C13, C35, C54, C55)

C54 in full asks that the entities of an export always have different numbers, C55 that the schedules of an export
only name entities of the export.  Both fail, shown by the witnesses below: the first after an import that raises,
the second after a locomotive is removed.  What is proved covers every history without these calls.
-/
set_option autoImplicit false

namespace Verif
open Spec

/-! ## C13 -/

/-- After any calls, failing or not, the entities of every blueprint are in reading order, if no import or rotation
raised and no entity was moved on its own. -/
theorem C13_history {env : Env} {w : World} (h : RunOf Orderly env w) (b : BpId) : Sorted w b := run_sorted h b

/-! ## C54 -/

/-- C54 in full. -/
def NumbersDiffer : Prop := ∀ (env : Env) (w w' : World) (b : BpId) (v : Val) (o : Dict) (l : List Val),
  Reachable env w → toJson b w = (.ok v, w') → Content v o → ListAt o "entities" l →
  (∀ e ∈ l, ∃ n : Int, exportedNumber e = some (.int n)) ∧ (l.map exportedNumber).Nodup

/-- The entities of every blueprint have different numbers, after any calls, failing or not, of which no import
raised. -/
theorem C54_numbers_partial {env : Env} {w : World} (h : RunOf Completes env w) (b : BpId) : DistinctNumbers w b :=
  run_numbered h b

/-- C54 for histories without imports that raised. -/
theorem C54_export_partial {env : Env} {w w' : World} (h : RunOf Completes env w) {b : BpId} {v : Val} {o : Dict}
    {l : List Val} (he : toJson b w = (.ok v, w')) (hc : Content v o) (hl : ListAt o "entities" l) :
    (∀ e ∈ l, ∃ n : Int, exportedNumber e = some (.int n)) ∧ (l.map exportedNumber).Nodup := by
  have ho := h.reachable.owned
  have hn := run_numbered h b
  have e1 := export_numbers he hc hl
  constructor
  · intro e hel
    have : exportedNumber e ∈ l.map exportedNumber := List.mem_map_of_mem hel
    rw [e1] at this
    obtain ⟨r, hr, hx⟩ := List.mem_map.1 this
    obtain ⟨n, hnn⟩ := hn.present r hr
    refine ⟨n, ?_⟩
    rw [← hx, hnn]
    rfl
  · rw [e1]
    refine List.pairwise_map.2 ((ho.nodup b).imp_of_mem ?_)
    intro r s hr hs hne heq
    refine hne (hn.distinct r hr s hs ?_)
    obtain ⟨n, hnr⟩ := hn.present r hr
    obtain ⟨m, hms⟩ := hn.present s hs
    rw [hnr, hms] at heq ⊢
    injection heq with heq
    injection heq with heq
    injection heq with heq
    rw [heq]

namespace Sample

/-- Two belts with the same number and an entity with an unknown name. -/
def clashData : Val :=
  .dict [("entities", .list [.dict (("entity_number", .int 1) :: ent "belt" 0 0),
    .dict (("entity_number", .int 1) :: ent "belt" 2 2), .dict (ent "nothing" 4 4)])]

def clash : World := (load 0 clashData (World.init env)).2

theorem clash_reachable : Reachable env clash := .step (.load 0 clashData) .init trivial

def clashOut : Dict :=
  [("item", .str "blueprint"), ("entities", .list
    [.dict [("entity_number", .int 1), ("name", .str "belt"), ("position", pos 0 0)],
     .dict [("entity_number", .int 1), ("name", .str "belt"), ("position", pos 2 2)]]),
   ("icons", .list []), ("version", .int 0)]

end Sample

/-- C54 does not hold: an import that raises leaves entities with the numbers of the data. -/
theorem C54_false : ¬ NumbersDiffer := by
  intro h
  have he : (toJson 0 Sample.clash).1 = .ok (.dict [("blueprint", .dict Sample.clashOut)]) := by decide +kernel
  have := (h Sample.env Sample.clash _ 0 _ Sample.clashOut _ Sample.clash_reachable (Sample.run_eq he)
    (.wrapped _ _ rfl) (.inl rfl)).2
  exact absurd this (by decide +kernel)

/-! ## C55 -/

/-- C55 in full. -/
def SchedulesNameEntities : Prop := ∀ (env : Env) (w w' : World) (b : BpId) (v : Val) (o : Dict) (l ss : List Val),
  Reachable env w → toJson b w = (.ok v, w') → Content v o → ListAt o "entities" l → ListAt o "schedules" ss →
  ∀ s ∈ ss, ∀ n ∈ exportedLocomotives s, some n ∈ l.map exportedNumber

/-- The schedules of every blueprint name entities of this blueprint, after any calls, failing or not, of which none
takes an entity out of a blueprint that a schedule of the blueprint names. -/
theorem C55_listed_partial {env : Env} {w : World} (h : RunOf KeepsScheduled env w) (b : BpId) :
    SchedulesListed w b := run_schedules h b

/-- C55 for such histories without imports that raised: the exported schedules are those of the blueprint, and each
locomotive is named by a number that exactly one exported entity has, the locomotive itself. -/
theorem C55_export_partial {env : Env} {w w' : World}
    (h : RunOf (fun w op => Completes w op ∧ KeepsScheduled w op) env w) {b : BpId} {v : Val} {o : Dict}
    {l ss : List Val} (he : toJson b w = (.ok v, w')) (hc : Content v o) (hl : ListAt o "entities" l)
    (hs : ListAt o "schedules" ss) :
    List.Forall₂ (fun s s' => List.Forall₂ (fun r n => ∃ i : Nat, (w.bp b).objs[i]? = some r ∧
        (l.map exportedNumber)[i]? = some (some n) ∧ ∀ j : Nat, (l.map exportedNumber)[j]? = some (some n) → j = i)
      s.1 (exportedLocomotives s')) (w.bp b).schedules ss := by
  have h1 : RunOf Completes env w := h.mono (fun _ _ hp => hp.1)
  have h2 : RunOf KeepsScheduled env w := h.mono (fun _ _ hp => hp.2)
  have ho := h.reachable.owned
  have e1 := export_numbers he hc hl
  have hnd := (C54_export_partial h1 he hc hl).2
  obtain ⟨ents, icons, -, -, rfl⟩ := export_content he hc
  have hss : ss = (w.bp b).schedules.map (scheduleJson w.heap) := by
    rcases hs with hs | ⟨hs, rfl⟩ <;> rw [(export_lookup _ _ _ _).2.2.2.2.2.2.2.1] at hs <;> split at hs
    · cases hs
    · cases hs; rfl
    · rename_i e; exact e.symm
    · cases hs
  rw [hss]
  have hsch := run_schedules h2 b
  unfold SchedulesListed at hsch
  generalize (w.bp b).schedules = S at hsch
  induction S with
  | nil => exact .nil
  | cons s S ih =>
    refine .cons ?_ (ih (fun s' hs' => hsch s' (List.mem_cons_of_mem _ hs')))
    have hl := hsch s List.mem_cons_self
    show List.Forall₂ _ s.1 (s.1.map (fun r => autoVal (w.heap r).auto))
    generalize s.1 = R at hl
    induction R with
    | nil => exact .nil
    | cons r R ihR =>
      refine .cons ?_ (ihR (fun r' hr' => hl r' (List.mem_cons_of_mem _ hr')))
      obtain ⟨i, hi, hri⟩ := List.getElem_of_mem (hl r List.mem_cons_self)
      have hget : (l.map exportedNumber)[i]? = some (some (autoVal (w.heap r).auto)) := by
        rw [e1, List.getElem?_map, List.getElem?_eq_getElem hi, hri]
        rfl
      refine ⟨i, by rw [List.getElem?_eq_getElem hi, hri], hget, fun j hj => ?_⟩
      obtain ⟨hi', hgi⟩ := List.getElem?_eq_some_iff.1 hget
      obtain ⟨hj', hgj⟩ := List.getElem?_eq_some_iff.1 hj
      exact (List.Nodup.getElem_inj_iff hnd).1 (hgj.trans hgi.symm)

namespace Sample

/-- The locomotive with the schedule is removed. -/
def unmanned : World := ((Op.remove 0 (.ent 2)).run loaded).2

theorem unmanned_reachable : Reachable env unmanned := .step (.remove 0 (.ent 2)) loaded_reachable
  (show 2 < loaded.next by decide +kernel)

end Sample

/-- C55 does not hold: after the locomotive is removed, its schedule still names it. -/
theorem C55_false : ¬ SchedulesNameEntities := by
  intro h
  have key : (match (toJson 0 Sample.unmanned).1 with
      | .ok (.dict [("blueprint", .dict o)]) => match List.lookup "entities" o, List.lookup "schedules" o with
        | some (.list l), some (.list ss) =>
          !(ss.all (fun s => (exportedLocomotives s).all (fun n => (l.map exportedNumber).contains (some n))))
        | _, _ => false
      | _ => false) = true := by decide +kernel
  split at key
  · rename_i o ho
    split at key
    · rename_i l ss h1 h2
      have := h Sample.env Sample.unmanned _ 0 _ o l ss Sample.unmanned_reachable (Sample.run_eq ho) (.wrapped _ _ rfl)
        (.inl h1) (.inl h2)
      simp only [Bool.not_eq_true', List.all_eq_false] at key
      obtain ⟨s, hs, hk⟩ := key
      refine hk (List.all_eq_true.2 (fun n hn => ?_))
      exact List.contains_iff_mem.2 (this s hs n hn)
    · cases key
  · cases key

/-! ## C57 -/

/-- C57 in full. -/
def WiresNameEntities : Prop := ∀ (env : Env) (w w' : World) (b : BpId) (v : Val) (o : Dict) (l : List Val),
  Reachable env w → toJson b w = (.ok v, w') → Content v o → ListAt o "entities" l →
  ∀ d, .dict d ∈ l → ∀ side color, ∀ u ∈ refsAt d side color, ∃ e ∈ l, entry "entity_id" u = exportedNumber e

/-- The wires of every blueprint end at entities of this blueprint, after any calls, failing or not, of which none takes
out an entity to which a wire is attached, and none connects to an entity that the blueprint does not list. -/
theorem C57_listed_partial {env : Env} {w : World} (h : RunOf (fun w op => KeepsWired w op ∧ WiresInside w op) env w)
    (b : BpId) : WiresListed w b := run_wires h b

/-- C57 for such histories without imports that raised: each exported reference names exactly one entity of the export,
the one at the other end of a wire. -/
theorem C57_export_partial {env : Env} {w w' : World}
    (h : RunOf (fun w op => Completes w op ∧ KeepsWired w op ∧ WiresInside w op) env w) {b : BpId} {v : Val} {o : Dict}
    {l : List Val} (he : toJson b w = (.ok v, w')) (hc : Content v o) (hl : ListAt o "entities" l)
    {i : Nat} {d : Dict} (hd : l[i]? = some (.dict d)) {side : Int} {color : String} {u : Val}
    (hu : u ∈ refsAt d side color) :
    ∃ j e, l[j]? = some e ∧ exportedNumber e = entry "entity_id" u ∧
      (∀ j' e', l[j']? = some e' → exportedNumber e' = entry "entity_id" u → j' = j) ∧
      ∃ sb, Wired w b i side j sb color := by
  have h1 : RunOf Completes env w := h.mono (fun _ _ hp => hp.1)
  have hwl := run_wires (h.mono (fun _ _ hp => hp.2)) b
  have ho := h.reachable.owned
  have e1 := export_numbers he hc hl
  have hnd := (C54_export_partial h1 he hc hl).2
  obtain ⟨hlen, hall⟩ := C26_export h.reachable he hc hl
  have hi : i < (w.bp b).objs.length := hlen ▸ (List.getElem?_eq_some_iff.1 hd).1
  obtain ⟨d', hd', -, hp, -⟩ := hall i hi
  rw [hd] at hd'; cases hd'
  have := (hp side color).mem_iff.1 (List.mem_map.2 ⟨u, hu, rfl⟩)
  obtain ⟨p, hpm, hnu⟩ := List.mem_map.1 this
  obtain ⟨c, hcm, hcol, hfar⟩ := mem_farEnds.1 hpm
  have hboth : ∃ x y, c.fromE = some x ∧ c.toE = some y := by
    refine export_ends ho he hcm (List.getElem_mem hi) ?_
    rcases hfar with hfar | hfar
    · exact .inl hfar.1
    · exact .inr hfar.1
  obtain ⟨s, hs, hse⟩ : ∃ s, p.1 = some s ∧ EndAt c s := by
    obtain ⟨x, y, hx, hy⟩ := hboth
    rcases hfar with hfar | hfar
    · exact ⟨y, hfar.2.2.1.symm.trans hy, .inr hy⟩
    · exact ⟨x, hfar.2.2.1.symm.trans hx, .inl hx⟩
  obtain ⟨j, hj, rfl⟩ := List.getElem_of_mem ((hwl c hcm).2 s hse)
  obtain ⟨e, he', hen, -⟩ := hall j hj
  have hnum : exportedNumber (.dict e) = entry "entity_id" u := by
    show List.lookup "entity_number" e = _
    rw [hen, ← hnu]
    unfold farNumber
    rw [hs]
    rfl
  refine ⟨j, _, he', hnum, fun j' e' hj' hne => ?_, p.2, c, hcm, _, _, List.getElem?_eq_getElem hi,
    List.getElem?_eq_getElem hj, hcol, ?_⟩
  · have a1 : (l.map exportedNumber)[j]? = some (entry "entity_id" u) := by rw [List.getElem?_map, he', ← hnum]; rfl
    have a2 : (l.map exportedNumber)[j']? = some (entry "entity_id" u) := by rw [List.getElem?_map, hj', ← hne]; rfl
    obtain ⟨_, b1⟩ := List.getElem?_eq_some_iff.1 a1
    obtain ⟨_, b2⟩ := List.getElem?_eq_some_iff.1 a2
    exact (List.Nodup.getElem_inj_iff hnd).1 (b2.trans b1.symm)
  · rcases hfar with hfar | hfar
    · exact .inl ⟨hfar.1, hfar.2.1, hfar.2.2.1.trans hs, hfar.2.2.2⟩
    · exact .inr ⟨hfar.2.2.1.trans hs, hfar.2.2.2, hfar.1, hfar.2.1⟩

/-- C57 does not hold: after an entity is removed, the entity wired to it still names it. -/
theorem C57_false : ¬ WiresNameEntities := by
  intro h
  have := h Sample.env _ _ 0 _ _ _ (.step (.remove 0 (.ent 1)) Sample.loaded_reachable
    (show 1 < Sample.loaded.next by decide +kernel)) (Sample.run_eq Sample.removed_out) (.wrapped _ _ rfl)
    (.inl rfl) Sample.decOut List.mem_cons_self 1 "red" (.dict [("entity_id", .int 1), ("circuit_id", .int 1)])
    (by decide +kernel)
  exact absurd this (by decide +kernel)

/-! ## C35 -/

/-- C35 for data, with the conditions on order, numbers, schedules and the ends of wires replaced by conditions on the
calls made.  After any calls that do not rename entities, replace prototype data, set custom mixins, take out entities
with wires or schedules, connect to entities of other blueprints or move single entities, and of which no import or
rotation raised, the export of a blueprint with readable settings is accepted by every blank blueprint over the same
prototype data and gives a blueprint with the same content. -/
theorem C35_history_partial {env env2 : Env} {w w1 w2 : World} {b b2 : BpId} {v : Val}
    (hrun : RunOf (fun w op => Orderly w op ∧ KeepsScheduled w op ∧ KeepsWired w op ∧ WiresInside w op ∧ Steady op) env w)
    (hr : ReadableSettings w b) (he : toJson b w = (.ok v, w1)) (hw2 : Reachable env2 w2) (henv : w2.env = w.env)
    (hb : Blank (w2.bp b2)) :
    ∃ w3, load b2 v w2 = (.ok (), w3) ∧ SameBlueprint w b w3 b2 := by
  have hs : SteadyRun env w := by
    clear hr he henv
    induction hrun with
    | init => exact .init
    | step op _ hok hp ih => exact .step op ih hok hp.2.2.2.2
  have hn := run_numbered (hrun.mono (fun _ _ hp => completes_of_orderly hp.1)) b
  exact C35_reload_partial hs
    { toReadableContent := hr.content hrun.reachable.owned
        (run_wires (hrun.mono (fun _ _ hp => ⟨hp.2.2.1, hp.2.2.2.1⟩)) b) he
      sorted := run_sorted (hrun.mono (fun _ _ hp => hp.1)) b
      numbered := hn.present
      distinct := hn.distinct
      schedules := run_schedules (hrun.mono (fun _ _ hp => hp.2.1)) b } he hw2 henv hb

/-! ## The hypotheses can be met -/

theorem Sample.wired_tidy : RunOf (fun w op => Orderly w op ∧ KeepsScheduled w op ∧ KeepsWired w op ∧ WiresInside w op ∧
    Steady op) Sample.env Sample.wired :=
  .step (.load 0 Sample.wiredData) .init trivial ⟨⟨_, Sample.run_eq (by decide +kernel)⟩,
    (fun _ _ h => nomatch h.1), (fun _ _ h => nomatch h.1), trivial, trivial⟩

example : RunOf Orderly Sample.env Sample.wired := Sample.wired_tidy.mono (fun _ _ h => h.1)

example : RunOf (fun w op => Completes w op ∧ KeepsScheduled w op) Sample.env Sample.wired ∧
    (Sample.wired.bp 0).schedules ≠ [] ∧ (toJson 0 Sample.wired).1 = .ok Sample.wiredOut :=
  ⟨Sample.wired_tidy.mono (fun _ _ h => ⟨completes_of_orderly h.1, h.2.1⟩), by decide +kernel, Sample.wired_out⟩

/-- The histories of `C57_export_partial` lead to blueprints with wires. -/
example : RunOf (fun w op => Completes w op ∧ KeepsWired w op ∧ WiresInside w op) Sample.env Sample.wired ∧
    (Sample.wired.bp 0).conns ≠ [] ∧ (toJson 0 Sample.wired).1 = .ok Sample.wiredOut :=
  ⟨Sample.wired_tidy.mono (fun _ _ h => ⟨completes_of_orderly h.1, h.2.2.1, h.2.2.2.1⟩), by decide +kernel,
    Sample.wired_out⟩

/-- Unwired entities may be removed and entities of the blueprint connected. -/
example : RunOf (fun w op => KeepsWired w op ∧ WiresInside w op) Sample.env
    ((Op.connect 0 (some 1) (.int 2) (.int 2) "green").run ((Op.remove 0 (.ent 2)).run Sample.wired).2).2 := by
  have ho : (((Op.remove 0 (.ent 2)).run Sample.wired).2.bp 0).objs = [1, 0] := by decide +kernel
  have hl : (((Op.remove 0 (.ent 2)).run Sample.wired).2.heap 0).layer = some 0 := by decide +kernel
  have own : Owned Sample.wired := Sample.wired_tidy.reachable.owned
  have all : ∀ r, r < 3 → (Sample.wired.heap r).layer = some 0 := by decide +kernel
  have hn : Sample.wired.next = 3 := by decide +kernel
  have hn' : ((Op.remove 0 (.ent 2)).run Sample.wired).2.next = 3 := by decide +kernel
  refine .step _ (.step (.remove 0 (.ent 2)) (Sample.wired_tidy.mono (fun _ _ h => ⟨h.2.2.1, h.2.2.2.1⟩))
    (show 2 < Sample.wired.next by decide +kernel) ⟨?_, trivial⟩) ?_ ⟨?_, ?_⟩
  · rintro b r ⟨h1, h2⟩ c hc hx
    have h3 : r < 3 := hn ▸ own.exist b r h1
    have h4 := (own.layer b r h1).symm.trans (all r h3)
    cases h4
    have h5 : (Sample.wired.bp 0).conns = [⟨some 0, some 1, 2, 2, "red"⟩] := by decide +kernel
    rw [h5] at hc
    rw [List.mem_singleton.1 hc] at hx
    rw [ho] at h2
    rcases hx with hx | hx <;> cases hx <;> simp at h2
  · exact ⟨by rw [hn']; decide, fun s hs => by cases hs; rw [hn']; decide⟩
  · rintro b r ⟨h1, h2⟩
    exact absurd ((connect_objs _ _ _ _ _ _ b).symm ▸ h1) h2
  · intro b hb
    rw [hl] at hb
    cases hb
    rw [ho]
    exact ⟨by decide, fun s hs => by cases hs; decide⟩

theorem Sample.wired_settings : ReadableSettings Sample.wired 0 :=
  { strict := Sample.wired_reloadable.strict
    constants := Sample.wired_reloadable.constants
    names := Sample.wired_reloadable.names
    sides := by
      have h : (Sample.wired.bp 0).conns = [⟨some 0, some 1, 2, 2, "red"⟩] := by decide +kernel
      rw [h]
      intro c hc
      rw [List.mem_singleton.1 hc]
      refine ⟨rfl, .inr (fun r hr => ?_)⟩
      rcases hr with hr | hr <;> cases hr <;> decide +kernel }

example : ∃ w3, load 4 Sample.wiredOut (World.init Sample.env) = (.ok (), w3) ∧ SameBlueprint Sample.wired 0 w3 4 :=
  C35_history_partial Sample.wired_tidy Sample.wired_settings (Sample.run_eq Sample.wired_out) .init
    Sample.wired_run.inv.1.symm ⟨rfl, rfl, rfl, rfl⟩

/-- Removing an entity and rotating afterwards is allowed in the histories of `C13_history` and
`C54_numbers_partial`. -/
example : RunOf Orderly Sample.env ((Op.rotate 0 1 none none).run ((Op.remove 0 (.ent 0)).run Sample.wired).2).2 := by
  refine .step _ (.step (.remove 0 (.ent 0)) (Sample.wired_tidy.mono (fun _ _ h => h.1))
    (show 0 < Sample.wired.next by decide +kernel) trivial) trivial
    ⟨_, Sample.run_eq (by decide +kernel)⟩

end Verif
