import Verif.Proofs.Head
import Verif.Spec.Head
import Verif.Props.Sample
/-!
# Property C70: icons, schedules, label, item and version changed after the import
-/
set_option autoImplicit false

namespace Verif
open Spec

/-! ## C70 Editing the other fields of a blueprint -/

/-- Assigning the name of an icon: the export shows the signal in that slot and is otherwise as before. -/
theorem C70_icon {w w1 : World} {b : BpId} {i : Nat} {x v t : Val} {n : String} {o : Dict} {s : Val}
    (he : toJson b w = (.ok v, w1)) (ho : Content v o) (hi : (w.bp b).icons[i]? = some (some s))
    (hx : SignalNamed x n) (ht : SignalType w.env n t) :
    ∃ w' v' w1' o' out out', (Op.setIcon b i x).run w = (.ok (), w') ∧ toJson b w' = (.ok v', w1') ∧ Content v' o' ∧
      SameExcept "icons" o o' ∧
      List.lookup "icons" o = some (.list out) ∧ List.lookup "icons" o' = some (.list out') ∧
      ∀ u, u ∈ out' ↔ u = iconOut ((i : Int) + 1) n t ∨ u ∈ out ∧ ¬ InSlot ((i : Int) + 1) u := by
  have hlen : i < (w.bp b).icons.length := (List.getElem?_eq_some_iff.1 hi).1
  obtain ⟨ents, icons, h1, rfl, u, h2, -⟩ := export_head he
    { w.bp b with icons := (w.bp b).icons.set i (some (.str n)) } rfl rfl rfl
  obtain ⟨out', h3, h4⟩ := iconsJson_set h1 hlen (signalToJson_str.2 ⟨t, ht, rfl⟩)
  have hrun : (Op.setIcon b i x).run w =
      (.ok (), w.setBp b { w.bp b with icons := (w.bp b).icons.set i (some (.str n)) }) := by
    show setIcon b i x w = _
    unfold setIcon
    rw [M.bind_get, hi]
    dsimp only
    rw [signalSet_named hx ht]
    rfl
  cases Content.unique ho (.wrapped _ _ rfl)
  refine ⟨_, _, _, _, icons, out', hrun, h2 out' h3, .wrapped _ _ rfl, ?_, (export_lookup _ _ _ _).2.2.2.2.2.1,
    (export_lookup _ _ _ _).2.2.2.2.2.1, h4⟩
  exact exportDict_icons (w.bp b) ents _ _ _ _

/-- Emptying a slot: its icon is gone from the export, which is otherwise as before. -/
theorem C70_drop {w w1 : World} {b : BpId} {i : Nat} {v : Val} {o : Dict}
    (he : toJson b w = (.ok v, w1)) (ho : Content v o) (hi : i < (w.bp b).icons.length) :
    ∃ w' v' w1' o' out out', (Op.dropIcon b i).run w = (.ok (), w') ∧ toJson b w' = (.ok v', w1') ∧ Content v' o' ∧
      SameExcept "icons" o o' ∧
      List.lookup "icons" o = some (.list out) ∧ List.lookup "icons" o' = some (.list out') ∧
      ∀ u, u ∈ out' ↔ u ∈ out ∧ ¬ InSlot ((i : Int) + 1) u := by
  obtain ⟨ents, icons, h1, rfl, u, h2, -⟩ := export_head he
    { w.bp b with icons := (w.bp b).icons.set i none } rfl rfl rfl
  obtain ⟨out', h3, h4⟩ := iconsJson_drop h1 i
  have hrun : (Op.dropIcon b i).run w = (.ok (), w.setBp b { w.bp b with icons := (w.bp b).icons.set i none }) := by
    show dropIcon b i w = _
    unfold dropIcon
    rw [M.bind_get, if_pos hi]
    rfl
  cases Content.unique ho (.wrapped _ _ rfl)
  refine ⟨_, _, _, _, icons, out', hrun, h2 out' h3, .wrapped _ _ rfl, ?_, (export_lookup _ _ _ _).2.2.2.2.2.1,
    (export_lookup _ _ _ _).2.2.2.2.2.1, h4⟩
  exact exportDict_icons (w.bp b) ents _ _ _ _

/-- The icons are exported in the order of their slots. -/
theorem C70_order {w w1 : World} {b : BpId} {v : Val} {o : Dict} {out : List Val} (he : toJson b w = (.ok v, w1))
    (ho : Content v o) (hout : List.lookup "icons" o = some (.list out)) :
    out.Pairwise (fun u v => ∃ i j, InSlot i u ∧ InSlot j v ∧ i < j) := by
  obtain ⟨ents, icons, -, hi, rfl⟩ := export_content he ho
  rw [(export_lookup _ _ _ _).2.2.2.2.2.1] at hout
  cases hout
  refine (iconsJson_sorted hi).imp ?_
  rintro _ _ ⟨i, j, x, y, rfl, rfl, h⟩
  exact ⟨i, j, ⟨x, rfl⟩, ⟨y, rfl⟩, h⟩

/-- A name that is not in the table of signals is refused, and so is any name in an empty or missing slot; nothing is
changed. -/
theorem C70_refused {w : World} {b : BpId} {i : Nat} {x : Val} {n : String} (hx : SignalNamed x n) :
    ((∃ s, (w.bp b).icons[i]? = some (some s)) → n ≠ "" → List.lookup n w.env.signals = none →
      (Op.setIcon b i x).run w = (.error .unknownSignal, w)) ∧
    ((w.bp b).icons[i]? = some none → (Op.setIcon b i x).run w = (.error .attributeError, w)) ∧
    ((w.bp b).icons.length ≤ i → (Op.setIcon b i x).run w = (.error .indexError, w) ∧
      (Op.dropIcon b i).run w = (.error .indexError, w)) := by
  refine ⟨?_, ?_, ?_⟩
  · rintro ⟨s, hs⟩ hn hl
    show setIcon b i x w = _
    unfold setIcon
    rw [M.bind_get, hs]
    dsimp only
    rw [signalSet_strange hx hn hl]
    rfl
  · intro hs
    show setIcon b i x w = _
    unfold setIcon
    rw [M.bind_get, hs]
    rfl
  · intro hs
    constructor
    · show setIcon b i x w = _
      unfold setIcon
      rw [M.bind_get, List.getElem?_eq_none hs]
      rfl
    · show dropIcon b i w = _
      unfold dropIcon
      rw [M.bind_get, if_neg (by omega)]
      rfl

/-- A new blueprint has no icon slots before the first import. -/
theorem C70_no_slots (env : Env) (b : BpId) (i : Nat) (x : Val) :
    (Op.setIcon b i x).run (World.init env) = (.error .indexError, World.init env) := rfl

/-- A number or `None` is accepted as the name of an icon, and the blueprint can no longer be exported. -/
theorem C70_number {w w1 : World} {b : BpId} {i : Nat} {x v s : Val} (he : toJson b w = (.ok v, w1))
    (hi : (w.bp b).icons[i]? = some (some s)) (hx : x = .none ∨ ∃ z, x = .int z) :
    ∃ w' w1', (Op.setIcon b i x).run w = (.ok (), w') ∧ toJson b w' = (.error .attributeError, w1') := by
  have hlen : i < (w.bp b).icons.length := (List.getElem?_eq_some_iff.1 hi).1
  obtain ⟨ents, icons, h1, -, u, -, h2⟩ := export_head he
    { w.bp b with icons := (w.bp b).icons.set i (some x) } rfl rfl rfl
  refine ⟨_, _, ?_, h2 .attributeError (iconsJson_bad h1 hlen ?_)⟩
  · show setIcon b i x w = _
    unfold setIcon
    rw [M.bind_get, hi]
    rcases hx with rfl | ⟨z, rfl⟩ <;> rfl
  · rcases hx with rfl | ⟨z, rfl⟩ <;> rfl

/-- Appending a schedule: it is exported after the others, with the numbers of the entities it names. -/
theorem C70_schedule {w w1 : World} {b : BpId} {v content locos : Val} {o d : Dict} {ids : List Val}
    (he : toJson b w = (.ok v, w1)) (ho : Content v o)
    (hd : ∀ p ∈ d, p.1 = "schedule" ∨ p.1 = "locomotives") (hs : List.lookup "schedule" d = some content)
    (hl : List.lookup "locomotives" d = some locos) (hids : locos = .list ids) :
    ∃ w' v' w1' o' old nums, (Op.addSchedule b (.dict d)).run w = (.ok (), w') ∧ toJson b w' = (.ok v', w1') ∧
      Content v' o' ∧ SameExcept "schedules" o o' ∧ ListAt o "schedules" old ∧
      ListAt o' "schedules" (old ++ [.dict [("locomotives", .list nums), ("schedule", content)]]) ∧
      ((∀ r ∈ (w.bp b).objs, ∃ n, (w.heap r).auto = some n) → Renumber w (w.bp b).objs ids nums) := by
  subst hids
  obtain ⟨ents, icons, h1, rfl, u, h2, -⟩ := export_head he
    { w.bp b with schedules := (w.bp b).schedules ++ [(ids.filterMap (getById w b), content)] } rfl rfl rfl
  have hrun : (Op.addSchedule b (.dict d)).run w = (.ok (), w.setBp b
      { w.bp b with schedules := (w.bp b).schedules ++ [(ids.filterMap (getById w b), content)] }) := by
    show addSchedule b (.dict d) w = _
    unfold addSchedule
    rw [M.bind_get, show scheduleNew w b (.dict d) = .ok (ids.filterMap (getById w b), content) from ?_]
    · rfl
    · unfold scheduleNew Dict.get?
      have hany : d.any (fun p => p.1 != "schedule" && p.1 != "locomotives") = false := by
        rw [List.any_eq_false]
        intro p hp
        rcases hd p hp with h | h <;> simp [h]
      show (if d.any _ = true then _ else _) = _
      rw [hany, hs, hl]
      rfl
  cases Content.unique ho (.wrapped _ _ rfl)
  refine ⟨_, _, _, _, (w.bp b).schedules.map (scheduleJson w.heap), _, hrun, h2 icons h1, .wrapped _ _ rfl, ?_, ?_, ?_,
    fun hn => renumber_filterMap hn ids⟩
  · exact exportDict_schedules (w.bp b) ents _ _ _ _
  · exact listAt_schedules ..
  · have := listAt_schedules { w.bp b with schedules := (w.bp b).schedules ++ [(ids.filterMap (getById w b), content)] }
      ents icons (((w.bp b).schedules ++ [(ids.filterMap (getById w b), content)]).map (scheduleJson w.heap))
    rw [List.map_append] at this
    rw [List.map_append]
    exact this

/-- Assigning `item` or `version`: the export shows the value and is otherwise as before. -/
theorem C70_item {w w1 : World} {b : BpId} {x v : Val} {o : Dict} (he : toJson b w = (.ok v, w1)) (ho : Content v o) :
    (∃ w' v' w1' o', (Op.setItem b x).run w = (.ok (), w') ∧ toJson b w' = (.ok v', w1') ∧ Content v' o' ∧
      SameExcept "item" o o' ∧ List.lookup "item" o' = some x) ∧
    (∃ w' v' w1' o', (Op.setVersion b x).run w = (.ok (), w') ∧ toJson b w' = (.ok v', w1') ∧ Content v' o' ∧
      SameExcept "version" o o' ∧ List.lookup "version" o' = some x) := by
  constructor
  · obtain ⟨ents, icons, h1, rfl, u, h2, -⟩ := export_head he { w.bp b with item := x } rfl rfl rfl
    cases Content.unique ho (.wrapped _ _ rfl)
    exact ⟨_, _, _, _, rfl, h2 icons h1, .wrapped _ _ rfl, exportDict_item (w.bp b) ents _ _ x, (export_lookup _ _ _ _).1⟩
  · obtain ⟨ents, icons, h1, rfl, u, h2, -⟩ := export_head he { w.bp b with version := x } rfl rfl rfl
    cases Content.unique ho (.wrapped _ _ rfl)
    exact ⟨_, _, _, _, rfl, h2 icons h1, .wrapped _ _ rfl, exportDict_version (w.bp b) ents _ _ x, (export_lookup _ _ _ _).2.2.2.2.2.2.1⟩

/-- `set_label` without a colour: the export shows the label and is otherwise as before. -/
theorem C70_label {w w1 : World} {b : BpId} {x v : Val} {o : Dict} (he : toJson b w = (.ok v, w1)) (ho : Content v o) :
    ∃ w' v' w1' o', (Op.setLabel b x (.inr .none)).run w = (.ok (), w') ∧ toJson b w' = (.ok v', w1') ∧ Content v' o' ∧
      SameExcept "label" o o' ∧ List.lookup "label" o' = (if x = .none then none else some x) := by
  obtain ⟨ents, icons, h1, rfl, u, h2, -⟩ := export_head he { w.bp b with label := x } rfl rfl rfl
  cases Content.unique ho (.wrapped _ _ rfl)
  exact ⟨_, _, _, _, rfl, h2 icons h1, .wrapped _ _ rfl, exportDict_label (w.bp b) ents _ _ x, (export_lookup _ _ _ _).2.1⟩

/-- C70 asks that an assignment that is accepted can be exported. -/
def AcceptedIcons : Prop := ∀ (env : Env) (w w' : World) (b : BpId) (i : Nat) (x : Val), Reachable env w →
  (toJson b w).1.isOk = true → (Op.setIcon b i x).run w = (.ok (), w') → (toJson b w').1.isOk = true

theorem C70_refused_false : ¬ AcceptedIcons := by
  intro H
  have h := H Sample.env Sample.loaded _ 0 1 .none Sample.loaded_reachable (by decide +kernel)
    (Sample.run_eq (by decide +kernel))
  revert h
  decide +kernel

/-- The loaded sample meets the hypotheses: it can be exported, and its second icon is set. -/
example : (toJson 0 Sample.loaded).1.isOk = true ∧ (Sample.loaded.bp 0).icons[1]? = some (some (.str "iron")) ∧
    SignalNamed (.str "iron") "iron" ∧ SignalType Sample.loaded.env "iron" (.str "item") ∧
    List.lookup "nothing" Sample.loaded.env.signals = none :=
  have e : Sample.loaded.env.signals = Sample.env.signals := by decide +kernel
  ⟨by decide +kernel, by decide +kernel, .inl rfl, ⟨_, by rw [e]; rfl, rfl⟩, by decide +kernel⟩

end Verif
