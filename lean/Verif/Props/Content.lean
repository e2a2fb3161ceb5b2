import Verif.Proofs.Content
import Verif.Props.Sample
/-!
# Properties C38, C41, C45, C50: icons, schedules, label, and loading twice
-/
set_option autoImplicit false

namespace Verif
open Spec

/-! ## C38 Icons keep their slot -/

/-- Load and export: if all icons of the data have an index in 1..4, the exported icons are in slot
order, and slot `k` shows the signal of the last icon for `k` in the data (the type is the one of the
signal table). -/
theorem C38_slots {env : Env} {w w' w'' : World} (h : Reachable env w) {b : BpId} {data v : Val} {d o : Dict}
    {l out : List Val} (hd : Content data d) (hl : ListAt d "icons" l)
    (hicons : ∀ u ∈ l, ∃ k n, IsIcon u k n ∧ 1 ≤ k ∧ k ≤ 4)
    (hw : load b data w = (.ok (), w')) (he : toJson b w' = (.ok v, w'')) (ho : Content v o)
    (hout : ListAt o "icons" out) :
    (∀ u, u ∈ out ↔ ∃ k n t, LastIcon l k n ∧ SignalType w.env n t ∧
      u = .dict [("index", .int k), ("signal", .dict [("name", .str n), ("type", t)])]) ∧
    out.Pairwise (fun u v => ∃ i j x y, u = .dict [("index", .int i), ("signal", x)] ∧
      v = .dict [("index", .int j), ("signal", y)] ∧ i < j) := by
  obtain ⟨d', col, iv, ic, ev, es, cs, sv, scheds, h1, h2, h3, h4, h5, h6, h7, h8, h9, h10, h11, rfl⟩ :=
    (load_ok h.owned).1 hw
  cases Content.unique (content_iff.1 h1) hd
  rw [listAt_iter hl] at h3
  cases h3
  obtain ⟨ents, icons, -, hi, rfl⟩ := export_content he ho
  have hic : icons = out := by
    rcases hout with hout | ⟨hout, -⟩
    · rw [(export_lookup _ _ _ _).2.2.2.2.2.1] at hout
      cases hout; rfl
    · rw [(export_lookup _ _ _ _).2.2.2.2.2.1] at hout
      cases hout
  subst hic
  obtain ⟨objs, hbp⟩ := base_bp w b d col ic es
  rw [setBp_bp_self] at hi
  dsimp only at hi
  rw [hbp] at hi
  change iconsJson (w.base b d col ic es).env 0 ic = _ at hi
  rw [base_env] at hi
  obtain ⟨hlen, hs⟩ := iconsAll_slots hicons rfl h4
  have hnone : ∀ j : Int, 1 ≤ j → j ≤ 4 → ∀ x,
      ([none, none, none, none] : List (Option Val))[(j - 1).toNat]? ≠ some (some x) := by
    intro j hj hj' x
    have : j = 1 ∨ j = 2 ∨ j = 3 ∨ j = 4 := by omega
    rcases this with rfl | rfl | rfl | rfl <;> simp
  refine ⟨fun u => ?_, iconsJson_sorted hi⟩
  rw [iconsJson_mem hi]
  constructor
  · rintro ⟨p, s, j, hp, hj, rfl⟩
    have hp4 : p < 4 := by
      rw [← hlen]
      exact (List.getElem?_eq_some_iff.1 hp).1
    have := (hs ((p : Int) + 1) (by omega) (by omega) s).1 (by simpa using hp)
    rcases this with ⟨n, hn, rfl⟩ | ⟨-, hx⟩
    · obtain ⟨t, ht, rfl⟩ := signalToJson_str.1 hj
      exact ⟨_, n, t, hn, ht, icon_eq _ (by simp)⟩
    · exact absurd hx (hnone _ (by omega) (by omega) _)
  · rintro ⟨k, n, t, hn, ht, rfl⟩
    have hk : 1 ≤ k ∧ k ≤ 4 := by
      obtain ⟨bs, u, as, rfl, hu, -⟩ := hn
      obtain ⟨k', m, hu', h1, h2⟩ := hicons u (by simp)
      cases (IsIcon.unique hu hu').1
      exact ⟨h1, h2⟩
    refine ⟨(k - 1).toNat, .str n, _, (hs k hk.1 hk.2 _).2 (.inl ⟨n, hn, rfl⟩),
      signalToJson_str.2 ⟨t, ht, rfl⟩, icon_eq _ (by have := Int.toNat_of_nonneg (a := k - 1) (by omega); simp only [Int.natCast_zero]; omega)⟩

/-- An icon with an index above 4 or below -3 makes the load fail. -/
theorem C38_out_of_range_partial {env : Env} {w : World} (h : Reachable env w) {b : BpId} {data : Val}
    {d : Dict} {l : List Val} (hd : Content data d) (hl : ListAt d "icons" l) {u : Val} {k : Int} {n : String}
    (hu : u ∈ l) (hi : IsIcon u k n) (hk : 4 < k ∨ k < -3) : ∀ w', load b data w ≠ (.ok (), w') := by
  intro w' hw
  obtain ⟨d', col, iv, ic, ev, es, cs, sv, scheds, h1, h2, h3, h4, h5, h6, h7, h8, h9, h10, h11, rfl⟩ :=
    (load_ok h.owned).1 hw
  cases Content.unique (content_iff.1 h1) hd
  rw [listAt_iter hl] at h3
  cases h3
  obtain ⟨l1, l2, rfl⟩ := List.append_of_mem hu
  obtain ⟨acc, ha, h4⟩ := iconsAll_append.1 h4
  obtain ⟨acc', hs, -⟩ := iconsAll_cons_icon hi h4
  have hlen := iconsAll_length ha
  rw [setPy_out (by rw [hlen]; simp only [List.length_cons, List.length_nil]; omega)] at hs
  cases hs

/-- The code does not reject every index outside 1..4: index 0 is accepted and exported as index 4
(Python counts negative list indices from the end). -/
theorem C38_zero_accepted : ¬ ∀ (env : Env) (w : World) (b : BpId) (data : Val) (d : Dict) (l : List Val)
    (u : Val) (k : Int) (n : String), Reachable env w → Content data d → ListAt d "icons" l → u ∈ l →
    IsIcon u k n → (k < 1 ∨ 4 < k) → ∀ w', load b data w ≠ (.ok (), w') := by
  intro H
  refine H Sample.env (World.init Sample.env) 0
    (.dict [("icons", .list [.dict [("index", .int 0), ("signal", Sample.sig "iron" "item")]])]) _ _ _ 0 "iron"
    .init (.bare _ rfl) (.inl rfl) (List.mem_singleton.2 rfl) ⟨_, _, rfl, rfl, rfl, rfl⟩ (.inl (by decide)) _
    (Prod.ext (?_ : _ = Except.ok ()) rfl)
  decide +kernel

example : (toJson 0 (load 0 (.dict [("icons", .list
      [.dict [("index", .int 0), ("signal", Sample.sig "iron" "item")]])]) (World.init Sample.env)).2).1 =
    .ok (.dict [("blueprint", .dict [("item", .str "blueprint"), ("icons", .list
      [.dict [("index", .int 4), ("signal", Sample.sig "iron" "item")]]), ("version", .int 0)])]) := by
  decide +kernel

/-- The sample data meet the hypotheses of `C38_slots`. -/
example : ∃ d, Content Sample.data d ∧
    ListAt d "icons" [.dict [("index", .int 2), ("signal", Sample.sig "iron" "item")]] ∧
    IsIcon (.dict [("index", .int 2), ("signal", Sample.sig "iron" "item")]) 2 "iron" ∧
    (load 0 Sample.data (World.init Sample.env)).1 = .ok () ∧ (toJson 0 Sample.loaded).1.isOk = true :=
  ⟨_, .wrapped _ _ rfl, .inl rfl, ⟨_, _, rfl, rfl, rfl, rfl⟩, by decide +kernel, by decide +kernel⟩

/-! ## C41 Schedules follow their locomotives through renumbering -/

/-- Load and export: one exported schedule per imported one, in order; its content is the imported
content, its locomotives are the exported numbers of the entities with the imported ids. -/
theorem C41_schedules {env : Env} {w w' w'' : World} (h : Reachable env w) {b : BpId} {data v : Val}
    {d o : Dict} {l out : List Val} (hd : Content data d) (hl : ListAt d "schedules" l)
    (hw : load b data w = (.ok (), w')) (he : toJson b w' = (.ok v, w'')) (ho : Content v o)
    (hout : ListAt o "schedules" out) :
    out.length = l.length ∧
    ∀ i (hi : i < l.length) (hi' : i < out.length), ∃ s content locos nums,
      l[i] = .dict s ∧ List.lookup "schedule" s = some content ∧ List.lookup "locomotives" s = some locos ∧
      out[i] = .dict [("locomotives", .list nums), ("schedule", content)] ∧
      ∀ ids, locos = .list ids → Renumber w' (w'.bp b).objs ids nums := by
  obtain ⟨d', col, iv, ic, ev, es, cs, sv, scheds, h1, h2, h3, h4, h5, h6, h7, h8, h9, h10, h11, rfl⟩ :=
    (load_ok h.owned).1 hw
  cases Content.unique (content_iff.1 h1) hd
  rw [listAt_iter hl] at h10
  cases h10
  obtain ⟨ents, icons, -, hi, rfl⟩ := export_content he ho
  have ha := InOrder.auto (base_inOrder w b d col ic es h.owned)
  have hic : scheds.map (scheduleJson (w.base b d col ic es).heap) = out := by
    rw [setBp_bp_self] at hout
    rcases hout with hout | ⟨hout, rfl⟩
    · rw [(export_lookup _ _ _ _).2.2.2.2.2.2.2.1] at hout
      split at hout
      · cases hout
      · cases hout; rfl
    · rw [(export_lookup _ _ _ _).2.2.2.2.2.2.2.1] at hout
      split at hout
      · assumption
      · cases hout
  subst hic
  obtain ⟨hlen, hg⟩ := mapM_get h11
  refine ⟨by simpa using hlen, fun i hi hi' => ?_⟩
  have hi2 : i < scheds.length := by rw [hlen]; exact hi
  obtain ⟨s, content, locos, ids, hs1, hs2, hs3, hs4, hs5⟩ := scheduleNew_ok (hg i hi hi2)
  refine ⟨s, content, locos, _, hs1, hs2, hs3, by rw [List.getElem_map, hs5]; rfl, fun ids' hids => ?_⟩
  rw [hids] at hs4
  cases hs4
  have := renumber_filterMap (w := w.base b d col ic es) (b := b)
    (fun r hr => Option.isSome_iff_exists.1 (ha r hr)) ids
  rw [setBp_bp_self]
  have key : ∀ {u u' : World} {l : List Ref} {ids nums : List Val}, u'.heap = u.heap →
      Renumber u l ids nums → Renumber u' l ids nums := by
    intro u u' l ids nums hh hr
    induction hr with
    | nil => exact .nil
    | found hf hn _ ih => exact .found (by unfold FirstWithId; rw [hh]; exact hf) (by rw [hh]; exact hn) ih
    | dropped hn _ ih => exact .dropped (by rw [hh]; exact hn) ih
  exact key (u := w.base b d col ic es) (l := ((w.base b d col ic es).bp b).objs) rfl this

/-- In the sample the locomotive with id 12 gets number 3. -/
example : ∃ d o, Content Sample.data d ∧
    ListAt d "schedules" [.dict [("locomotives", .list [.int 12]), ("schedule", .list [])]] ∧
    (load 0 Sample.data (World.init Sample.env)).1 = .ok () ∧
    (toJson 0 Sample.loaded).1 = .ok (.dict [("blueprint", .dict o)]) ∧
    ListAt o "schedules" [.dict [("locomotives", .list [.int 3]), ("schedule", .list [])]] := by
  refine ⟨_, ((toJson 0 Sample.loaded).1.toOption.bind
    (fun v => match v with | .dict [(_, .dict o)] => some o | _ => none)).getD [],
    .wrapped _ _ rfl, .inl rfl, by decide +kernel, by decide +kernel, .inl (by decide +kernel)⟩

/-! ## C45 load replaces the content of the blueprint -/

/-- Every entity that was in the blueprint is still there after a successful load, unchanged except for
its exported number. -/
theorem C45_old_entities_stay {env : Env} {w w' : World} (h : Reachable env w) {b : BpId} {data : Val}
    (hw : load b data w = (.ok (), w')) :
    ∀ r ∈ (w.bp b).objs, r ∈ (w'.bp b).objs ∧ SameButNumber (w'.heap r) (w.heap r) := by
  obtain ⟨d, col, iv, ic, ev, es, cs, sv, scheds, h1, h2, h3, h4, h5, h6, h7, h8, h9, h10, h11, rfl⟩ :=
    (load_ok h.owned).1 hw
  intro r hr
  rw [setBp_bp_self]
  exact ⟨(base_mem w b d col ic es h.owned).2 (.inl hr), base_heap_old w b d col ic es (h.owned.exist b r hr)⟩

/-- So loading does not replace the content: there is a blueprint that has more entities than the data
after a successful load. -/
theorem C45_not_replaced : ¬ ∀ (env : Env) (w w' : World) (b : BpId) (data : Val) (d : Dict) (l : List Val),
    Reachable env w → Content data d → ListAt d "entities" l → load b data w = (.ok (), w') →
    (w'.bp b).objs.length = l.length := by
  intro H
  have h1 : (load 0 Sample.data Sample.belts).1 = .ok () := by decide +kernel
  have h2 : ¬ ((load 0 Sample.data Sample.belts).2.bp 0).objs.length =
      [Sample.decData, Sample.ariData, Sample.locoData].length := by decide +kernel
  exact h2 (H Sample.env Sample.belts (load 0 Sample.data Sample.belts).2 0 Sample.data _
    [Sample.decData, Sample.ariData, Sample.locoData] Sample.belts_reachable
    (.wrapped _ _ rfl) (.inl rfl) (Sample.run_eq h1))

/-- On a blueprint without entities, label colour and custom prototypes a load gives exactly what it gives
on a new blueprint, whatever label, icons, wires or schedules it had. -/
theorem C45_empty_partial {env : Env} {w w' : World} (h : Reachable env w) {b : BpId} {data : Val}
    (hobjs : (w.bp b).objs = []) (hcol : (w.bp b).labelColor = none) (hcust : (w.bp b).custom = [])
    (hw : load b data w = (.ok (), w')) :
    ∃ w₀, load b data (World.init w.env) = (.ok (), w₀) ∧ view w₀ b = view w' b := by
  have hi : Reachable w.env (World.init w.env) := .init
  obtain ⟨d, col, iv, ic, ev, es, cs, sv, ss, h1, h2, h3, h4, h5, h6, h7, h8, h9, h10, h11, hv⟩ :=
    (load_view h.owned (view w' b)).1 ⟨w', hw, rfl⟩
  have hvals : (w.base b d col ic es).vals b = ((World.init w.env).base b d col ic es).vals b := by
    rw [base_vals h.owned, base_vals hi.owned, hobjs]
    rfl
  refine (load_view hi.owned (view w' b)).2
    ⟨d, col, iv, ic, ev, es, cs, sv, ss, h1, ?_, h3, h4, h5, ?_, ?_, h8, h9, h10, ?_, ?_⟩
  · rw [hcol] at h2; exact h2
  · rw [customOf_some, hcust] at h6; exact h6
  · rw [← hvals]; exact h7
  · rw [← hvals]; exact h11
  · rw [← hvals, hv, h.noTiles b]; rfl

/-- A used blueprint without entities: after `set_label` and loading data without entities. -/
example : ∃ w, Reachable Sample.env w ∧ (w.bp 0).objs = [] ∧ (w.bp 0).labelColor = none ∧
    (w.bp 0).custom = [] ∧ (w.bp 0).label = .str "old" ∧ (load 0 Sample.data w).1 = .ok () :=
  ⟨((Op.setLabel 0 (.str "old") (.inr .none)).run (World.init Sample.env)).2,
    .step (.setLabel 0 (.str "old") (.inr .none)) .init trivial,
    by decide +kernel, by decide +kernel, by decide +kernel, by decide +kernel, by decide +kernel⟩

/-! ## C50 Label and label colour survive load and export; set_label replaces them -/

/-- Load and export: the exported label is the imported one (absent if it was absent or null), the
version is the imported one (0 if absent), the item as well (`blueprint` if absent). -/
theorem C50_load_export {env : Env} {w w' w'' : World} (h : Reachable env w) {b : BpId} {data v : Val}
    {d o : Dict} (hd : Content data d) (hw : load b data w = (.ok (), w'))
    (he : toJson b w' = (.ok v, w'')) (ho : Content v o) :
    (∀ x, x ≠ .none → (List.lookup "label" o = some x ↔ List.lookup "label" d = some x)) ∧
    List.lookup "version" o = some ((List.lookup "version" d).getD (.int 0)) ∧
    List.lookup "item" o = some ((List.lookup "item" d).getD (.str "blueprint")) := by
  obtain ⟨d', col, iv, ic, ev, es, cs, sv, scheds, h1, h2, h3, h4, h5, h6, h7, h8, h9, h10, h11, rfl⟩ :=
    (load_ok h.owned).1 hw
  cases Content.unique (content_iff.1 h1) hd
  obtain ⟨ents, icons, -, hi, rfl⟩ := export_content he ho
  obtain ⟨objs, hbp⟩ := base_bp w b d col ic es
  rw [setBp_bp_self]
  obtain ⟨e1, e2, e3, e4, e5, e6, e7, e8, e9⟩ := export_lookup
    { (w.base b d col ic es).bp b with
        conns := (cs.foldl addConn []).map (orientTo ((w.base b d col ic es).bp b).objs),
        tiles := sortBy (fun s t => posLe s.pos t.pos) (w.bp b).tiles,
        schedules := scheds } ents icons (scheds.map (scheduleJson (w.base b d col ic es).heap))
  rw [hbp] at e1 e2 e7
  refine ⟨fun x hx => ?_, ?_, ?_⟩
  · rw [hbp]
    refine Iff.trans (iff_of_eq (congrArg (· = some x) e2)) ?_
    show (if Dict.getD d "label" .none = .none then none else some (Dict.getD d "label" .none)) = some x ↔ _
    unfold Dict.getD Dict.get?
    cases hl : List.lookup "label" d with
    | none => simp
    | some y =>
      simp only [Option.getD_some, Option.some.injEq]
      split
      · rename_i e; subst e; simp only [reduceCtorEq, false_iff]; exact fun e => hx e.symm
      · simp
  · rw [hbp]; exact e7
  · rw [hbp]; exact e1

/-- The exported colour is the imported one, brought into range. -/
theorem C50_color {env : Env} {w w' w'' : World} (h : Reachable env w) {b : BpId} {data v : Val}
    {d o c : Dict} (hd : Content data d) (hc : List.lookup "label_color" d = some (.dict c))
    {r g bl a : Rat} (hr : Component c "r" r) (hg : Component c "g" g) (hb : Component c "b" bl)
    (ha : Component c "a" a) (hw : load b data w = (.ok (), w')) (he : toJson b w' = (.ok v, w''))
    (ho : Content v o) : ∃ x, List.lookup "label_color" o = some x ∧ IsColorOf x r g bl a := by
  obtain ⟨d', col, iv, ic, ev, es, cs, sv, scheds, h1, h2, h3, h4, h5, h6, h7, h8, h9, h10, h11, rfl⟩ :=
    (load_ok h.owned).1 hw
  cases Content.unique (content_iff.1 h1) hd
  obtain ⟨ents, icons, -, hi, rfl⟩ := export_content he ho
  obtain ⟨objs, hbp⟩ := base_bp w b d col ic es
  rw [setBp_bp_self, (export_lookup _ _ _ _).2.2.1]
  dsimp only
  rw [hbp]
  unfold Dict.getD Dict.get? at h2
  rw [hc] at h2
  simp only [Option.getD_some, colorAfter, bind_eq_ok, pure_eq_ok, Except.ok.injEq] at h2
  obtain ⟨x, hx, rfl⟩ := h2
  exact ⟨_, rfl, color_of hr hg hb ha hx⟩

/-- Without a colour in the data the blueprint keeps the colour it had (none for a new blueprint). -/
theorem C50_no_color {env : Env} {w w' : World} (h : Reachable env w) {b : BpId} {data : Val} {d : Dict}
    (hd : Content data d) (hc : (List.lookup "label_color" d).getD .none = .none)
    (hw : load b data w = (.ok (), w')) : (w'.bp b).labelColor = (w.bp b).labelColor := by
  obtain ⟨d', col, iv, ic, ev, es, cs, sv, scheds, h1, h2, h3, h4, h5, h6, h7, h8, h9, h10, h11, rfl⟩ :=
    (load_ok h.owned).1 hw
  cases Content.unique (content_iff.1 h1) hd
  obtain ⟨objs, hbp⟩ := base_bp w b d col ic es
  rw [setBp_bp_self]
  dsimp only
  rw [hbp]
  unfold Dict.getD Dict.get? at h2
  rw [hc] at h2
  cases h2
  rfl

/-- `set_label(l, c)` with a dict `c`, then export: the exported label is `l`, the exported colour is `c`
brought into range. -/
theorem C50_set_label {w w' w'' : World} {b : BpId} {l v : Val} {c o : Dict} {r g bl a : Rat}
    (hr : Component c "r" r) (hg : Component c "g" g) (hb : Component c "b" bl) (ha : Component c "a" a)
    (hw : setLabel b l (.inr (.dict c)) w = (.ok (), w')) (he : toJson b w' = (.ok v, w''))
    (ho : Content v o) :
    List.lookup "label" o = (if l = .none then none else some l) ∧
    ∃ x, List.lookup "label_color" o = some x ∧ IsColorOf x r g bl a := by
  obtain ⟨ents, icons, -, hi, rfl⟩ := export_content he ho
  unfold setLabel at hw
  simp only [M.bind_eq_ok, M.lift_eq, modBp_eq, Prod.mk.injEq, true_and] at hw
  obtain ⟨-, _, rfl, x, _, ⟨hx, rfl⟩, rfl⟩ := hw
  rw [setBp_bp_self, setBp_bp_self]
  exact ⟨(export_lookup _ _ _ _).2.1, _, (export_lookup _ _ _ _).2.2.1, color_of hr hg hb ha hx⟩

/-- `set_label(l, c)` with a `Color` object stores that object; `set_label(l)` keeps the colour. -/
theorem C50_set_label_color (w : World) (b : BpId) (l : Val) (c : Color) :
    (setLabel b l (.inl c) w = (.ok (), w.setBp b { w.bp b with label := l, labelColor := some c })) ∧
    (setLabel b l (.inr .none) w = (.ok (), w.setBp b { w.bp b with label := l })) := by
  constructor
  · unfold setLabel
    show (Except.ok (), (w.setBp b _).setBp b _) = _
    rw [setBp_setBp, setBp_bp_self]
  · rfl

example : ∃ data d c v o, Content data d ∧ List.lookup "label_color" d = some (.dict c) ∧
    Component c "r" 2 ∧ Component c "g" (1/2) ∧ Component c "b" (-1) ∧ Component c "a" 1 ∧
    (load 0 data (World.init Sample.env)).1 = .ok () ∧
    (toJson 0 (load 0 data (World.init Sample.env)).2).1 = .ok v ∧ Content v o ∧
    List.lookup "label" o = some (.str "x") :=
  ⟨.dict [("label", .str "x"), ("label_color", .dict [("r", .int 2), ("g", .flt (1/2)), ("b", .int (-1))])],
    _, _, .dict [("blueprint", .dict [("item", .str "blueprint"), ("label", .str "x"),
      ("label_color", .dict [("r", .int 1), ("g", .flt (1/2)), ("b", .int 0), ("a", .int 1)]),
      ("icons", .list []), ("version", .int 0)])], _, .bare _ rfl, rfl,
    .inl ⟨_, rfl, by decide +kernel⟩, .inl ⟨_, rfl, by decide +kernel⟩, .inl ⟨_, rfl, by decide +kernel⟩,
    .inr ⟨rfl, rfl⟩, by decide +kernel, by decide +kernel, .wrapped _ _ rfl, rfl⟩

end Verif
