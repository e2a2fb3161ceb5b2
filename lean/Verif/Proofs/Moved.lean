import Verif.Spec.Moved
import Verif.Spec.Extent
import Verif.Proofs.Reload
import Verif.Proofs.Head
import Verif.Proofs.Content
/-!
# Exports before and after entities are turned, moved or sorted
-/
set_option autoImplicit false

namespace Verif
open Spec

/-! ## The settings of one entity -/

/-- A key that is neither the direction nor the orientation is written the same way. -/
theorem emitChain_turned {env : Env} {dir dir' : Direction} {ms : List Mx} {a a' : Kw} {obj obj' o o' : Dict} {k : String}
    (ha : ∀ key, key ≠ "orientation" → a' key = a key) (h : emitChain env dir ms a obj = .ok o)
    (h' : emitChain env dir' ms a' obj' = .ok o') (hk : k ≠ "direction") (hk' : k ≠ "orientation")
    (ho : List.lookup k obj' = List.lookup k obj) : List.lookup k o' = List.lookup k o := by
  induction ms generalizing obj obj' with
  | nil => cases h; cases h'; exact ho
  | cons m ms ih =>
    unfold emitChain at h h'
    split at h
    · cases h
    rename_i x hx
    split at h'
    · cases h'
    rename_i x' hx'
    refine ih h h' ?_
    by_cases hm : k ∈ emitKeys m
    · have he : x' = x := by
        have : ∀ m, k ∈ emitKeys m → m ≠ .Rotatable ∧ "orientation" ∉ mxAttrs m := by
          intro m
          cases m <;> simp [emitKeys, mxKeys, mxAttrs, hk, hk']
        obtain ⟨h1, h2⟩ := this m hm
        have := mxEmit_congr (env := env) (dir := dir) (dir' := dir') h1
          (fun key hkey => (ha key (fun e => h2 (e ▸ hkey))).symm)
        rw [hx, hx'] at this
        injection this with this
        exact this.symm
      subst he
      rw [lookup_setAll (mxEmit_nodup hx), lookup_setAll (mxEmit_nodup hx), ho]
    · have n1 : k ∉ x.map (·.1) := fun hmem => by
        obtain ⟨p, hp, rfl⟩ := List.mem_map.1 hmem
        exact hm (mxEmit_keys hx p hp)
      have n2 : k ∉ x'.map (·.1) := fun hmem => by
        obtain ⟨p, hp, rfl⟩ := List.mem_map.1 hmem
        exact hm (mxEmit_keys hx' p hp)
      rw [lookup_setAll_of_not n1, lookup_setAll_of_not n2, ho]

/-- The chain of `to_json` succeeds as well if only the direction and the orientation are different. -/
theorem emitChain_turned_ok {env : Env} {dir dir' : Direction} {ms : List Mx} {a a' : Kw} {obj o : Dict}
    (ha : ∀ key, key ≠ "orientation" → a' key = a key) (ho : a "orientation" ≠ none → a' "orientation" ≠ none)
    (h : emitChain env dir ms a obj = .ok o) (obj' : Dict) : ∃ o', emitChain env dir' ms a' obj' = .ok o' := by
  induction ms generalizing obj obj' with
  | nil => exact ⟨obj', rfl⟩
  | cons m ms ih =>
    unfold emitChain at h
    split at h
    · cases h
    rename_i x hx
    have : ∃ x', mxEmit env m a' dir' = .ok x' := by
      by_cases h1 : m = .Rotatable
      · subst h1; exact ⟨_, rfl⟩
      by_cases h2 : m = .Train
      · subst h2
        cases hq : a "orientation" with
        | none =>
          simp only [mxEmit, attr, hq] at hx
          cases hx
        | some v =>
          cases hq' : a' "orientation" with
          | none => exact absurd hq' (ho (by rw [hq]; simp))
          | some v' => exact ⟨objSet "orientation" v', by simp only [mxEmit, attr, hq']; rfl⟩
      · by_cases h3 : m = .Orientation
        · subst h3; exact ⟨_, rfl⟩
        · have h4 : "orientation" ∉ mxAttrs m := by
            revert h2 h3; cases m <;> decide
          refine ⟨x, ?_⟩
          rw [← hx]
          exact mxEmit_congr h1 (fun key hkey => ha key (fun e => h4 (e ▸ hkey)))
    obtain ⟨x', hx'⟩ := this
    obtain ⟨o', ho'⟩ := ih h (setAll obj' x')
    refine ⟨o', ?_⟩
    unfold emitChain
    rw [hx']
    exact ho'

theorem baseObj_free (e : Entity) (c : Option Val) (m : Mx) : ∀ k ∈ emitKeys m, Dict.get? (baseObj e c) k = none := by
  intro k hk
  have : ∀ k ∈ emitKeys m, k ∉ ["entity_number", "name", "position", "connections"] := by cases m <;> decide
  have := this k hk
  rw [baseObj_get]
  simp only [List.mem_cons, List.not_mem_nil, or_false, not_or] at this
  rw [if_neg this.1, if_neg this.2.1, if_neg this.2.2.1, if_neg this.2.2.2]

/-- What the export of an entity says under a key of one of its mixins. -/
theorem emitRest_owned {env : Env} {e : Entity} {c : Option Val} {d : Dict} (hk : e.klass.Ok)
    (h : e.emitRest env (baseObj e c) = .ok d) {m : Mx} (hm : m ∈ e.klass.chain) : ∃ out,
      mxEmit env m (Dict.get? e.attrs) e.dir = .ok out ∧
      ∀ k ∈ emitKeys m, k ≠ "control_behavior" → List.lookup k d = List.lookup k out := by
  obtain ⟨obj1, g1, g2⟩ := emitRest_ok.1 h
  obtain ⟨out, h1, h2⟩ := emitChain_get g1 hk.1 (fun m _ => baseObj_free e c m) m hm
  refine ⟨out, h1, fun k hk hc => ?_⟩
  have := h2 k hk
  unfold Dict.get? at this
  rw [← this]
  rcases g2 with ⟨-, rfl⟩ | ⟨_, _, -, -, rfl⟩
  · rfl
  · split
    · rfl
    · rw [lookup_set, if_neg hc]

/-- … and under a key none of its mixins writes. -/
theorem emitRest_foreign {env : Env} {e : Entity} {c : Option Val} {d : Dict} (h : e.emitRest env (baseObj e c) = .ok d)
    {k : String} (hk : ∀ m ∈ e.klass.chain, k ∉ emitKeys m) (hc : k ≠ "control_behavior") :
    List.lookup k d = List.lookup k (baseObj e c) := by
  obtain ⟨obj1, g1, g2⟩ := emitRest_ok.1 h
  rw [← emitChain_lookup g1 hk]
  rcases g2 with ⟨-, rfl⟩ | ⟨_, _, -, -, rfl⟩
  · rfl
  · split
    · rfl
    · rw [lookup_set, if_neg hc]

/-- A key that is neither the direction nor the orientation is written the same way by `to_json` as a whole. -/
theorem emitRest_turned {env : Env} {e e' : Entity} {obj obj' d d' : Dict} (hcl : e'.klass = e.klass) (hcb : e'.cb = e.cb)
    (ha : ∀ key, key ≠ "orientation" → List.lookup key e'.attrs = List.lookup key e.attrs)
    (h : e.emitRest env obj = .ok d) (h' : e'.emitRest env obj' = .ok d') {k : String} (hk : k ≠ "direction")
    (hk' : k ≠ "orientation") (ho : List.lookup k obj' = List.lookup k obj) :
    List.lookup k d' = List.lookup k d := by
  obtain ⟨o, h1, h2⟩ := emitRest_ok.1 h
  obtain ⟨o', h1', h2'⟩ := emitRest_ok.1 h'
  rw [hcl] at h1'
  have hl := emitChain_turned ha h1 h1' hk hk' ho
  rw [hcb] at h2'
  rcases h2 with ⟨n, rfl⟩ | ⟨c, x, hc, hx, rfl⟩
  · rcases h2' with ⟨-, rfl⟩ | ⟨c', _, hc', -⟩
    · exact hl
    · rw [n] at hc'; cases hc'
  · rcases h2' with ⟨n', -⟩ | ⟨c', x', hc', hx', rfl⟩
    · rw [n'] at hc; cases hc
    · rw [hc] at hc'
      cases hc'
      rw [hcl, hx] at hx'
      cases hx'
      split
      · exact hl
      · rw [lookup_set, lookup_set, hl]

/-- … and it succeeds. -/
theorem emitRest_turned_ok {env : Env} {e e' : Entity} {obj d : Dict} (hcl : e'.klass = e.klass) (hcb : e'.cb = e.cb)
    (ha : ∀ key, key ≠ "orientation" → List.lookup key e'.attrs = List.lookup key e.attrs)
    (hor : List.lookup "orientation" e.attrs ≠ none → List.lookup "orientation" e'.attrs ≠ none)
    (h : e.emitRest env obj = .ok d) (obj' : Dict) : ∃ d', e'.emitRest env obj' = .ok d' := by
  obtain ⟨o, h1, h2⟩ := emitRest_ok.1 h
  obtain ⟨o', h1'⟩ := emitChain_turned_ok (dir' := e'.dir) (a' := Dict.get? e'.attrs) ha hor h1 obj'
  rw [← hcl] at h1'
  rcases h2 with ⟨n, -⟩ | ⟨c, x, hc, hx, -⟩
  · exact ⟨o', emitRest_ok.2 ⟨o', h1', .inl ⟨by rw [hcb, n], rfl⟩⟩⟩
  · exact ⟨_, emitRest_ok.2 ⟨o', h1', .inr ⟨c, x, by rw [hcb, hc], by rw [hcl]; exact hx, rfl⟩⟩⟩

theorem emit_facing {env : Env} {e : Entity} {c : Option Val} {d : Dict} (hk : e.klass.Ok)
    (h : e.emitRest env (baseObj e c) = .ok d) (hm : .Rotatable ∈ e.klass.chain) : facing d = e.dir.n := by
  obtain ⟨out, ho, hl⟩ := emitRest_owned hk h hm
  injection ho with ho
  have := hl "direction" (by decide) (by decide)
  unfold facing
  rw [this, ← ho]
  unfold Direction.isUp
  by_cases h0 : e.dir.n = 0
  · simp [h0]
  · simp [h0]

theorem emit_no_facing {env : Env} {e : Entity} {c : Option Val} {d : Dict}
    (h : e.emitRest env (baseObj e c) = .ok d) (hm : .Rotatable ∉ e.klass.chain) : List.lookup "direction" d = none := by
  rw [emitRest_foreign h (fun m hm' hk => hm ?_) (by decide)]
  · exact baseObj_free e c .Rotatable _ (by decide)
  · have : m = .Rotatable := by
      revert hk
      cases m <;> decide
    exact this ▸ hm'

theorem emit_orientation {env : Env} {e : Entity} {c : Option Val} {d : Dict} (hk : e.klass.Ok)
    (h : e.emitRest env (baseObj e c) = .ok d) (hm : .Train ∈ e.klass.chain) {v : Val}
    (hv : List.lookup "orientation" e.attrs = some v) (hn : v ≠ .none) : List.lookup "orientation" d = some v := by
  obtain ⟨out, ho, hl⟩ := emitRest_owned hk h hm
  rw [hl "orientation" (by decide) (by decide)]
  simp only [mxEmit, attr, Dict.get?, hv] at ho
  injection ho with ho
  rw [← ho]
  unfold objSet
  split
  · exact absurd rfl hn
  · rfl

theorem emit_no_orientation {env : Env} {e : Entity} {c : Option Val} {d : Dict}
    (h : e.emitRest env (baseObj e c) = .ok d) (hm : .Train ∉ e.klass.chain) : List.lookup "orientation" d = none := by
  rw [emitRest_foreign h (fun m hm' hk => hm ?_) (by decide)]
  · exact baseObj_free e c .Train _ (by decide)
  · have : m = .Train := by
      revert hk
      cases m <;> decide
    exact this ▸ hm'

theorem emit_position {env : Env} {e : Entity} {c : Option Val} {d : Dict} (h : e.emitRest env (baseObj e c) = .ok d) :
    List.lookup "position" d = some (.dict [("x", .num e.pos.x), ("y", .num e.pos.y)]) := by
  rw [emitRest_lookup h (by simp)]
  have := baseObj_get e c "position"
  unfold Dict.get? at this
  rw [this]
  rfl

/-- The parts of `MovedData` for exports of one entity. -/
theorem emit_moved {env : Env} {e e' : Entity} {c c' : Option Val} {d d' : Dict} {R : Vec → Vec → Prop}
    (hcl : e'.klass = e.klass) (hcb : e'.cb = e.cb) (hn : e'.name = e.name)
    (ha : ∀ key, key ≠ "orientation" → List.lookup key e'.attrs = List.lookup key e.attrs) (hR : R e.pos e'.pos)
    (h : e.emitRest env (baseObj e c) = .ok d) (h' : e'.emitRest env (baseObj e' c') = .ok d') : MovedData R d d' := by
  refine ⟨⟨e.pos, e'.pos, emit_position h, emit_position h', hR⟩, fun key hkey => ?_⟩
  simp only [List.mem_cons, List.not_mem_nil, or_false, not_or] at hkey
  refine emitRest_turned hcl hcb ha h h' hkey.2.2.1 hkey.2.2.2.1 ?_
  have e1 := baseObj_get e c key
  have e2 := baseObj_get e' c' key
  unfold Dict.get? at e1 e2
  rw [e1, e2, hn, if_neg hkey.1, if_neg hkey.1, if_neg hkey.2.1, if_neg hkey.2.1, if_neg hkey.2.2.2.2,
    if_neg hkey.2.2.2.2]

theorem emit_turned {env : Env} {e e' : Entity} {c c' : Option Val} {d d' : Dict} {k : Int} {cx cy : Rat}
    (hk : e.klass.Ok) (hor : OriOk e.attrs) (ht : TurnedEntity k cx cy e e')
    (h : e.emitRest env (baseObj e c) = .ok d) (h' : e'.emitRest env (baseObj e' c') = .ok d') :
    TurnedData e.klass.chain k cx cy d d' := by
  have hcl : e'.klass = e.klass := congrArg (·.klass) ht.rest
  have hcb : e'.cb = e.cb := congrArg (·.cb) ht.rest
  have hn : e'.name = e.name := congrArg (·.name) ht.rest
  have hk' : e'.klass.Ok := hcl ▸ hk
  refine ⟨emit_moved hcl hcb hn (fun key hkey => ht.attrs key (.inl hkey)) ht.pos h h', fun hm => ?_, fun hm => ?_,
    fun hm => ?_, fun hm => ?_⟩
  · rw [emit_facing hk h hm, emit_facing hk' h' (hcl ▸ hm)]
    exact ht.dir.1 hm
  · exact ⟨emit_no_facing h' (hcl ▸ hm), emit_no_facing h hm⟩
  · have ho : Mx.Orientation ∈ e.klass.chain := (hk.parent hm (p := .Orientation) rfl).subset (by simp)
    obtain ⟨v, n, q, h1, h2, h3, h4⟩ := ht.orientation ho
    rcases hor v h1 with rfl | ⟨p, rfl, -⟩
    · cases h2
    · cases h2
      exact ⟨p, q, emit_orientation hk h hm h1 (by intro e; cases e),
        emit_orientation hk' h' (hcl ▸ hm) h3 (by intro e; cases e), h4⟩
  · exact ⟨emit_no_orientation h' (hcl ▸ hm), emit_no_orientation h hm⟩

/-! ## The whole export -/

theorem listAt_entities_self (p : Bp) (ents icons scheds : List Val) :
    ListAt (exportDict p ents icons scheds) "entities" ents := by
  have h := (export_lookup p ents icons scheds).2.2.2.1
  unfold ListAt
  rw [h]
  split
  · rename_i e
    exact .inr ⟨rfl, e⟩
  · exact .inl rfl

theorem exportDict_others {p : Bp} {objs : List Ref} {ents ents' icons scheds scheds' : List Val} (k : String)
    (h1 : k ≠ "entities") (h2 : k ≠ "schedules") :
    List.lookup k (exportDict { p with objs := objs } ents' icons scheds') = List.lookup k (exportDict p ents icons scheds) := by
  unfold exportDict
  simp only [List.cons_append, List.lookup_cons, List.lookup_append, lookup_layerJson, if_neg h1, if_neg h2]

/-- The new number of the entity with the given number. -/
noncomputable def newNumber (w w' : World) (b : BpId) (v : Val) : Val :=
  open Classical in
  if h : ∃ r ∈ (w.bp b).objs, autoVal (w.heap r).auto = v then autoVal (w'.heap h.choose).auto else v

theorem newNumber_of {w w' : World} {b : BpId} (hw : WellNumbered w b) {r : Ref} (hr : r ∈ (w.bp b).objs) :
    newNumber w w' b (autoVal (w.heap r).auto) = autoVal (w'.heap r).auto := by
  have h : ∃ s ∈ (w.bp b).objs, autoVal (w.heap s).auto = autoVal (w.heap r).auto := ⟨r, hr, rfl⟩
  unfold newNumber
  rw [dif_pos h]
  have := h.choose_spec
  rw [hw.different _ this.1 r hr (autoVal_inj this.2)]

/-- Two exports of a blueprint whose entities are the same, maybe in another order and with other numbers. -/
theorem sameExport {w w' w1 w1' : World} {b : BpId} {v v' : Val} {o o' : Dict} {R : Ref → Dict → Dict → Prop}
    (h : Owned w) (h' : Owned w') (hp : (w'.bp b).objs.Perm (w.bp b).objs)
    (hrest : { w'.bp b with objs := (w.bp b).objs } = w.bp b) (henv : w'.env = w.env) (hw : WellNumbered w b)
    (he : toJson b w = (.ok v, w1)) (ho : Content v o) (he' : toJson b w' = (.ok v', w1')) (ho' : Content v' o')
    (hR : ∀ r ∈ (w.bp b).objs, ∀ c c' d d', (w.heap r).emitRest w.env (baseObj (w.heap r) c) = .ok d →
      (w'.heap r).emitRest w.env (baseObj (w'.heap r) c') = .ok d' → R r d d') : SameExport w w' b R o o' := by
  have hconns : (w'.bp b).conns = (w.bp b).conns := congrArg (·.conns) hrest
  have hscheds : (w'.bp b).schedules = (w.bp b).schedules := congrArg (·.schedules) hrest
  have hicons : (w'.bp b).icons = (w.bp b).icons := congrArg (·.icons) hrest
  have hbp : w'.bp b = { w.bp b with objs := (w'.bp b).objs } := by rw [← hrest]
  obtain ⟨ents, icons, hi, rfl, hlen, hall⟩ := export_parts h he
  obtain ⟨ents', icons', hi', rfl, hlen', hall'⟩ := export_parts h' he'
  have eo : o = exportDict (w.bp b) ents icons ((w.bp b).schedules.map (scheduleJson w.heap)) := by
    cases ho with
    | wrapped _ _ h => simpa [List.lookup, eq_comm] using h
    | bare _ h => simp [List.lookup] at h
  have eo' : o' = exportDict (w'.bp b) ents' icons' ((w'.bp b).schedules.map (scheduleJson w'.heap)) := by
    cases ho' with
    | wrapped _ _ h => simpa [List.lookup, eq_comm] using h
    | bare _ h => simp [List.lookup] at h
  rw [henv, hicons, hi] at hi'
  cases hi'
  have la : ListAt o "entities" ents := eo ▸ listAt_entities_self ..
  have la' : ListAt o' "entities" ents' := eo' ▸ listAt_entities_self ..
  obtain ⟨-, hw1⟩ := export_wires h he ho la
  obtain ⟨-, hw1'⟩ := export_wires h' he' ho' la'
  refine ⟨newNumber w w' b, ents, ents', _, _, la, la', eo ▸ listAt_schedules .., eo' ▸ listAt_schedules .., hlen, hlen', hp,
    fun i j r hir hjr => ?_, ?_, fun k h1 h2 => ?_⟩
  · obtain ⟨hil, rfl⟩ := List.getElem?_eq_some_iff.1 hir
    obtain ⟨hjl, hjr⟩ := List.getElem?_eq_some_iff.1 hjr
    have hmem := List.getElem_mem hil
    obtain ⟨d, oc, -, hd, hemit, -⟩ := hall i hil
    obtain ⟨d', oc', -, hd', hemit', -⟩ := hall' j hjl
    obtain ⟨d2, cs, hd2, hnum, hcs, -, hrefs, hfar, -⟩ := hw1 i hil
    obtain ⟨d2', cs', hd2', hnum', hcs', -, hrefs', hfar', -⟩ := hw1' j hjl
    rw [hd] at hd2
    cases hd2
    rw [hd'] at hd2'
    cases hd2'
    rw [hjr] at hemit' hnum' hcs' hrefs' hfar'
    rw [henv] at hemit'
    refine ⟨d, d', hd, hd', hR _ hmem _ _ _ _ hemit hemit', ?_, fun side color => ?_⟩
    · rw [hnum, hnum']
      exact congrArg some (newNumber_of hw hmem).symm
    · rw [hrefs, hrefs']
      refine ((contribs_ids hcs' side color).trans ((hfar' side color).map _)).trans ?_
      have e1 := ((contribs_ids (heap := w.heap) hcs side color).trans ((hfar side color).map _)).map
        (Option.map (newNumber w w' b))
      rw [List.map_map] at e1
      refine List.Perm.trans (.of_eq ?_) e1.symm
      rw [hconns, List.map_map]
      refine List.map_congr_left fun p hpm => ?_
      obtain ⟨c, hc, -, hh⟩ := mem_farEnds.1 hpm
      have : ∃ s ∈ (w.bp b).objs, p.1 = some s := by
        obtain ⟨⟨r1, hr1, e1⟩, r2, hr2, e2⟩ := hw.wires c hc
        rcases hh with hh | hh
        · exact ⟨r2, hr2, by rw [← e2, hh.2.2.1]⟩
        · exact ⟨r1, hr1, by rw [← e1, hh.2.2.1]⟩
      obtain ⟨s, hs, hps⟩ := this
      simp only [numOf, Function.comp_apply, hps, Option.map_some, newNumber_of hw hs]
  · rw [hscheds]
    have : ∀ l : List (List Ref × Val), (∀ s ∈ l, ∀ r ∈ s.1, r ∈ (w.bp b).objs) →
        List.Forall₂ (RenumberedSchedule (newNumber w w' b)) (l.map (scheduleJson w.heap)) (l.map (scheduleJson w'.heap)) := by
      intro l hl
      induction l with
      | nil => exact .nil
      | cons s l ih =>
        refine .cons ⟨_, _, rfl, ?_⟩ (ih fun s hs => hl s (List.mem_cons_of_mem _ hs))
        unfold scheduleJson
        rw [List.map_map]
        congr 4
        refine List.map_congr_left fun r hr => ?_
        exact (newNumber_of hw (hl s (List.mem_cons_self ..) r hr)).symm
    exact this _ hw.locomotives
  · rw [eo, eo', hbp]
    exact exportDict_others k h1 h2

/-! ## The export succeeds -/

theorem entToJson_total {w x : World} {b : BpId} {r : Ref} {s : Dict} (hx : SameUpToFlips w x)
    (hl : (w.heap r).layer = some b) (hj : ∀ c ∈ (w.bp b).conns, c.joined)
    (hn : ∀ c ∈ (w.bp b).conns, ∀ s, c.fromE = some s ∨ c.toE = some s → ∃ n, (w.heap s).auto = some n)
    (hs : (w.heap r).settings w.env = .ok s) : ∃ v x', entToJson r x = (.ok v, x') := by
  have : HasSettings x r s := by
    refine hasSettings (b := b) (by rw [hx.heap]; exact hl) (fun c hc => ?_) (fun c hc t ht => ?_) (by rw [hx.heap, hx.env]; exact hs)
    · obtain ⟨f, hf, hs⟩ := pairwise_forall₂.forall₂_mem (hx.conns b) c hc
      exact (SameWire.joined hs).2 (hj f hf)
    · obtain ⟨f, hf, hs⟩ := pairwise_forall₂.forall₂_mem (hx.conns b) c hc
      rw [hx.heap]
      refine hn f hf t ?_
      rcases hs with rfl | rfl
      · exact ht
      · exact ht.symm
  obtain ⟨d, x', h, -⟩ := this
  exact ⟨_, _, h⟩

theorem toJson_total {w : World} (h : Owned w) {b : BpId} (hj : ∀ c ∈ (w.bp b).conns, c.joined)
    (hn : ∀ c ∈ (w.bp b).conns, ∀ s, c.fromE = some s ∨ c.toE = some s → ∃ n, (w.heap s).auto = some n)
    (hs : ∀ r ∈ (w.bp b).objs, ∃ s, (w.heap r).settings w.env = .ok s)
    (hi : ∃ icons, iconsJson w.env 0 (w.bp b).icons = .ok icons) : ∃ v w', toJson b w = (.ok v, w') := by
  have key : ∀ (l : List Ref) (x : World), (∀ r ∈ l, r ∈ (w.bp b).objs) → SameUpToFlips w x →
      ∃ vs x', M.mapL entToJson l x = (.ok vs, x') := by
    intro l
    induction l with
    | nil => exact fun x _ _ => ⟨[], x, rfl⟩
    | cons r l ih =>
      intro x hl hx
      have hr := hl r (List.mem_cons_self ..)
      obtain ⟨s, hs⟩ := hs r hr
      obtain ⟨v, x1, h1⟩ := entToJson_total hx (h.layer b r hr) hj hn hs
      have hx1 : SameUpToFlips w x1 := by
        have := (Keeps.flips_entToJson w r).1 x hx
        rw [h1] at this
        exact this
      obtain ⟨vs, x2, h2⟩ := ih x1 (fun r hr => hl r (List.mem_cons_of_mem _ hr)) hx1
      refine ⟨v :: vs, x2, ?_⟩
      change (entToJson r >>= fun b => M.mapL entToJson l >>= fun bs => (pure (b :: bs) : M (List Val))) x = _
      rw [M.bind_ok h1, M.bind_ok h2]
      rfl
  obtain ⟨vs, x, hv⟩ := key _ w (fun _ h => h) (.refl w)
  obtain ⟨icons, hi⟩ := hi
  exact ⟨_, x, toJson_ok.2 ⟨vs, icons, hv, hi, rfl⟩⟩

end Verif
