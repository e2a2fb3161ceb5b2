import Verif.Proofs.EntTrip
import Verif.Proofs.Make
import Verif.Spec.RoundTrip
/-!
# Helper lemmas: exported entities and histories of calls
-/
set_option autoImplicit false

namespace Verif
open Spec

theorem isConst_iff {c : Cb} {k : String} : IsConst ((Dict.get? c.attrs k).getD .none) ↔ ConstantAt c k := by
  unfold IsConst ConstantAt Dict.get?
  constructor
  · rintro ⟨z, hz⟩
    cases hx : List.lookup k c.attrs with
    | none => rw [hx] at hz; cases hz
    | some v =>
      rw [hx] at hz
      refine ⟨z, ?_⟩
      change signalGet v = _ at hz
      unfold signalGet at hz
      split at hz <;> first | (cases hz; rfl) | cases hz
  · rintro ⟨z, hz⟩
    exact ⟨z, by rw [hz]; rfl⟩

theorem readable_operands {c : Cb} (h : ReadableConstants c) : ReadableOperands c :=
  ⟨fun hm hx => h.1 hm (isConst_iff.1 hx),
    fun hm => ⟨fun hx => (h.2 hm).1 (isConst_iff.1 hx), fun hx => (h.2 hm).2 (isConst_iff.1 hx)⟩⟩

theorem readable_filters {env : Env} {e : Entity} {d : Dict} (h : ReadableNames env e d) : ReadableFilters env d e := by
  intro hm fs hfs f hf s hs hne
  obtain ⟨f', rfl, hl⟩ := subscript_ok.1 hs
  have := h hm fs hfs f' hf s hl hne
  unfold Unknown at this
  unfold Dict.mem Dict.get?
  cases hx : List.lookup s env.signals with
  | none => exact absurd hx this
  | some v => rfl

theorem noCustom_lookup {env : Env} {p : Bp} {name : String} (h : NoCustom env p name) :
    ∀ data ty, Dict.get? env.entities name = some data → data.subscript "type" = .ok (.str ty) →
      (((some p.custom).getD []).lookup ty).getD [] = [] := by
  intro data ty h1 h2
  obtain ⟨d, rfl, hl⟩ := subscript_ok.1 h2
  show (List.lookup ty p.custom).getD [] = []
  rw [h ty ⟨d, h1, hl⟩]
  rfl

/-! ## Histories -/

theorem SolidP.prim {P : Env → String → Klass → Prop} {k : Kind} (hd : k.data = false) (hn : k.names = false) {w w' : World} {r : Ref} (hr : r < w.next)
    (h : SolidP P w.env (w.heap r)) (hp : Prim k w w') : r < w'.next ∧ w'.env = w.env ∧ SolidP P w'.env (w'.heap r) := by
  have hset : ∀ s e, (s = r → SolidP P w.env e) → SolidP P w.env ((w.setEnt s e).heap r) := by
    intro s e he
    rw [setEnt_heap]
    split
    · rename_i hh; exact he hh.symm
    · exact h
  cases hp with
  | ent s e he =>
    refine ⟨hr, rfl, hset s e ?_⟩
    rintro rfl
    rw [hn] at he
    exact h.eff (he.mono id (fun _ => rfl))
  | env e hx => rw [hd] at hx; cases hx
  | bp b p h1 h2 h3 _ => exact ⟨hr, rfl, h⟩
  | sort b =>
    refine ⟨hr, rfl, ?_⟩
    obtain ⟨n, hn⟩ := sort_heap w b r
    rw [hn]
    exact h.update rfl h.dir (.inl rfl)
  | noConns b => exact ⟨hr, rfl, h⟩
  | addConn b s c' _ => exact ⟨hr, rfl, h⟩
  | orient b s => exact ⟨hr, rfl, h⟩
  | flip b i => exact ⟨hr, rfl, h⟩
  | flipColor b i _ => exact ⟨hr, rfl, h⟩
  | alloc l e he =>
    refine ⟨Nat.lt_succ_of_lt hr, rfl, hset _ e ?_⟩
    rintro rfl
    exact absurd hr (Nat.lt_irrefl _)
  | load b e he =>
    refine ⟨Nat.lt_succ_of_lt hr, rfl, hset _ e ?_⟩
    rintro rfl
    exact absurd hr (Nat.lt_irrefl _)
  | add b s hs hl hn =>
    refine ⟨hr, rfl, hset s _ ?_⟩
    rintro rfl
    exact h.update rfl h.dir (.inl rfl)
  | drop b s hs =>
    refine ⟨hr, rfl, hset s _ ?_⟩
    rintro rfl
    exact h.update rfl h.dir (.inl rfl)

theorem SolidP.later {P : Env → String → Klass → Prop} {w w' : World} {r : Ref} (hr : r < w.next) (h : SolidP P w.env (w.heap r)) (hl : Later r w w') :
    r < w'.next ∧ w'.env = w.env ∧ SolidP P w'.env (w'.heap r) := by
  induction hl with
  | refl => exact ⟨hr, rfl, h⟩
  | step op hl hok hq ih =>
    rename_i w'
    have hrec : ∀ k : Kind, k.data = false → k.names = false → Steps k w' (op.run w').2 →
        r < (op.run w').2.next ∧ (op.run w').2.env = w.env ∧ SolidP P (op.run w').2.env ((op.run w').2.heap r) := by
      intro k hd hn hs
      refine Steps.induct (k := k) (I := fun v => r < v.next ∧ v.env = w.env ∧ SolidP P v.env (v.heap r)) ?_ hs ih
      rintro v v' ⟨i1, i2, i3⟩ hp
      obtain ⟨j1, j2, j3⟩ := SolidP.prim hd hn i1 i3 hp
      exact ⟨j1, j2.trans i2, j3⟩
    by_cases hname : ∃ s e, s ≠ r ∧ (op.run w').2 = w'.setEnt s e
    · obtain ⟨s, x, hs, e⟩ := hname
      rw [e]
      refine ⟨ih.1, ih.2.1, ?_⟩
      have e2 : (w'.setEnt s x).heap r = w'.heap r := by
        rw [setEnt_heap, if_neg (Ne.symm hs)]
      rw [e2]
      exact ih.2.2
    · refine hrec op.kind ?_ ?_ (op.steps hok)
      · cases op <;> first | rfl | exact hq.elim
      · cases op <;> first | rfl | exact absurd ⟨_, _, hq, rfl⟩ hname

/-- In a run without renaming, new prototype data and custom mixins. -/
theorem Spec.SteadyRun.inv {env : Env} {w : World} (h : SteadyRun env w) :
    w.env = env ∧ (∀ b, (w.bp b).custom = []) ∧ ∀ r < w.next, (w.heap r).strict = true → Solid w.env (w.heap r) := by
  induction h with
  | init => exact ⟨rfl, fun _ => rfl, fun r hr => absurd hr (Nat.not_lt_zero r)⟩
  | step op _ hok hq ih =>
    rename_i w
    have hd : op.kind.data = false := by cases op <;> first | rfl | exact hq.elim
    have hn : op.kind.names = false := by cases op <;> first | rfl | exact hq.elim
    have hc : op.kind.customs = false := by cases op <;> first | rfl | exact hq.elim
    refine Steps.induct (I := fun v => v.env = env ∧ (∀ b, (v.bp b).custom = []) ∧
      ∀ r < v.next, (v.heap r).strict = true → Solid v.env (v.heap r)) ?_ (op.steps hok) ih
    rintro v v' ⟨i1, i2, i3⟩ hp
    have henv : v'.env = env := by
      cases hp with
      | env e hx => rw [hd] at hx; cases hx
      | _ => exact i1
    have key : ∀ (u : World) (b : BpId) (p : Bp), (∀ b, (u.bp b).custom = []) → p.custom = [] →
        ∀ c, ((u.setBp b p).bp c).custom = [] := by
      intro u b p hu hp c
      rw [setBp_bp]
      split
      · exact hp
      · exact hu c
    have hcus : ∀ b, (v'.bp b).custom = [] := by
      cases hp with
      | ent s e he => exact i2
      | env e hx => exact i2
      | bp b p h1 h2 h3 h4 =>
        refine key v b p i2 ?_
        rcases h4 with h4 | h4
        · rw [h4]; exact i2 b
        · rw [hc] at h4; cases h4
      | sort b =>
        intro c
        by_cases e : c = b
        · subst e; rw [sort_bp_self]; exact i2 c
        · rw [sort_bp_other e]; exact i2 c
      | noConns b => exact key v b _ i2 (i2 b)
      | addConn b s c' _ => exact key v b _ i2 (i2 b)
      | orient b s => exact key v b _ i2 (i2 b)
      | flip b i => exact key v b _ i2 (i2 b)
      | flipColor b i _ => exact key v b _ i2 (i2 b)
      | alloc l e he => exact i2
      | load b e he => exact key _ b _ i2 (i2 b)
      | add b s hs hl hn => exact key v b _ i2 (i2 b)
      | drop b s hs => exact key v b _ i2 (i2 b)
    have custom_none : ∀ l ty, List.lookup ty ((v.customOf l).getD []) = none := by
      intro l ty
      cases l with
      | none => rfl
      | some b =>
        show List.lookup ty (v.bp b).custom = none
        rw [i2 b]
        rfl
    have fresh : ∀ l e, NewIn v l e → e.strict = true → Solid v.env e := by
      rintro l e ⟨kw, he⟩ hs
      exact Solid.new he hs (fun _ ty _ _ => by rw [custom_none]; rfl)
    refine ⟨henv, hcus, ?_⟩
    intro r hr hs
    by_cases hlt : r < v.next
    · have hst : (v.heap r).strict = true := by
        have hset : ∀ s e, ((v.setEnt s e).heap r).strict = true → (s = r → e.strict = (v.heap r).strict) →
            (v.heap r).strict = true := by
          intro s e he hh
          rw [setEnt_heap] at he
          split at he
          · rename_i hx; rw [← hh hx.symm]; exact he
          · exact he
        cases hp with
        | ent s e he =>
          refine hset s e hs ?_
          rintro rfl
          rw [hn] at he
          exact he.strict
        | sort b =>
          obtain ⟨n, hn⟩ := sort_heap v b r
          rw [hn] at hs
          exact hs
        | alloc l e he => exact hset _ e hs (fun h => absurd hlt (by rw [← h]; exact Nat.lt_irrefl _))
        | load b e he => exact hset _ e hs (fun h => absurd hlt (by rw [← h]; exact Nat.lt_irrefl _))
        | add b s _ _ _ => exact hset s _ hs (by rintro rfl; rfl)
        | drop b s _ => exact hset s _ hs (by rintro rfl; rfl)
        | _ => exact hs
      exact (SolidP.prim hd hn hlt (i3 r hlt hst) hp).2.2
    · have hset : ∀ e, v.next = r → Solid v.env e → Solid v.env ((v.setEnt v.next e).heap r) := by
        intro e he hh
        rw [setEnt_heap, if_pos he.symm]
        exact hh
      have hs' : ∀ e, v.next = r → ((v.setEnt v.next e).heap r).strict = true → e.strict = true := by
        intro e he hh
        rw [setEnt_heap, if_pos he.symm] at hh
        exact hh
      cases hp with
      | alloc l e he =>
        have : v.next = r := Nat.le_antisymm (Nat.le_of_not_lt hlt) (Nat.le_of_lt_succ hr)
        exact hset e this (fresh l e he (hs' e this hs))
      | load b e he =>
        have : v.next = r := Nat.le_antisymm (Nat.le_of_not_lt hlt) (Nat.le_of_lt_succ hr)
        exact hset e this (fresh _ e he (hs' e this hs))
      | _ => exact absurd hr hlt

/-! ## Export -/

theorem entToJson_base {r : Ref} {w w' : World} {v : Val} (h : entToJson r w = (.ok v, w')) :
    ∃ c d, v = .dict d ∧ (w.heap r).emitRest w.env (baseObj (w.heap r) c) = .ok d := by
  unfold entToJson at h
  rw [M.bind_get, M.bind_eq_ok] at h
  obtain ⟨o, v1, h1, h⟩ := h
  rw [M.bind_eq_ok] at h
  obtain ⟨d, v2, h2, h⟩ := h
  cases h
  rw [M.lift_eq] at h2
  have h2' := congrArg Prod.fst h2
  refine ⟨if o.isEmpty then none else some (wireJson o), d, rfl, ?_⟩
  refine Eq.trans ?_ h2'
  show _ = Entity.emitRest w.env (w.heap r) _
  congr 1
  cases o <;> rfl

theorem entToJson_free {r : Ref} {w : World} {b : BpId} {d : Dict} (hl : (w.heap r).layer = some b)
    (hc : (w.bp b).conns = []) (h : (w.heap r).emitRest w.env (baseObj (w.heap r) none) = .ok d) :
    ∃ w', entToJson r w = (.ok (.dict d), w') := by
  have h1 : connectionsToJson r w = (.ok [], w.setBp b { w.bp b with conns := [] }) := by
    have hg : getConnections r w = (.ok [], w.setBp b { w.bp b with conns := [] }) := by
      unfold getConnections
      rw [hl]
      dsimp only
      rw [hc]
      rfl
    unfold connectionsToJson
    rw [M.bind_ok hg, M.bind_get]
    rfl
  refine ⟨w.setBp b { w.bp b with conns := [] }, ?_⟩
  unfold entToJson
  rw [M.bind_get, M.bind_ok h1]
  have h2 : M.lift ((w.heap r).emitRest w.env
      [("entity_number", autoVal (w.heap r).auto), ("name", .str (w.heap r).name), ("position", (w.heap r).pos.toJson)])
      (w.setBp b { w.bp b with conns := [] }) = (.ok d, w.setBp b { w.bp b with conns := [] }) := by
    rw [M.lift_eq]
    exact congrArg (fun x => (x, w.setBp b { w.bp b with conns := [] })) h
  exact (M.bind_ok h2).trans rfl

/-! ## Settings -/

theorem entitySettings_set {d : Dict} {k : String} {v : Val} (h1 : k ≠ "entity_number") (h2 : k ≠ "connections") :
    entitySettings (Dict.set d k v) = Dict.set (entitySettings d) k v := by
  unfold entitySettings
  induction d with
  | nil =>
    show List.filter _ [(k, v)] = [(k, v)]
    simp [h1, h2]
  | cons p d ih =>
    obtain ⟨l, x⟩ := p
    show List.filter _ (if l = k then (l, v) :: d else (l, x) :: Dict.set d k v) = _
    by_cases hl : l = k
    · subst hl
      rw [if_pos rfl, List.filter_cons, List.filter_cons]
      have : (l != "entity_number" && l != "connections") = true := by simp [h1, h2]
      rw [if_pos this, if_pos this]
      show _ = if l = l then _ else _
      rw [if_pos rfl]
    · rw [if_neg hl, List.filter_cons, List.filter_cons]
      split
      · show _ = if l = k then _ else _
        rw [if_neg hl, ih]
      · exact ih

theorem entitySettings_setAll {d ws : Dict} (h : ∀ p ∈ ws, p.1 ≠ "entity_number" ∧ p.1 ≠ "connections") :
    entitySettings (setAll d ws) = setAll (entitySettings d) ws := by
  induction ws generalizing d with
  | nil => rfl
  | cons p ws ih =>
    show entitySettings (setAll (Dict.set d p.1 p.2) ws) = setAll (Dict.set (entitySettings d) p.1 p.2) ws
    rw [ih (fun q hq => h q (List.mem_cons_of_mem _ hq)),
      entitySettings_set (h p (List.mem_cons_self ..)).1 (h p (List.mem_cons_self ..)).2]

theorem emitChain_settings {env : Env} {dir : Direction} {ms : List Mx} {a : Kw} {obj : Dict} :
    (emitChain env dir ms a obj).map entitySettings = emitChain env dir ms a (entitySettings obj) := by
  induction ms generalizing obj with
  | nil => rfl
  | cons m ms ih =>
    unfold emitChain
    split
    · rfl
    · rename_i ws hw
      rw [ih, entitySettings_setAll]
      intro p hp
      have := mxEmit_keys hw p hp
      have key : ∀ k ∈ emitKeys m, k ≠ "entity_number" ∧ k ≠ "connections" := by cases m <;> decide
      exact key _ this

theorem emitRest_settings {env : Env} {e : Entity} {obj : Dict} :
    (e.emitRest env obj).map entitySettings = e.emitRest env (entitySettings obj) := by
  unfold Entity.emitRest
  rw [← emitChain_settings]
  cases emitChain env e.dir e.klass.chain (Dict.get? e.attrs) obj with
  | error x => rfl
  | ok o =>
    cases hc : e.cb with
    | none => rfl
    | some c =>
      dsimp only
      show Except.map _ (do match ← (c.seenBy e.klass).toJson env with
        | none => return o
        | some d => return Dict.set o "control_behavior" (.dict d) : Except Exc Dict) =
        (do match ← (c.seenBy e.klass).toJson env with
        | none => return entitySettings o
        | some d => return Dict.set (entitySettings o) "control_behavior" (.dict d) : Except Exc Dict)
      cases (c.seenBy e.klass).toJson env with
      | error x => rfl
      | ok y =>
        cases y with
        | none => rfl
        | some d =>
          show Except.ok (entitySettings (Dict.set o "control_behavior" (.dict d))) = _
          rw [entitySettings_set (by decide) (by decide)]
          rfl

theorem baseObj_settings (e : Entity) (c : Option Val) :
    entitySettings (baseObj e c) = [("name", .str e.name), ("position", e.pos.toJson)] := by
  cases c <;> rfl

theorem layerMake_placed {b : BpId} {kw : Dict} {w w' : World} {r : Ref} (h : layerMake b kw w = (.ok r, w')) :
    r < w'.next ∧ w'.env = w.env := by
  have h' := h
  unfold Verif.layerMake at h'
  obtain ⟨s, v, hn, h'⟩ := M.bind_eq_ok.1 h'
  obtain ⟨e2, he2, rfl, rfl⟩ := newEntity_ok hn
  obtain ⟨_, u, ha, h'⟩ := M.bind_eq_ok.1 h'
  cases h'
  unfold layerAdd at ha
  dsimp only at ha
  split at ha
  · cases ha
  · split at ha
    · cases ha; exact ⟨Nat.lt_succ_self _, rfl⟩
    · cases ha; exact ⟨Nat.lt_succ_self _, rfl⟩

theorem SolidIn.layerMake {cs : List Mx} {b : BpId} {kw : Dict} {w w' : World} {r : Ref}
    (h : layerMake b kw w = (.ok r, w')) (hs : (w'.heap r).strict = true)
    (hc : ∀ data ty, Dict.get? w.env.entities (w'.heap r).name = some data → data.subscript "type" = .ok (.str ty) →
      (List.lookup ty (w.bp b).custom).getD [] = cs)
    (hg : ∀ ty ms, prototypeMixins ty = some ms → Klass.extend 0 Klass.entity (cs ++ ms) = .ok (w'.heap r).klass →
      GoodKlass (w'.heap r).klass) :
    r < w'.next ∧ w'.env = w.env ∧ SolidIn cs w'.env (w'.heap r) := by
  obtain ⟨e, n, he, hh⟩ := layerMake_new h
  have henv := layerMake_placed h
  refine ⟨henv.1, henv.2, ?_⟩
  rw [henv.2]
  rw [hh] at hs hc hg ⊢
  have hsol : SolidIn cs w.env e := SolidIn.new he hs hc hg
  exact hsol.update rfl hsol.dir (.inl rfl)

theorem Solid.layerMake {b : BpId} {kw : Dict} {w w' : World} {r : Ref} (h : layerMake b kw w = (.ok r, w'))
    (hs : (w'.heap r).strict = true) (hc : NoCustom w.env (w.bp b) (w'.heap r).name) :
    r < w'.next ∧ w'.env = w.env ∧ Solid w'.env (w'.heap r) :=
  SolidIn.layerMake h hs (noCustom_lookup hc) (fun ty ms h1 h2 => rows_good (ty, ms) (mem_of_lookup h1) _ h2)

theorem sort_conns (w : World) (b : BpId) : ((w.sort b).bp b).conns = (w.bp b).conns := by
  show ((w.setBp b _).bp b).conns = _
  rw [setBp_bp_self]

theorem layerMake_run {b : BpId} {kw : Dict} {w : World} {e : Entity}
    (h : Entity.new w.env (w.customOf (some b)) (some b) kw = .ok e) (hl : e.layer = some b) :
    ∃ w' n, layerMake b kw w = (.ok w.next, w') ∧ w'.heap w.next = { e with auto := n } ∧
      (w'.bp b).conns = (w.bp b).conns ∧ w'.env = w.env := by
  have hn : newEntity (some b) kw w = (.ok w.next, { (w.setEnt w.next e) with next := w.next + 1 }) := by
    unfold newEntity
    rw [h]
    rfl
  have hh : (({ (w.setEnt w.next e) with next := w.next + 1 } : World).heap w.next) = e := by
    show (w.setEnt w.next e).heap w.next = e
    rw [setEnt_heap, if_pos rfl]
  obtain ⟨v, n, ha, hv⟩ := layerAdd_attached (w := { (w.setEnt w.next e) with next := w.next + 1 }) (b := b) (r := w.next)
    (by rw [hh]; exact hl)
  refine ⟨v, n, ?_, by rw [hv, hh], ?_⟩
  · unfold Verif.layerMake
    rw [M.bind_ok hn, M.bind_ok ha]
    rfl
  · unfold layerAdd at ha
    dsimp only at ha
    split at ha
    · cases ha
    · split at ha
      · cases ha; exact ⟨rfl, rfl⟩
      · cases ha
        refine ⟨?_, rfl⟩
        rw [sort_conns]
        show (World.bp (World.setBp _ b _) b).conns = _
        rw [setBp_bp_self]
        rfl

/-- Importing the exported settings of an entity again. -/
theorem SolidIn.again {cs : List Mx} {w w' w2 : World} {r : Ref} {d : Dict} {b2 : BpId} (h : SolidIn cs w.env (w.heap r))
    (he : entToJson r w = (.ok (.dict d), w')) (hr : ∀ c, (w.heap r).cb = some c → ReadableConstants c)
    (hf : ReadableNames w.env (w.heap r) d) (henv : w2.env = w.env) (hconn : (w2.bp b2).conns = [])
    (hc : ∀ data ty, Dict.get? w.env.entities (w.heap r).name = some data → data.subscript "type" = .ok (.str ty) →
      (List.lookup ty (w2.bp b2).custom).getD [] = cs) :
    ∃ r2 w3 d' w4, Verif.layerMake b2 d w2 = (.ok r2, w3) ∧ entToJson r2 w3 = (.ok (.dict d'), w4) ∧
      entitySettings d' = entitySettings d ∧ (w3.heap r2).klass = (w.heap r).klass ∧
      (.Combinator ∈ (w.heap r).klass.cbChain → ∀ c, (w.heap r).cb = some c →
        ∃ c', (w3.heap r2).cb = some c' ∧ SameFunction c c') := by
  obtain ⟨cv, d1, hd1, hemit⟩ := entToJson_base he
  cases hd1
  obtain ⟨e', hnew, hlayer, hname, hpos, -, -, -, hkl, -, -, hrest, hcomb⟩ := SolidIn.trip (some b2) h hemit
    (fun c hx => readable_operands (hr c hx)) (readable_filters hf) (custom := w2.customOf (some b2)) hc
  rw [← henv] at hnew
  obtain ⟨w3, n, hm, hheap, hcon, henv3⟩ := layerMake_run hnew hlayer
  have hset := emitRest_settings (env := w.env) (e := w.heap r) (obj := baseObj (w.heap r) cv)
  rw [hemit, baseObj_settings] at hset
  change Except.ok (entitySettings d) = _ at hset
  have hrest' : ∀ obj, Entity.emitRest w3.env (w3.heap w2.next) obj = Entity.emitRest w.env (w.heap r) obj := by
    intro obj
    rw [hheap, henv3, henv, ← hrest obj]
    rfl
  have hsome : ∃ d', Entity.emitRest w3.env (w3.heap w2.next) (baseObj (w3.heap w2.next) none) = .ok d' ∧
      entitySettings d' = entitySettings d := by
    have hset2 := emitRest_settings (env := w3.env) (e := w3.heap w2.next) (obj := baseObj (w3.heap w2.next) none)
    rw [baseObj_settings, hrest' [_, _]] at hset2
    have e1 : (w3.heap w2.next).name = (w.heap r).name := by rw [hheap]; exact hname
    have e2 : (w3.heap w2.next).pos = (w.heap r).pos := by rw [hheap]; exact hpos
    rw [e1, e2, ← hset] at hset2
    cases hx : Entity.emitRest w3.env (w3.heap w2.next) (baseObj (w3.heap w2.next) none) with
    | error x => rw [hx] at hset2; cases hset2
    | ok d' =>
      rw [hx] at hset2
      refine ⟨d', rfl, ?_⟩
      change Except.ok (entitySettings d') = _ at hset2
      injection hset2
  obtain ⟨d', hd', hdd⟩ := hsome
  obtain ⟨w4, hw4⟩ := entToJson_free (b := b2) (by rw [hheap]; exact hlayer) (by rw [hcon]; exact hconn) hd'
  refine ⟨w2.next, w3, d', w4, hm, hw4, hdd, by rw [hheap]; exact hkl, fun hcm c hcc => ?_⟩
  obtain ⟨c', h1, h2⟩ := hcomb hcm c hcc
  exact ⟨c', by rw [hheap]; exact h1, h2⟩

theorem Solid.again {w w' w2 : World} {r : Ref} {d : Dict} {b2 : BpId} (h : Solid w.env (w.heap r))
    (he : entToJson r w = (.ok (.dict d), w')) (hr : ∀ c, (w.heap r).cb = some c → ReadableConstants c)
    (hf : ReadableNames w.env (w.heap r) d) (henv : w2.env = w.env) (hconn : (w2.bp b2).conns = [])
    (hc : NoCustom w2.env (w2.bp b2) (w.heap r).name) :
    ∃ r2 w3 d' w4, Verif.layerMake b2 d w2 = (.ok r2, w3) ∧ entToJson r2 w3 = (.ok (.dict d'), w4) ∧
      entitySettings d' = entitySettings d ∧ (w3.heap r2).klass = (w.heap r).klass ∧
      (.Combinator ∈ (w.heap r).klass.cbChain → ∀ c, (w.heap r).cb = some c →
        ∃ c', (w3.heap r2).cb = some c' ∧ SameFunction c c') :=
  SolidIn.again h he hr hf henv hconn (by rw [← henv]; exact noCustom_lookup hc)

/-! ## Combinators -/

/-- What the row of a prototype type makes of the class. -/
theorem row_of {ty : String} {k : Klass} {P : Klass → Prop} [DecidablePred P] (h : TypeKlass ty k)
    (hd : (match prototypeMixins ty with
      | none => true
      | some ms => match Klass.extend 0 Klass.entity ms with | .ok k => decide (P k) | .error _ => true) = true) : P k := by
  obtain ⟨ms, h1, h2⟩ := h
  rw [h1] at hd
  dsimp only at hd
  rw [h2] at hd
  exact of_decide_eq_true hd

/-- The class of a decider combinator. -/
def DeciderKlass (k : Klass) : Prop := k.cbChain = [.Decider, .Combinator] ∧ k.ctx.type = "decider" ∧
  k.ctx.operator = "comparator" ∧ k.ctx.options = some deciderOps ∧ .FilterInserter ∉ k.chain

def ArithmeticKlass (k : Klass) : Prop := k.cbChain = [.Arithmetic, .Combinator] ∧ .FilterInserter ∉ k.chain

instance : DecidablePred DeciderKlass := fun k => by unfold DeciderKlass; infer_instance
instance : DecidablePred ArithmeticKlass := fun k => by unfold ArithmeticKlass; infer_instance

theorem Solid.typeKlass {env : Env} {e : Entity} {ty : String} (h : Solid env e) (ht : TypeOf env e.name ty) :
    TypeKlass ty e.klass := by
  obtain ⟨data, ty', h1, h2, h3⟩ := h.typed
  obtain ⟨d, h4, h5⟩ := ht
  have h1' : List.lookup e.name env.entities = some data := h1
  rw [h4] at h1'
  cases h1'
  obtain ⟨d', hd, h6⟩ := subscript_ok.1 h2
  cases hd
  rw [h5] at h6
  cases h6
  exact h3.typeKlass

theorem Solid.decider {env : Env} {e : Entity} (h : Solid env e) (ht : TypeOf env e.name "decider-combinator") :
    DeciderKlass e.klass := row_of (h.typeKlass ht) (by decide +kernel)

theorem Solid.arithmetic {env : Env} {e : Entity} (h : Solid env e) (ht : TypeOf env e.name "arithmetic-combinator") :
    ArithmeticKlass e.klass := row_of (h.typeKlass ht) (by decide +kernel)

theorem new_cb {env : Env} {custom : Option Custom} {layer : Option BpId} {kw x : Dict} {e : Entity}
    (h : Entity.new env custom layer kw = .ok e) (hx : Dict.get? kw "control_behavior" = some (.dict x)) :
    ∃ c lo, e.cb = some c ∧ cbInitChain env e.klass.ctx lo e.klass.cbChain x [] = .ok c.attrs := by
  obtain ⟨-, -, name, position, number, e', h1, h2, h3, h4, h5⟩ := Entity.new_ok.1 h
  obtain ⟨pos, dir, cb, a, h6, h7, h8, h9, rfl⟩ := Entity.finish_ok.1 h5
  unfold Entity.cbOf at h8
  rw [hx] at h8
  simp only [bind_eq_ok, pure_eq_ok, Except.ok.injEq, Option.some.injEq] at h8
  obtain ⟨c', hn, rfl⟩ := h8
  unfold Cb.new at hn
  simp only [bind_eq_ok, pure_eq_ok, Except.ok.injEq] at hn
  obtain ⟨d, hd, hn⟩ := hn
  cases hd
  split at hn
  · cases hn
  · simp only [bind_eq_ok, pure_eq_ok, Except.ok.injEq] at hn
    obtain ⟨a', ha', rfl⟩ := hn
    exact ⟨_, _, rfl, ha'⟩

/-- What is exported for the control behaviour of a combinator. -/
theorem SolidIn.exportCb {cs : List Mx} {env : Env} {e : Entity} {c : Cb} {v : Option Val} {d : Dict} (h : SolidIn cs env e)
    (hc : e.cb = some c) (hm : .Combinator ∈ e.klass.cbChain) (he : e.emitRest env (baseObj e v) = .ok d) :
    ∃ x, Dict.get? d "control_behavior" = some (.dict x) ∧
      cbEmitChain env e.klass.ctx e.klass.cbChain (Dict.get? c.attrs) [] = .ok x := by
  obtain ⟨obj1, h1, ⟨hn, -⟩ | ⟨b, x, hb, hx, rfl⟩⟩ := emitRest_ok.1 he
  · rw [hc] at hn; cases hn
  · rw [hc] at hb
    cases hb
    rw [h.seen hc] at hx
    obtain ⟨b1, b2, -⟩ := h.cb c hc
    rw [b1, b2] at hx
    rw [h.good.nonempty hm hx]
    exact ⟨x, get_set_self .., hx⟩

/-- An exported entity is strict when it is made again. -/
theorem made_strict {e e' : Entity} {env env' : Env} {custom : Option Custom} {layer : Option BpId} {v : Option Val} {d : Dict}
    (he : e.emitRest env (baseObj e v) = .ok d) (h : Entity.new env' custom layer d = .ok e') :
    e'.strict = true ∧ e'.name = e.name := by
  have key : ∀ k, k ≠ "control_behavior" → (∀ m, k ∉ emitKeys m) → Dict.get? d k = Dict.get? (baseObj e v) k := by
    intro k hk hm
    obtain ⟨obj1, h1, h2⟩ := emitRest_ok.1 he
    have : Dict.get? d k = Dict.get? obj1 k := by
      rcases h2 with ⟨-, rfl⟩ | ⟨b, x, -, -, rfl⟩
      · rfl
      · split
        · rfl
        · exact get_set_ne hk
    rw [this]
    exact emitChain_lookup h1 (fun m _ => hm m)
  obtain ⟨-, -, name, position, number, e1, h1, h2, h3, h4, h5⟩ := Entity.new_ok.1 h
  obtain ⟨pos, dir, cb, a, h6, h7, h8, h9, rfl⟩ := Entity.finish_ok.1 h5
  have hn : Dict.get? d "name" = some (.str e.name) := by
    rw [key _ (by decide) (by intro m; cases m <;> decide), baseObj_get]
    rfl
  rw [hn] at h1
  cases h1
  have hs : (Entity.raw0 layer d number).strict = true := by
    show (Dict.getD d "strict" (.bool true)).truthy = true
    unfold Dict.getD
    rw [key _ (by decide) (by intro m; cases m <;> decide), baseObj_get]
    rfl
  obtain ⟨s, hs1, ⟨hs', rfl⟩ | ⟨hs', data, t, ms, k, g1, g2, g3, g4, rfl⟩⟩ := Entity.setName_ok h4
  · rw [hs] at hs'; cases hs'
  · cases hs1
    exact ⟨hs, rfl⟩

/-- A constant second or output operand of a decider does not survive. -/
theorem Solid.deciderLost {w w' w2 w3 : World} {r r2 : Ref} {d : Dict} {b2 : BpId} {c c' : Cb} (h : Solid w.env (w.heap r))
    (ht : TypeOf w.env (w.heap r).name "decider-combinator") (he : entToJson r w = (.ok (.dict d), w'))
    (hc : (w.heap r).cb = some c) (henv : w2.env = w.env) (hnc : NoCustom w2.env (w2.bp b2) (w.heap r).name)
    (hm : Verif.layerMake b2 d w2 = (.ok r2, w3)) (hc' : (w3.heap r2).cb = some c')
    (hk : ConstantAt c "second" ∨ ConstantAt c "output") : ¬ SameFunction c c' := by
  intro hsame
  obtain ⟨cv, d1, hd1, hemit⟩ := entToJson_base he
  cases hd1
  obtain ⟨k1, k2, k3, k4, -⟩ := h.decider ht
  obtain ⟨x, hx, hemitc⟩ := h.exportCb hc (by rw [k1]; decide) hemit
  obtain ⟨e, n, hnew, hh⟩ := layerMake_new hm
  obtain ⟨hs, hname⟩ := made_strict hemit hnew
  have hsol : Solid w2.env e := Solid.new hnew hs (by rw [hname]; exact noCustom_lookup hnc)
  have hkl : DeciderKlass e.klass := hsol.decider (by rw [hname, henv]; exact ht)
  obtain ⟨c2, lo2, hc2, hread⟩ := new_cb hnew hx
  have : c2 = c' := by
    rw [hh] at hc'
    rw [show ({ e with auto := n } : Entity).cb = e.cb from rfl, hc2] at hc'
    injection hc'
  subst this
  have hctx : e.klass.ctx = (w.heap r).klass.ctx := by
    have a1 := hsol.typeKlass (ty := "decider-combinator") (by rw [hname, henv]; exact ht)
    have a2 := h.typeKlass ht
    obtain ⟨ms, m1, m2⟩ := a1
    obtain ⟨ms', m3, m4⟩ := a2
    rw [m1] at m3
    cases m3
    rw [m2] at m4
    injection m4 with m4
    rw [m4]
  rw [hctx, hkl.1, henv] at hread
  rw [k1] at hemitc
  have lost : ∀ k, k = "second" ∨ k = "output" → ConstantAt c k → False := by
    intro k hk hcon
    have e1 := decider_lost k2 k3 k4 hemitc hread k hk (isConst_iff.2 hcon)
    have e2 := hsame.2.1 k (by rcases hk with rfl | rfl <;> decide)
    obtain ⟨z, hz⟩ := isConst_iff.2 hcon
    have e3 : signalGet ((Dict.get? c2.attrs k).getD .none) = signalGet ((Dict.get? c.attrs k).getD .none) := e2
    rw [e1, hz] at e3
    cases e3
  rcases hk with hk | hk
  · exact lost _ (.inl rfl) hk
  · exact lost _ (.inr rfl) hk

/-- Decider conditions as the game exports them are refused. -/
theorem deciderRefused {w w' : World} {b : BpId} {kw x cond : Dict} {r : Ref} {name : String} {v : Val}
    (hn : List.lookup "name" kw = some (.str name)) (ht : TypeOf w.env name "decider-combinator")
    (hs : Strict kw) (hnc : NoCustom w.env (w.bp b) name)
    (hx : List.lookup "control_behavior" kw = some (.dict x)) (hcond : List.lookup "decider_conditions" x = some (.dict cond))
    (h1 : List.lookup "first_signal" cond ≠ none) (h2 : List.lookup "constant" cond = some v) (hv : v ≠ .none) :
    Verif.layerMake b kw w ≠ (.ok r, w') := by
  intro hm
  obtain ⟨e, n, hnew, hh⟩ := layerMake_new hm
  have hst : e.strict = true ∧ e.name = name := by
    obtain ⟨-, -, name', position, number, e1, g1, g2, g3, g4, g5⟩ := Entity.new_ok.1 hnew
    obtain ⟨pos, dir, cb, a, g6, g7, g8, g9, rfl⟩ := Entity.finish_ok.1 g5
    have g1' : List.lookup "name" kw = some name' := g1
    rw [hn] at g1'
    cases g1'
    have hs' : (Entity.raw0 (some b) kw number).strict = true := by
      show (Dict.getD kw "strict" (.bool true)).truthy = true
      unfold Dict.getD Dict.get?
      cases hy : List.lookup "strict" kw with
      | none => rfl
      | some y => exact hs y hy
    obtain ⟨s, q1, ⟨q, rfl⟩ | ⟨q, data, t, ms, k, q2, q3, q4, q5, rfl⟩⟩ := Entity.setName_ok g4
    · rw [hs'] at q; cases q
    · cases q1
      exact ⟨hs', rfl⟩
  have hsol : Solid w.env e := Solid.new hnew hst.1 (by rw [hst.2]; exact noCustom_lookup hnc)
  obtain ⟨k1, k2, k3, k4, -⟩ := hsol.decider (by rw [hst.2]; exact ht)
  obtain ⟨c, lo, -, hread⟩ := new_cb hnew hx
  rw [k1] at hread
  exact decider_refused k2 k3 k4 hcond h1 h2 hv hread

end Verif
