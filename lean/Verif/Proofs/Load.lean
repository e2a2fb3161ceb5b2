import Verif.Proofs.Layer
/-!
# Helper lemmas: what a successful `load` does
-/
set_option autoImplicit false

namespace Verif
open Spec

/-! ## Entities -/

/-- A new entity appended to the layer. -/
def World.push (w : World) (b : BpId) (e : Entity) : World :=
  let w' := (alloc e w).2
  w'.setBp b { w'.bp b with objs := (w'.bp b).objs ++ [w.next] }

def World.pushAll (w : World) (b : BpId) (es : List Entity) : World :=
  es.foldl (fun w e => w.push b e) w

/-- The constructor calls for a list of entity data. -/
def buildAll (env : Env) (custom : Option Custom) (b : BpId) (l : List Val) :
    Except Exc (List Entity) :=
  l.mapM (fun v => do Entity.new env custom (some b) (← v.kwargs))

@[simp] theorem push_env (w : World) (b : BpId) (e : Entity) : (w.push b e).env = w.env := rfl
@[simp] theorem push_next (w : World) (b : BpId) (e : Entity) : (w.push b e).next = w.next + 1 := rfl
theorem push_bp_self (w : World) (b : BpId) (e : Entity) :
    (w.push b e).bp b = { w.bp b with objs := (w.bp b).objs ++ [w.next] } := by
  simp [World.push, alloc]
theorem push_bp_other (w : World) {b c : BpId} (e : Entity) (h : c ≠ b) :
    (w.push b e).bp c = w.bp c := by
  simp [World.push, alloc, setBp_bp, h]
theorem push_heap (w : World) (b : BpId) (e : Entity) (s : Ref) :
    (w.push b e).heap s = if s = w.next then e else w.heap s := rfl
theorem push_custom (w : World) (b : BpId) (e : Entity) :
    (w.push b e).customOf (some b) = w.customOf (some b) := by
  simp [World.customOf, push_bp_self]

theorem layerLoad_ok {b : BpId} {v : Val} {w w' : World} :
    layerLoad b v w = (.ok (), w') ↔ ∃ e,
      (do Entity.new w.env (w.customOf (some b)) (some b) (← v.kwargs) : Except Exc Entity) = .ok e ∧
      w' = w.push b e := by
  unfold layerLoad
  rw [M.bind_eq_ok]
  simp only [M.lift_eq, Prod.mk.injEq, bind_eq_ok]
  constructor
  · rintro ⟨kw, u, ⟨hk, rfl⟩, h⟩
    rw [M.bind_eq_ok] at h
    obtain ⟨r, u, hu, h⟩ := h
    obtain ⟨e, he, rfl, rfl⟩ := newEntity_ok hu
    simp only [M.modify_eq, Prod.mk.injEq, true_and] at h
    exact ⟨e, ⟨kw, hk, he⟩, h.symm⟩
  · rintro ⟨e, ⟨kw, hk, he⟩, rfl⟩
    refine ⟨kw, w, ⟨hk, rfl⟩, ?_⟩
    rw [M.bind_eq_ok]
    refine ⟨w.next, (alloc e w).2, ?_, rfl⟩
    unfold newEntity
    rw [he]
    rfl

theorem forEach_layerLoad_ok {b : BpId} {l : List Val} {w w' : World} :
    M.forEach (layerLoad b) l w = (.ok (), w') ↔
      ∃ es, buildAll w.env (w.customOf (some b)) b l = .ok es ∧ w' = w.pushAll b es := by
  induction l generalizing w with
  | nil =>
    simp only [M.forEach, buildAll, List.mapM_nil, pure_eq_ok, Except.ok.injEq]
    constructor
    · intro h; cases h; exact ⟨[], rfl, rfl⟩
    · rintro ⟨es, rfl, rfl⟩; rfl
  | cons v l ih =>
    show (layerLoad b v >>= fun _ => M.forEach (layerLoad b) l) w = _ ↔ _
    rw [M.bind_eq_ok]
    have hb : ∀ es, buildAll w.env (w.customOf (some b)) b (v :: l) = .ok es ↔
        ∃ e es', (do Entity.new w.env (w.customOf (some b)) (some b) (← v.kwargs) : Except Exc Entity) =
          .ok e ∧ buildAll w.env (w.customOf (some b)) b l = .ok es' ∧ es = e :: es' := by
      intro es
      unfold buildAll
      rw [List.mapM_cons]
      simp only [bind_eq_ok, pure_eq_ok, Except.ok.injEq]
      constructor
      · rintro ⟨e, he, es', hes, rfl⟩; exact ⟨e, es', he, hes, rfl⟩
      · rintro ⟨e, es', he, hes, rfl⟩; exact ⟨e, he, es', hes, rfl⟩
    constructor
    · rintro ⟨⟨⟩, u, hu, h⟩
      obtain ⟨e, he, rfl⟩ := layerLoad_ok.1 hu
      obtain ⟨es, hes, rfl⟩ := ih.1 h
      rw [push_env, push_custom] at hes
      exact ⟨e :: es, (hb _).2 ⟨e, es, he, hes, rfl⟩, rfl⟩
    · rintro ⟨es, hes, rfl⟩
      obtain ⟨e, es', he, hes', rfl⟩ := (hb _).1 hes
      refine ⟨(), _, layerLoad_ok.2 ⟨e, he, rfl⟩, ih.2 ⟨es', ?_, rfl⟩⟩
      rw [push_env, push_custom]
      exact hes'

@[simp] theorem pushAll_nil (w : World) (b : BpId) : w.pushAll b [] = w := rfl
@[simp] theorem pushAll_cons (w : World) (b : BpId) (e : Entity) (es : List Entity) :
    w.pushAll b (e :: es) = (w.push b e).pushAll b es := rfl
@[simp] theorem pushAll_env (w : World) (b : BpId) (es : List Entity) : (w.pushAll b es).env = w.env := by
  induction es generalizing w with
  | nil => rfl
  | cons e es ih => rw [pushAll_cons, ih]; rfl
theorem pushAll_next (w : World) (b : BpId) (es : List Entity) :
    (w.pushAll b es).next = w.next + es.length := by
  induction es generalizing w with
  | nil => rfl
  | cons e es ih => rw [pushAll_cons, ih, push_next, List.length_cons, Nat.add_assoc, Nat.add_comm 1]
theorem pushAll_bp_self (w : World) (b : BpId) (es : List Entity) :
    (w.pushAll b es).bp b =
      { w.bp b with objs := (w.bp b).objs ++ List.range' w.next es.length } := by
  induction es generalizing w with
  | nil => simp
  | cons e es ih =>
    rw [pushAll_cons, ih, push_bp_self]
    simp [List.range'_succ]
theorem pushAll_bp_other (w : World) {b c : BpId} (es : List Entity) (h : c ≠ b) :
    (w.pushAll b es).bp c = w.bp c := by
  induction es generalizing w with
  | nil => rfl
  | cons e es ih => rw [pushAll_cons, ih, push_bp_other w e h]
theorem pushAll_heap_old (w : World) (b : BpId) (es : List Entity) {s : Ref} (h : s < w.next) :
    (w.pushAll b es).heap s = w.heap s := by
  induction es generalizing w with
  | nil => rfl
  | cons e es ih =>
    rw [pushAll_cons, ih _ (Nat.lt_succ_of_lt h), push_heap, if_neg (Nat.ne_of_lt h)]
theorem pushAll_heap_new (w : World) (b : BpId) (es : List Entity) {i : Nat} (h : i < es.length) :
    (w.pushAll b es).heap (w.next + i) = es[i] := by
  induction es generalizing w i with
  | nil => cases h
  | cons e es ih =>
    rw [pushAll_cons]
    cases i with
    | zero =>
      rw [pushAll_heap_old _ _ _ (Nat.lt_succ_self _), push_heap]
      simp
    | succ i =>
      have := ih (w.push b e) (i := i) (by simpa using h)
      rw [push_next] at this
      have he : w.next + (i + 1) = w.next + 1 + i := by rw [Nat.add_comm i 1, ← Nat.add_assoc]
      rw [he, this]
      simp

/-! ## Wires -/

/-- One reference of the connection data as a wire. -/
def refConn (w : World) (b : BpId) (r : Ref) (side color : String) (c : Val) : Except Exc Conn := do
  let id ← c.subscript "entity_id"
  let d ← c.asDict
  Conn.new (some r) (getById w b id) (.str side) (Dict.getD d "circuit_id" (.str "1")) color

/-- All references in a `connections` value. -/
def rawRefs (w : World) (b : BpId) (r : Ref) (raw : Val) : Except Exc (List Conn) :=
  match raw with
  | .none => .ok []
  | raw => do
    let sides ← raw.asDict
    let l ← sides.mapM (fun p => do
      let colors ← Val.asDict p.2
      let l ← colors.mapM (fun q => do
        let cs ← Val.iter q.2
        cs.mapM (refConn w b r p.1 q.1))
      return l.flatten)
    return l.flatten

/-- Wires are recorded one after the other. -/
def World.addConns (w : World) (b : BpId) (cs : List Conn) : World :=
  w.setBp b { w.bp b with conns := cs.foldl addConn (w.bp b).conns }

theorem addConns_nil (w : World) (b : BpId) : w.addConns b [] = w := by
  refine World.ext rfl rfl rfl ?_
  funext c
  simp only [World.addConns, setBp_bp]
  split
  · rename_i e; subst e; rfl
  · rfl

theorem addConns_append (w : World) (b : BpId) (cs ds : List Conn) :
    (w.addConns b cs).addConns b ds = w.addConns b (cs ++ ds) := by
  refine World.ext rfl rfl rfl ?_
  funext c
  simp only [World.addConns, setBp_bp]
  split
  · simp
  · rfl

/-- `x` succeeds exactly if `g` does, and then records the wires `g` gives. -/
structure Adds (b : BpId) (x : M Unit) (g : World → Except Exc (List Conn)) : Prop where
  iff : ∀ w w', x w = (.ok (), w') ↔ ∃ cs, g w = .ok cs ∧ w' = w.addConns b cs
  stable : ∀ w cs, g (w.addConns b cs) = g w

theorem Adds.forEach {α} {b : BpId} {f : α → M Unit} {g : α → World → Except Exc (List Conn)}
    (h : ∀ a, Adds b (f a) (g a)) (l : List α) :
    Adds b (M.forEach f l) (fun w => do return (← l.mapM (g · w)).flatten) := by
  constructor
  · intro w w'
    induction l generalizing w with
    | nil =>
      simp only [M.forEach, List.mapM_nil, pure_eq_ok, ok_bind, List.flatten_nil, Except.ok.injEq]
      constructor
      · intro h; cases h; exact ⟨[], rfl, (addConns_nil _ b).symm⟩
      · rintro ⟨cs, rfl, rfl⟩; rw [addConns_nil]; rfl
    | cons a l ih =>
      show (f a >>= fun _ => M.forEach f l) w = _ ↔ _
      rw [M.bind_eq_ok]
      simp only [List.mapM_cons, bind_eq_ok, pure_eq_ok, Except.ok.injEq]
      constructor
      · rintro ⟨⟨⟩, u, hu, h'⟩
        obtain ⟨cs, hcs, rfl⟩ := ((h a).iff _ _).1 hu
        obtain ⟨ds, hds, rfl⟩ := (ih _).1 h'
        simp only [bind_eq_ok, pure_eq_ok, Except.ok.injEq, (h _).stable] at hds
        obtain ⟨dss, hdss, rfl⟩ := hds
        exact ⟨_, ⟨cs :: dss, ⟨cs, hcs, dss, hdss, rfl⟩, rfl⟩, by rw [addConns_append]; rfl⟩
      · rintro ⟨_, ⟨_, ⟨cs, hcs, dss, hdss, rfl⟩, rfl⟩, rfl⟩
        refine ⟨(), w.addConns b cs, ((h a).iff _ _).2 ⟨cs, hcs, rfl⟩, (ih _).2 ⟨dss.flatten, ?_, ?_⟩⟩
        · simp only [bind_eq_ok, pure_eq_ok, Except.ok.injEq, (h _).stable]
          exact ⟨dss, hdss, rfl⟩
        · rw [addConns_append]; rfl
  · intro w cs
    simp only [(h _).stable]

theorem refConn_stable (w : World) (b : BpId) (cs : List Conn) : refConn (w.addConns b cs) b = refConn w b := by
  have hg : ∀ v, getById (w.addConns b cs) b v = getById w b v := by
    intro v
    simp [getById, World.addConns]
  funext r s c v
  simp [refConn, hg]

theorem Adds.loadRef (b : BpId) (r : Ref) (s c : String) (v : Val) :
    Adds b (loadRef b r s c v) (fun w => do return [← refConn w b r s c v]) := by
  constructor
  · intro w w'
    unfold Verif.loadRef refConn
    simp only [M.bind_get, M.bind_eq_ok, M.lift_eq, Prod.mk.injEq, bind_eq_ok, pure_eq_ok,
      Except.ok.injEq, modBp_eq, true_and]
    constructor
    · rintro ⟨id, _, ⟨hid, rfl⟩, d, _, ⟨hd, rfl⟩, conn, _, ⟨hc, rfl⟩, rfl⟩
      exact ⟨_, ⟨conn, ⟨id, hid, d, hd, hc⟩, rfl⟩, rfl⟩
    · rintro ⟨_, ⟨conn, ⟨id, hid, d, hd, hc⟩, rfl⟩, rfl⟩
      exact ⟨id, _, ⟨hid, rfl⟩, d, _, ⟨hd, rfl⟩, conn, _, ⟨hc, rfl⟩, rfl⟩
  · intro w cs
    rw [refConn_stable]

theorem Adds.liftBind {α} {b : BpId} {x : Except Exc α} {f : α → M Unit}
    {g : α → World → Except Exc (List Conn)} (h : ∀ a, Adds b (f a) (g a)) :
    Adds b (do f (← M.lift x)) (fun w => do g (← x) w) := by
  constructor
  · intro w w'
    rw [M.bind_eq_ok]
    simp only [M.lift_eq, Prod.mk.injEq, bind_eq_ok]
    constructor
    · rintro ⟨a, _, ⟨ha, rfl⟩, hf⟩
      obtain ⟨cs, hcs, rfl⟩ := ((h a).iff _ _).1 hf
      exact ⟨cs, ⟨a, ha, hcs⟩, rfl⟩
    · rintro ⟨cs, ⟨a, ha, hcs⟩, rfl⟩
      exact ⟨a, w, ⟨ha, rfl⟩, ((h a).iff _ _).2 ⟨cs, hcs, rfl⟩⟩
  · intro w cs
    simp only [(h _).stable]

theorem Adds.congr {b : BpId} {x : M Unit} {g g' : World → Except Exc (List Conn)} (h : Adds b x g)
    (hg : ∀ w, g w = g' w) : Adds b x g' := (funext hg : g = g') ▸ h

theorem mapM_single {α} (f : α → Except Exc Conn) (l : List α) :
    (do return (← l.mapM (fun a => do return [← f a])).flatten : Except Exc (List Conn)) = l.mapM f := by
  induction l with
  | nil => rfl
  | cons a l ih =>
    simp only [List.mapM_cons]
    rw [← ih]
    cases f a with
    | error e => rfl
    | ok c =>
      simp only [ok_bind]
      cases (l.mapM fun a => do let __do_lift ← f a; pure [__do_lift] : Except Exc (List (List Conn))) <;> rfl

theorem Adds.loadWires (b : BpId) (r : Ref) :
    Adds b (loadWires b r) (fun w => rawRefs w b r (w.heap r).raw) := by
  have key : ∀ raw : Val, Adds b (do
      let sides ← M.lift raw.asDict
      M.forEach (fun (p : String × Val) => do
        let colors ← M.lift (Val.asDict p.2)
        M.forEach (fun (q : String × Val) => do
          let cs ← M.lift (Val.iter q.2)
          M.forEach (Verif.loadRef b r p.1 q.1) cs) colors) sides)
      (fun w => do
        let sides ← raw.asDict
        let l ← sides.mapM (fun p => do
          let colors ← Val.asDict p.2
          let l ← colors.mapM (fun q => do
            let cs ← Val.iter q.2
            cs.mapM (refConn w b r p.1 q.1))
          return l.flatten)
        return l.flatten) := by
    intro raw
    refine Adds.liftBind (fun sides => Adds.forEach (fun p => ?_) sides)
    refine Adds.liftBind (fun colors => Adds.forEach (fun q => ?_) colors)
    refine Adds.liftBind (fun cs => ?_)
    exact (Adds.forEach (fun c => Adds.loadRef b r p.1 q.1 c) cs).congr (fun w => mapM_single _ _)
  constructor
  · intro w w'
    unfold Verif.loadWires
    rw [M.bind_get]
    dsimp only
    cases (w.heap r).raw with
    | none =>
      constructor
      · intro h; cases h; exact ⟨[], rfl, (addConns_nil _ _).symm⟩
      · rintro ⟨cs, hcs, rfl⟩
        simp only [rawRefs, Except.ok.injEq] at hcs
        subst hcs
        rw [addConns_nil]
        rfl
    | bool x => exact (key (.bool x)).iff w w'
    | num x => exact (key (.num x)).iff w w'
    | str x => exact (key (.str x)).iff w w'
    | list x => exact (key (.list x)).iff w w'
    | dict x => exact (key (.dict x)).iff w w'
  · intro w cs
    have : (w.addConns b cs).heap = w.heap := rfl
    rw [this]
    cases (w.heap r).raw with
    | none => rfl
    | bool x => exact (key (.bool x)).stable w cs
    | num x => exact (key (.num x)).stable w cs
    | str x => exact (key (.str x)).stable w cs
    | list x => exact (key (.list x)).stable w cs
    | dict x => exact (key (.dict x)).stable w cs


theorem noConns_objs (w : World) (b : BpId) :
    ((w.setBp b { w.bp b with conns := [] }).bp b).objs = (w.bp b).objs := by simp

/-! ## Orienting wires -/

/-- The same wire, possibly with its ends swapped. -/
def SameWire (c d : Conn) : Prop := c = d ∨ c = d.flip

theorem SameWire.trans {a b c : Conn} (h : SameWire a b) (h' : SameWire b c) : SameWire a c := by
  rcases h with rfl | rfl <;> rcases h' with rfl | rfl
  · exact .inl rfl
  · exact .inr rfl
  · exact .inr rfl
  · exact .inl rfl

theorem SameWire.orientate (c : Conn) (r : Ref) : SameWire (c.orientate r) c := by
  unfold Conn.orientate
  split
  · exact .inr rfl
  · exact .inl rfl

/-- Reorienting wires of `b`: same wires, everything else unchanged. -/
def Reoriented (b : BpId) (w w' : World) : Prop :=
  ∃ f : Conn → Conn, (∀ c, SameWire (f c) c) ∧
    w' = w.setBp b { w.bp b with conns := (w.bp b).conns.map f }

theorem setBp_self (w : World) (b : BpId) : w.setBp b (w.bp b) = w := by
  refine World.ext rfl rfl rfl ?_
  funext c
  simp only [setBp_bp]
  split
  · rename_i e; subst e; rfl
  · rfl

theorem setBp_setBp (w : World) (b : BpId) (p q : Bp) : (w.setBp b p).setBp b q = w.setBp b q := by
  refine World.ext rfl rfl rfl ?_
  funext c
  simp only [setBp_bp]
  split <;> rfl

theorem Reoriented.refl (b : BpId) (w : World) : Reoriented b w w :=
  ⟨id, fun _ => .inl rfl, by rw [List.map_id]; exact (setBp_self w b).symm⟩

theorem Reoriented.trans {b : BpId} {u v w : World} (h : Reoriented b u v) (h' : Reoriented b v w) :
    Reoriented b u w := by
  obtain ⟨f, h1, rfl⟩ := h
  obtain ⟨g, h2, rfl⟩ := h'
  refine ⟨g ∘ f, fun c => (h2 (f c)).trans (h1 c), ?_⟩
  rw [setBp_setBp]
  simp

theorem getConnections_reoriented {b : BpId} {r : Ref} {w : World} (h : (w.heap r).layer = some b) :
    Reoriented b w (getConnections r w).2 := by
  refine ⟨fun c => if c.attachedTo r then c.orientate r else c, fun c => ?_, ?_⟩
  · dsimp only
    split
    · exact SameWire.orientate c r
    · exact .inl rfl
  · unfold getConnections
    rw [h]
    dsimp only
    split
    · rfl
    · split <;> rfl

theorem Reoriented.heap {b : BpId} {w w' : World} (h : Reoriented b w w') : w'.heap = w.heap := by
  obtain ⟨f, h1, rfl⟩ := h; rfl

theorem Keeps.getConnections {b : BpId} {w : World} {r : Ref} (h : (w.heap r).layer = some b) :
    Keeps (Reoriented b w) (getConnections r) :=
  ⟨fun v hv => hv.trans (getConnections_reoriented (by rw [hv.heap]; exact h))⟩

/-- The second loop of `parse_connections`. -/
def orientAll (l : List Ref) : M Unit := M.forEach (fun r => do let _ ← getConnections r; return ()) l

theorem orientAll_reoriented {b : BpId} {l : List Ref} {w : World}
    (h : ∀ r ∈ l, (w.heap r).layer = some b) : Reoriented b w (orientAll l w).2 :=
  (Keeps.forEach_mem (fun r hr => Keeps.bind (Keeps.getConnections (h r hr)) (fun _ => Keeps.pure ()))).1
    w (Reoriented.refl b w)

theorem attachedTo_iff (c : Conn) (r : Ref) : c.attachedTo r = true ↔ c.fromE = some r ∨ c.toE = some r := by
  simp [Conn.attachedTo]

theorem SameWire.attachedTo {c d : Conn} (h : SameWire c d) (r : Ref) : c.attachedTo r = d.attachedTo r := by
  rcases h with rfl | rfl
  · rfl
  · simp [Conn.attachedTo, Conn.flip, Bool.or_comm]

/-! ## `parse_connections` and `load` -/

/-- `parse_connections` in one step. -/
theorem parseConnections_iff {b : BpId} {w w' : World} :
    parseConnections b w = (.ok (), w') ↔
    ∃ css, (w.bp b).objs.mapM (fun r => rawRefs w b r (w.heap r).raw) = .ok css ∧
      orientAll (w.bp b).objs (w.setBp b { w.bp b with conns := css.flatten.foldl addConn [] }) =
        (.ok (), w') := by
  have hg : ∀ v, getById (w.setBp b { w.bp b with conns := [] }) b v = getById w b v := by
    intro v
    simp [getById]
  have hr : refConn (w.setBp b { w.bp b with conns := [] }) b = refConn w b := by
    funext r s t c
    unfold refConn
    simp only [hg]
  have hst : ∀ r raw, rawRefs (w.setBp b { w.bp b with conns := [] }) b r raw = rawRefs w b r raw := by
    intro r raw
    unfold rawRefs
    rw [hr]
  have hw : ∀ cs : List Conn, (w.setBp b { w.bp b with conns := [] }).addConns b cs =
      w.setBp b { w.bp b with conns := cs.foldl addConn [] } := by
    intro cs
    unfold World.addConns
    rw [setBp_setBp, setBp_bp_self]
  unfold parseConnections
  rw [M.bind_modBp, M.bind_get, noConns_objs, M.bind_eq_ok]
  have hA := Adds.forEach (fun r => Adds.loadWires b r) (w.bp b).objs
  constructor
  · rintro ⟨⟨⟩, v, hv, h⟩
    obtain ⟨cs, hcs, rfl⟩ := (hA.iff _ _).1 hv
    simp only [bind_eq_ok, pure_eq_ok, Except.ok.injEq] at hcs
    obtain ⟨css, hcss, rfl⟩ := hcs
    simp only [hst, setBp_heap] at hcss
    rw [hw] at h
    exact ⟨css, hcss, h⟩
  · rintro ⟨css, hcss, h⟩
    refine ⟨(), _, (hA.iff _ _).2 ⟨css.flatten, ?_, rfl⟩, ?_⟩
    · simp only [hst, setBp_heap]
      rw [hcss]
      rfl
    · rw [hw]
      exact h

/-! ### Icons -/

/-- The icon slots after the loop over the icon data. -/
def iconsAll (env : Env) : List Val → List (Option Val) → Except Exc (List (Option Val))
  | [], acc => .ok acc
  | v :: vs, acc => do
    let s ← v.subscript "signal"
    let s ← signalSet env s
    let i ← v.subscript "index"
    let i ← iconIndex i
    let acc ← setPy acc i (some s)
    iconsAll env vs acc

theorem forEach_loadIcon_ok {b : BpId} {l : List Val} {w w' : World} :
    M.forEach (loadIcon b) l w = (.ok (), w') ↔
      ∃ ic, iconsAll w.env l (w.bp b).icons = .ok ic ∧ w' = w.setBp b { w.bp b with icons := ic } := by
  induction l generalizing w with
  | nil =>
    simp only [M.forEach, iconsAll, Except.ok.injEq]
    constructor
    · intro h
      cases h
      exact ⟨_, rfl, (setBp_self _ _).symm⟩
    · rintro ⟨_, rfl, rfl⟩
      show ((.ok (), w) : Except Exc Unit × World) = (.ok (), w.setBp b (w.bp b))
      rw [setBp_self]
  | cons v l ih =>
    show (loadIcon b v >>= fun _ => M.forEach (loadIcon b) l) w = _ ↔ _
    rw [M.bind_eq_ok]
    have h1 : ∀ u, loadIcon b v w = (.ok (), u) ↔ ∃ s, v.subscript "signal" = .ok s ∧ ∃ t, signalSet w.env s = .ok t ∧
        ∃ i, v.subscript "index" = .ok i ∧ ∃ j, iconIndex i = .ok j ∧ ∃ acc,
        setPy (w.bp b).icons j (some t) = .ok acc ∧ u = w.setBp b { w.bp b with icons := acc } := by
      intro u
      unfold loadIcon
      rw [M.bind_get]
      simp only [M.bind_eq_ok, M.lift_eq, Prod.mk.injEq, modBp_eq, true_and]
      constructor
      · rintro ⟨s, _, ⟨h1, rfl⟩, t, _, ⟨h2, rfl⟩, i, _, ⟨h3, rfl⟩, j, _, ⟨h4, rfl⟩, acc, _, ⟨h5, rfl⟩, rfl⟩
        exact ⟨s, h1, t, h2, i, h3, j, h4, acc, h5, rfl⟩
      · rintro ⟨s, h1, t, h2, i, h3, j, h4, acc, h5, rfl⟩
        exact ⟨s, _, ⟨h1, rfl⟩, t, _, ⟨h2, rfl⟩, i, _, ⟨h3, rfl⟩, j, _, ⟨h4, rfl⟩, acc, _, ⟨h5, rfl⟩, rfl⟩
    simp only [iconsAll, bind_eq_ok]
    constructor
    · rintro ⟨⟨⟩, u, hu, h⟩
      obtain ⟨s, h1, t, h2, i, h3, j, h4, acc, h5, rfl⟩ := (h1 u).1 hu
      obtain ⟨ic, hic, rfl⟩ := ih.1 h
      rw [setBp_bp_self] at hic
      refine ⟨ic, ⟨s, h1, t, h2, i, h3, j, h4, acc, h5, hic⟩, ?_⟩
      rw [setBp_setBp, setBp_bp_self]
    · rintro ⟨ic, ⟨s, g1, t, h2, i, h3, j, h4, acc, h5, hic⟩, rfl⟩
      refine ⟨(), _, (h1 _).2 ⟨s, g1, t, h2, i, h3, j, h4, acc, h5, rfl⟩, ih.2 ⟨ic, ?_, ?_⟩⟩
      · rw [setBp_bp_self]; exact hic
      · rw [setBp_setBp, setBp_bp_self]

/-! ### Label colour, tiles -/

/-- The label colour after loading the value `v`. -/
def colorAfter (old : Option Color) (v : Val) : Except Exc (Option Color) :=
  match v with
  | .none => .ok old
  | c => do return some (← Color.ofVal c)

theorem loadColor_ok {b : BpId} {v : Val} {w w' : World} :
    loadColor b v w = (.ok (), w') ↔
      ∃ c, colorAfter (w.bp b).labelColor v = .ok c ∧ w' = w.setBp b { w.bp b with labelColor := c } := by
  unfold loadColor colorAfter
  split
  · constructor
    · intro h; cases h; exact ⟨_, rfl, (setBp_self _ _).symm⟩
    · rintro ⟨c, h, rfl⟩
      cases h
      show ((.ok (), w) : Except Exc Unit × World) = (.ok (), w.setBp b (w.bp b))
      rw [setBp_self]
  · rw [M.bind_eq_ok]
    simp only [M.lift_eq, Prod.mk.injEq, modBp_eq, true_and, bind_eq_ok, pure_eq_ok, Except.ok.injEq]
    constructor
    · rintro ⟨c, _, ⟨h, rfl⟩, rfl⟩; exact ⟨_, ⟨c, h, rfl⟩, rfl⟩
    · rintro ⟨_, ⟨c, h, rfl⟩, rfl⟩; exact ⟨c, _, ⟨h, rfl⟩, rfl⟩

theorem forEach_tileLoad_ok {b : BpId} {l : List Val} {w w' : World} :
    M.forEach (tileLoad b) l w = (.ok (), w') ↔ l = [] ∧ w' = w := by
  cases l with
  | nil =>
    constructor
    · intro h; cases h; exact ⟨rfl, rfl⟩
    · rintro ⟨-, rfl⟩; rfl
  | cons v l =>
    constructor
    · intro h
      obtain ⟨e, he⟩ := tileLoad_error b v w
      change (tileLoad b v >>= fun _ => M.forEach (tileLoad b) l) w = _ at h
      rw [M.bind_error he] at h
      cases h
    · rintro ⟨h, -⟩; cases h

/-! ### `load` -/

theorem scheduleNew_congr {u u' : World} {b : BpId} (h : (u.bp b).objs = (u'.bp b).objs)
    (hh : u.heap = u'.heap) : scheduleNew u b = scheduleNew u' b := by
  funext v
  have hg : getById u b = getById u' b := by
    funext v; simp only [getById, h, hh]
  unfold scheduleNew
  rw [hg]

theorem scheduleNew_setBp (w : World) (b : BpId) (p : Bp) (h : p.objs = (w.bp b).objs) :
    scheduleNew (w.setBp b p) b = scheduleNew w b :=
  scheduleNew_congr (by rw [setBp_bp_self, h]) rfl

theorem customOf_setBp (w : World) (b : BpId) (p : Bp) :
    (w.setBp b p).customOf (some b) = some p.custom := by simp [World.customOf]
theorem customOf_some (w : World) (b : BpId) : w.customOf (some b) = some (w.bp b).custom := rfl

/-- The blueprint attributes that `load` sets before the entities. -/
def Bp.withHead (p : Bp) (d : Dict) (col : Option Color) (ic : List (Option Val)) : Bp :=
  { p with
    item := Dict.getD d "item" (.str "blueprint"), label := Dict.getD d "label" .none,
    labelColor := col, version := Dict.getD d "version" (.int 0), icons := ic }

/-- `load` in stages. -/
theorem load_iff {b : BpId} {data : Val} {w w' : World} :
    load b data w = (.ok (), w') ↔
    ∃ d col iv ic ev es w₃ sv scheds,
      unwrapData data = .ok d ∧
      colorAfter (w.bp b).labelColor (Dict.getD d "label_color" .none) = .ok col ∧
      (Dict.getD d "icons" (.list [])).iter = .ok iv ∧
      iconsAll w.env iv [none, none, none, none] = .ok ic ∧
      (Dict.getD d "entities" (.list [])).iter = .ok ev ∧
      buildAll w.env (w.customOf (some b)) b ev = .ok es ∧
      parseConnections b (((w.setBp b ((w.bp b).withHead d col ic)).pushAll b es).sort b) = (.ok (), w₃) ∧
      (Dict.getD d "tiles" (.list [])).iter = .ok [] ∧
      (Dict.getD d "schedules" (.list [])).iter = .ok sv ∧
      sv.mapM (scheduleNew w₃ b) = .ok scheds ∧
      w' = w₃.setBp b { w₃.bp b with
        tiles := sortBy (fun s t => posLe s.pos t.pos) (w₃.bp b).tiles, schedules := scheds } := by
  unfold load
  simp only [M.bind_eq_ok (x := M.lift _), M.lift_eq, Prod.mk.injEq, M.bind_modBp,
    M.bind_unit_ok (x := loadColor _ _), loadColor_ok, M.bind_unit_ok (x := M.forEach _ _),
    forEach_loadIcon_ok, forEach_layerLoad_ok, M.bind_modify, M.bind_unit_ok (x := parseConnections _),
    forEach_tileLoad_ok, M.bind_get, modBp_eq, true_and, tilesSort]
  constructor
  · rintro ⟨d, _, ⟨h1, rfl⟩, _, ⟨col, h2, rfl⟩, iv, _, ⟨h3, rfl⟩, _, ⟨ic, h4, rfl⟩, ev, _, ⟨h5, rfl⟩,
      _, ⟨es, h6, rfl⟩, w₃, h7, _, _, ⟨h8, rfl⟩, _, ⟨rfl, rfl⟩, sv, _, ⟨h9, rfl⟩, scheds, _, ⟨h10, rfl⟩, rfl⟩
    simp only [setBp_bp_self, setBp_setBp, setBp_env, customOf_some] at h2 h4 h6 h7
    rw [scheduleNew_setBp (h := ?_)] at h10
    rotate_left
    · rfl
    refine ⟨d, col, iv, ic, ev, es, _, sv, scheds, h1, h2, h3, h4, h5, ?_, h7, h8, h9, h10, ?_⟩
    · rw [customOf_some]; exact h6
    · simp only [setBp_bp_self, setBp_setBp]
  · rintro ⟨d, col, iv, ic, ev, es, w₃, sv, scheds, h1, h2, h3, h4, h5, h6, h7, h8, h9, h10, rfl⟩
    refine ⟨d, _, ⟨h1, rfl⟩, _, ⟨col, ?_, rfl⟩, iv, _, ⟨h3, rfl⟩, _, ⟨ic, ?_, rfl⟩, ev, _, ⟨h5, rfl⟩,
      _, ⟨es, ?_, rfl⟩, w₃, ?_, [], _, ⟨h8, rfl⟩, _, ⟨rfl, rfl⟩, sv, _, ⟨h9, rfl⟩, scheds, _, ⟨?_, rfl⟩, ?_⟩
    all_goals try simp only [setBp_bp_self, setBp_setBp, setBp_env, customOf_setBp]
    · exact h2
    · exact h4
    · rw [customOf_some] at h6; exact h6
    · exact h7
    · rw [scheduleNew_setBp]
      · exact h10
      · rfl

end Verif
