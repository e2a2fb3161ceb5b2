import Verif.Proofs.Load
import Verif.Proofs.Isolation
import Verif.Spec.Reparse
/-!
# Lemmas about reading the connection data again
-/
set_option autoImplicit false

namespace Verif
open Spec

/-- Blueprint `b` lists the same entities with the same attributes and records the same wires, and the entities of the
list `l` report it. -/
structure AlikeWires (b : BpId) (l : List Ref) (v w : World) : Prop where
  heap : v.heap = w.heap
  objs : (v.bp b).objs = (w.bp b).objs
  conns : (v.bp b).conns = (w.bp b).conns
  home : ∀ r ∈ l, (w.heap r).layer = some b

/-- Replaces the wires. -/
def World.rewire (w : World) (b : BpId) (cs : List Conn) : World := w.setBp b { w.bp b with conns := cs }

theorem rewire_rewire (w : World) (b : BpId) (cs ds : List Conn) : (w.rewire b cs).rewire b ds = w.rewire b ds := by
  unfold World.rewire
  rw [setBp_setBp, setBp_bp_self]

theorem rewire_conns (w : World) (b : BpId) (cs : List Conn) : ((w.rewire b cs).bp b).conns = cs := by
  unfold World.rewire
  rw [setBp_bp_self]

theorem rewire_self (w : World) (b : BpId) : w.rewire b (w.bp b).conns = w := by
  unfold World.rewire World.setBp
  cases w with
  | mk env heap next bp =>
    congr 1
    funext c
    dsimp only
    split
    · rename_i e; subst e; rfl
    · rfl

theorem AlikeWires.rewire {b : BpId} {l : List Ref} {v w : World} (h : AlikeWires b l v w) (cs : List Conn) :
    AlikeWires b l (v.rewire b cs) (w.rewire b cs) where
  heap := h.heap
  objs := by unfold World.rewire; rw [setBp_bp_self, setBp_bp_self]; exact h.objs
  conns := by rw [rewire_conns, rewire_conns]
  home := h.home

/-- The computation goes the same way in such worlds and changes the wires of the blueprint only. -/
def Lock {α : Type} (b : BpId) (l : List Ref) (m : M α) : Prop :=
  ∀ v w, AlikeWires b l v w → ∃ x cs, m v = (x, v.rewire b cs) ∧ m w = (x, w.rewire b cs)

namespace Lock
variable {b : BpId} {l : List Ref}

theorem lift {α : Type} (x : Except Exc α) : Lock b l (M.lift x) :=
  fun v w h => ⟨x, (w.bp b).conns, by rw [M.lift_eq, ← h.conns, rewire_self], by rw [M.lift_eq, rewire_self]⟩

theorem pure {α : Type} (a : α) : Lock b l (Pure.pure a : M α) := lift (.ok a)

theorem bind {α β : Type} {m : M α} {f : α → M β} (hm : Lock b l m) (hf : ∀ a, Lock b l (f a)) : Lock b l (m >>= f) := by
  intro v w h
  obtain ⟨x, cs, e1, e2⟩ := hm v w h
  rw [M.bind_eq, M.bind_eq, e1, e2]
  cases x with
  | error e => exact ⟨.error e, cs, rfl, rfl⟩
  | ok a =>
    obtain ⟨y, ds, i1, i2⟩ := hf a _ _ (h.rewire cs)
    dsimp only
    rw [i1, i2]
    exact ⟨y, ds, by rw [rewire_rewire], by rw [rewire_rewire]⟩

theorem forEach_mem {α : Type} {f : α → M Unit} : ∀ {k : List α}, (∀ a ∈ k, Lock b l (f a)) → Lock b l (M.forEach f k)
  | [], _ => pure ()
  | a :: _, h => bind (h a List.mem_cons_self) (fun _ => forEach_mem (fun c hc => h c (List.mem_cons_of_mem _ hc)))

theorem loadRef (r : Ref) (side color : String) (c : Val) : Lock b l (loadRef b r side color c) := by
  intro v w h
  unfold Verif.loadRef
  rw [M.bind_get, M.bind_get]
  have e : getById v b = getById w b := by
    funext i
    unfold getById
    rw [h.objs, h.heap]
  rw [e]
  refine bind (lift _) (fun _ => bind (lift _) (fun _ => bind (lift _) (fun conn => ?_))) v w h
  intro v w h
  refine ⟨.ok (), addConn (w.bp b).conns conn, ?_, rfl⟩
  rw [← h.conns]
  rfl

theorem loadWires (r : Ref) : Lock b l (loadWires b r) := by
  intro v w h
  unfold Verif.loadWires
  rw [M.bind_get, M.bind_get, h.heap]
  have key : ∀ raw : Val, Lock b l (do
      let sides ← M.lift raw.asDict
      M.forEach (fun (side, cp) => do
        let colors ← M.lift (Val.asDict cp)
        M.forEach (fun (color, cs) => do
          let cs ← M.lift (Val.iter cs)
          M.forEach (Verif.loadRef b r side color) cs) colors) sides) := by
    intro raw
    refine bind (lift _) fun _ => forEach_mem ?_
    rintro ⟨side, cp⟩ -
    refine bind (lift _) fun _ => forEach_mem ?_
    rintro ⟨color, cs⟩ -
    exact bind (lift _) fun _ => forEach_mem fun _ _ => loadRef _ _ _ _
  cases (w.heap r).raw with
  | none => exact pure () v w h
  | _ => exact key _ v w h

theorem getConnections {r : Ref} (hr : r ∈ l) : Lock b l (getConnections r) := by
  intro v w h
  unfold Verif.getConnections
  rw [h.heap, h.home r hr]
  dsimp only
  have e1 : ∀ cs, (v.setBp b { v.bp b with conns := cs }).heap = w.heap := fun _ => h.heap
  have e2 : ∀ cs, (w.setBp b { w.bp b with conns := cs }).heap = w.heap := fun _ => rfl
  rw [h.conns, e1, e2]
  cases ((((w.bp b).conns.filter (·.attachedTo r)).map (·.orientate r)).mapM
      (fun c => do return ((← otherAuto w.heap c), c)) : Except Exc (List (Option Int × Conn))) with
  | error e => exact ⟨_, _, rfl, rfl⟩
  | ok keyed =>
    dsimp only
    split
    · exact ⟨_, _, rfl, rfl⟩
    · exact ⟨_, _, rfl, rfl⟩

end Lock

/-- What reading the connection data does depends on the listed entities only. -/
theorem parseConnections_alikeWires {b : BpId} {v w : World} (hh : v.heap = w.heap) (ho : (v.bp b).objs = (w.bp b).objs)
    (hl : ∀ r ∈ (w.bp b).objs, (w.heap r).layer = some b) :
    ∃ x cs, parseConnections b v = (x, v.rewire b cs) ∧ parseConnections b w = (x, w.rewire b cs) := by
  have h0 : AlikeWires b (w.bp b).objs (v.rewire b []) (w.rewire b []) :=
    ⟨hh, by unfold World.rewire; rw [setBp_bp_self, setBp_bp_self]; exact ho, by rw [rewire_conns, rewire_conns], hl⟩
  have e : ∀ u : World, parseConnections b u = ((M.forEach (loadWires b) (u.bp b).objs >>= fun _ =>
      M.forEach (fun r => do let _ ← getConnections r; return ()) (u.bp b).objs) (u.rewire b [])) := by
    intro u
    unfold parseConnections
    rw [M.bind_modBp, M.bind_get, noConns_objs]
    rfl
  obtain ⟨x, cs, i1, i2⟩ := (Lock.bind (Lock.forEach_mem fun r _ => Lock.loadWires r) fun _ =>
    Lock.forEach_mem (k := (w.bp b).objs) fun r hr => Lock.bind (Lock.getConnections hr) fun _ => Lock.pure ()) _ _ h0
  exact ⟨x, cs, by rw [e, ho, i1, rewire_rewire], by rw [e, i2, rewire_rewire]⟩

end Verif

namespace Verif
open Spec

/-! ## Calls on wires -/

theorem Spec.SameButWires.refl (w : World) : SameButWires w w := ⟨rfl, rfl, rfl, fun _ => rfl⟩

theorem Spec.SameButWires.setConns {v w : World} (h : SameButWires v w) (b : BpId) (cs : List Conn) :
    SameButWires (v.setBp b { v.bp b with conns := cs }) w := by
  refine ⟨h.env, h.heap, h.next, fun c => ?_⟩
  rw [setBp_bp]
  split
  · rename_i e; subst e; exact h.rest c
  · exact h.rest c

namespace KeepWires
variable (w : World)

abbrev Ok {α : Type} (m : M α) : Prop := Keeps (fun v => SameButWires v w) m

theorem ofRead {α : Type} {m : M α} (h : ∀ v, (m v).2 = v) : Ok w m := ⟨fun v hv => by rw [h v]; exact hv⟩

theorem connect (r : Ref) (t : Option Ref) (f s : Val) (c : String) : Ok w (Verif.connect r t f s c) := by
  refine ⟨fun v hv => ?_⟩
  unfold Verif.connect
  split
  · exact hv
  · split
    · exact hv
    · exact hv.setConns _ _

theorem getConnections (r : Ref) : Ok w (Verif.getConnections r) := by
  refine ⟨fun v hv => ?_⟩
  unfold Verif.getConnections
  split
  · exact hv
  · dsimp only
    split
    · exact hv.setConns _ _
    · split
      · exact hv.setConns _ _
      · exact hv.setConns _ _

theorem modConns (b : BpId) (f : List Conn → List Conn) : Ok w (modBp b (fun p => { p with conns := f p.conns })) :=
  ⟨fun _ hv => hv.setConns _ _⟩

theorem entToJson (r : Ref) : Ok w (Verif.entToJson r) :=
  Keeps.bind Keeps.get fun _ => Keeps.bind (Keeps.bind (getConnections w r) fun _ => Keeps.bind Keeps.get fun _ => Keeps.lift _)
    fun _ => Keeps.bind (Keeps.lift _) fun _ => Keeps.pure _

theorem mapL {α β : Type} {f : α → M β} (h : ∀ a, Ok w (f a)) : ∀ l, Ok w (M.mapL f l)
  | [] => Keeps.pure _
  | a :: l => Keeps.bind (h a) fun _ => Keeps.bind (mapL h l) fun _ => Keeps.pure _

theorem toJson (b : BpId) : Ok w (Verif.toJson b) :=
  Keeps.bind Keeps.get fun _ => Keeps.bind (mapL w (entToJson w) _) fun _ => Keeps.bind (Keeps.lift _) fun _ => Keeps.pure _

theorem loadRef (b : BpId) (r : Ref) (side color : String) (c : Val) : Ok w (Verif.loadRef b r side color c) :=
  Keeps.bind Keeps.get fun _ => Keeps.bind (Keeps.lift _) fun _ => Keeps.bind (Keeps.lift _) fun _ =>
    Keeps.bind (Keeps.lift _) fun c => modConns w b (addConn · c)

theorem loadWires (b : BpId) (r : Ref) : Ok w (Verif.loadWires b r) := by
  refine Keeps.bind Keeps.get fun v => ?_
  have key : ∀ raw : Val, Ok w (do
      let sides ← M.lift raw.asDict
      M.forEach (fun (side, cp) => do
        let colors ← M.lift (Val.asDict cp)
        M.forEach (fun (color, cs) => do
          let cs ← M.lift (Val.iter cs)
          M.forEach (Verif.loadRef b r side color) cs) colors) sides) := by
    intro raw
    refine Keeps.bind (Keeps.lift _) fun _ => Keeps.forEach ?_ _
    rintro ⟨side, cp⟩
    refine Keeps.bind (Keeps.lift _) fun _ => Keeps.forEach ?_ _
    rintro ⟨color, cs⟩
    exact Keeps.bind (Keeps.lift _) fun _ => Keeps.forEach (fun _ => loadRef w _ _ _ _ _) _
  cases (v.heap r).raw with
  | none => exact Keeps.pure ()
  | _ => exact key _

theorem parse (b : BpId) : Ok w (parseConnections b) :=
  Keeps.bind (modConns w b fun _ => []) fun _ => Keeps.bind Keeps.get fun _ =>
    Keeps.bind (Keeps.forEach (fun r => loadWires w b r) _) fun _ =>
      Keeps.forEach (fun r => Keeps.bind (getConnections w r) fun _ => Keeps.pure _) _

theorem run {op : Op} (h : WireCall op) : Ok w op.run := by
  cases op with
  | connect r t f s c => exact Keeps.bind (connect w r t f s c) fun _ => Keeps.pure _
  | flip b i => exact ⟨fun _ hv => hv.setConns _ _⟩
  | flipColor b i => exact ⟨fun _ hv => hv.setConns _ _⟩
  | getConnections r => exact Keeps.bind (getConnections w r) fun _ => Keeps.pure _
  | entToJson r => exact Keeps.bind (entToJson w r) fun _ => Keeps.pure _
  | toJson b => exact Keeps.bind (toJson w b) fun _ => Keeps.pure _
  | parse b => exact parse w b
  | get b p =>
    refine Keeps.bind (ofRead w fun v => ?_) fun _ => Keeps.pure _
    unfold layerGet
    split <;> rfl
  | tilesGet b p => exact Keeps.bind (ofRead w fun v => rfl) fun _ => Keeps.pure _
  | _ => cases h

end KeepWires

theorem Spec.WireCalls.same {w w' : World} (h : WireCalls w w') : SameButWires w' w := by
  induction h with
  | refl => exact .refl w
  | step op _ hc ih => exact (KeepWires.run w hc).1 _ ih

theorem Spec.SameButWires.objs {v w : World} (h : SameButWires v w) (b : BpId) : (v.bp b).objs = (w.bp b).objs := by
  have := congrArg Bp.objs (h.rest b)
  exact this

end Verif
