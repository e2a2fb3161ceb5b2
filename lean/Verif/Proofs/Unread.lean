import Lean.Elab.Tactic.Basic
import Verif.Spec.ItemNames
/-!
# The table of items is not read

Two runs that differ in the imported table of items only go the same way.  That a definition does not look at the
table is seen by unfolding; `kernel_rfl` leaves this to the kernel.
-/
set_option autoImplicit false

namespace Verif
open Spec (withItems)

open Lean Elab Tactic Meta in
/-- Closes an equation with `Eq.refl`, which the kernel checks. -/
elab "kernel_rfl" : tactic => do
  let g ← getMainGoal
  let t ← whnfR (← g.getType)
  match t.eq? with
  | some (_, l, _) => g.assign (← mkEqRefl l)
  | none => throwError "not an equation"

/-- The computation does not depend on the table of items and leaves the rest of the world independent of it. -/
def Unread {α : Type} (m : M α) : Prop := ∀ w d, ∃ d', m (withItems w d) = ((m w).1, withItems (m w).2 d')

namespace Unread

theorem pure {α : Type} (a : α) : Unread (Pure.pure a : M α) := fun _ d => ⟨d, rfl⟩

theorem throw {α : Type} (e : Exc) : Unread (M.throw e : M α) := fun _ d => ⟨d, rfl⟩

theorem lift {α : Type} (x : Except Exc α) : Unread (M.lift x) := fun _ d => ⟨d, rfl⟩

theorem bind {α β : Type} {x : M α} {f : α → M β} (hx : Unread x) (hf : ∀ a, Unread (f a)) : Unread (x >>= f) := by
  intro w d
  obtain ⟨d1, h1⟩ := hx w d
  have e1 : ∀ u, (x >>= f) u = match x u with | (.error e, u) => (.error e, u) | (.ok a, u) => f a u := fun _ => rfl
  rw [e1, e1, h1]
  cases hw : x w with
  | mk r w1 =>
    cases r with
    | error e => exact ⟨d1, rfl⟩
    | ok a => exact hf a w1 d1

theorem get {α : Type} {f : World → M α} (h : ∀ w d, f (withItems w d) = f w) (hf : ∀ w, Unread (f w)) :
    Unread (M.get >>= f) := by
  intro w d
  have e1 : ∀ u, (M.get >>= f) u = f u u := fun _ => rfl
  rw [e1, e1, h]
  exact hf w w d

theorem forEach {α : Type} {f : α → M Unit} (h : ∀ a, Unread (f a)) : ∀ l, Unread (M.forEach f l)
  | [] => Unread.pure ()
  | a :: l => Unread.bind (h a) (fun _ => forEach h l)

theorem mapL {α β : Type} {f : α → M β} (h : ∀ a, Unread (f a)) : ∀ l, Unread (M.mapL f l)
  | [] => Unread.pure []
  | a :: l => Unread.bind (h a) (fun _ => Unread.bind (mapL h l) (fun _ => Unread.pure _))

/-- A step that looks at the world once. -/
theorem ofEq {α : Type} {m : M α} (h : ∀ w d, m (withItems w d) = ((m w).1, withItems (m w).2 d)) : Unread m :=
  fun w d => ⟨d, h w d⟩

theorem modBp (b : BpId) (f : Bp → Bp) : Unread (modBp b f) := ofEq (fun _ _ => rfl)

theorem sort (b : BpId) : Unread (M.modify (·.sort b)) := ofEq (fun _ _ => rfl)

theorem layerAdd (b : BpId) (o : Obj) : Unread (layerAdd b o) := ofEq fun w d => by
  cases o with
  | ent r =>
    unfold Verif.layerAdd
    dsimp only
    have e1 : (withItems w d).heap = w.heap := rfl
    have e2 : (withItems w d).bp = w.bp := rfl
    rw [e1, e2]
    split
    · rfl
    · split <;> rfl
  | tile t => rfl
  | other => rfl

theorem layerDrop (b : BpId) (r : Ref) : Unread (layerDrop b r) := ofEq fun w d => by
  unfold Verif.layerDrop
  have e2 : (withItems w d).bp = w.bp := rfl
  rw [e2]
  split <;> rfl

theorem layerRemove (b : BpId) (o : Obj) : Unread (layerRemove b o) := by
  cases o with
  | ent r => exact layerDrop b r
  | tile t => exact throw _
  | other => exact throw _

theorem layerGet (b : BpId) (p : Operand) : Unread (layerGet b p) := ofEq fun w d => by
  have e : ∀ q l, filterCollides (withItems w d).env (withItems w d).heap q l = filterCollides w.env w.heap q l := by
    intro q l
    kernel_rfl
  unfold Verif.layerGet
  split <;> first | (rw [e]; rfl) | rfl

theorem layerDelAt (b : BpId) (p : Operand) : Unread (layerDelAt b p) :=
  bind (layerGet b p) (fun _ => forEach (layerDrop b) _)

theorem newEntity (l : Option BpId) (kw : Dict) : Unread (newEntity l kw) := ofEq fun w d => by
  have e : Entity.new (withItems w d).env ((withItems w d).customOf l) l kw = Entity.new w.env (w.customOf l) l kw := by
    kernel_rfl
  unfold Verif.newEntity
  rw [e]
  split <;> rfl

theorem layerMake (b : BpId) (kw : Dict) : Unread (layerMake b kw) :=
  bind (newEntity _ _) (fun _ => bind (layerAdd _ _) (fun _ => pure _))

theorem layerLoad (b : BpId) (v : Val) : Unread (layerLoad b v) :=
  bind (lift _) (fun _ => bind (newEntity _ _) (fun _ => ofEq (fun _ _ => rfl)))

theorem entRotate (n : Int) (a : Operand) (dir : DirArg) (r : Ref) : Unread (entRotate n a dir r) :=
  ofEq (fun _ _ => rfl)

theorem layerRotate (b : BpId) (n : Int) (a : Option Operand) (dir : Option DirArg) : Unread (layerRotate b n a dir) :=
  get (fun _ _ => rfl) (fun _ => bind (forEach (entRotate _ _ _) _) (fun _ => sort b))

theorem tilesSort (b : BpId) : Unread (tilesSort b) := modBp _ _

theorem bpRotate (b : BpId) (n : Int) (a : Option Operand) (dir : Option DirArg) : Unread (bpRotate b n a dir) :=
  bind (layerRotate _ _ _ _) (fun _ => bind (ofEq (fun _ _ => rfl)) (fun _ => tilesSort b))

theorem connect (r : Ref) (t : Option Ref) (f s : Val) (c : String) : Unread (connect r t f s c) := ofEq fun w d => by
  unfold Verif.connect
  have e1 : (withItems w d).heap = w.heap := rfl
  rw [e1]
  split
  · rfl
  · split <;> rfl

theorem getConnections (r : Ref) : Unread (getConnections r) := ofEq fun w d => by
  unfold Verif.getConnections
  have e1 : (withItems w d).heap = w.heap := rfl
  have e2 : (withItems w d).bp = w.bp := rfl
  rw [e1]
  cases (w.heap r).layer with
  | none => rfl
  | some b =>
    dsimp only
    rw [e2]
    have e3 : ∀ p, ((withItems w d).setBp b p).heap = (w.setBp b p).heap := fun _ => rfl
    rw [e3]
    split
    · rfl
    · split <;> rfl

theorem connectionsToJson (r : Ref) : Unread (connectionsToJson r) :=
  bind (getConnections r) (fun _ => get (fun _ _ => rfl) (fun _ => lift _))

theorem entToJson (r : Ref) : Unread (entToJson r) :=
  get (fun w d => by kernel_rfl)
    (fun _ => bind (connectionsToJson r) (fun _ => bind (lift _) (fun _ => pure _)))

theorem toJson (b : BpId) : Unread (toJson b) :=
  get (fun w d => by kernel_rfl)
    (fun _ => bind (mapL entToJson _) (fun _ => bind (lift _) (fun _ => pure _)))

theorem loadIcon (b : BpId) (v : Val) : Unread (loadIcon b v) :=
  get (fun w d => by kernel_rfl)
    (fun _ => bind (lift _) fun _ => bind (lift _) fun _ => bind (lift _) fun _ => bind (lift _) fun _ =>
      bind (lift _) fun _ => modBp _ _)

theorem loadRef (b : BpId) (r : Ref) (side color : String) (v : Val) : Unread (loadRef b r side color v) :=
  get (fun w d => by kernel_rfl)
    (fun _ => bind (lift _) fun _ => bind (lift _) fun _ => bind (lift _) fun _ => modBp _ _)

theorem loadWires (b : BpId) (r : Ref) : Unread (loadWires b r) := by
  refine get (fun w d => by kernel_rfl) (fun w => ?_)
  have h : ∀ raw : Val, Unread (do
      let sides ← M.lift raw.asDict
      M.forEach (fun (side, cp) => do
        let colors ← M.lift (Val.asDict cp)
        M.forEach (fun (color, cs) => do
          let cs ← M.lift (Val.iter cs)
          M.forEach (Verif.loadRef b r side color) cs) colors) sides) := by
    intro raw
    refine bind (lift _) fun _ => forEach ?_ _
    rintro ⟨side, cp⟩
    refine bind (lift _) fun _ => forEach ?_ _
    rintro ⟨color, cs⟩
    exact bind (lift _) fun _ => forEach (loadRef b r side color) _
  cases (w.heap r).raw with
  | none => exact pure _
  | _ => exact h _

theorem parseConnections (b : BpId) : Unread (parseConnections b) :=
  bind (modBp _ _) fun _ => get (fun w d => by kernel_rfl) fun _ =>
    bind (forEach (loadWires b) _) fun _ => forEach (fun r => bind (getConnections r) fun _ => pure _) _

theorem tileLoad (b : BpId) (v : Val) : Unread (tileLoad b v) := by
  refine bind (lift _) fun kw => ?_
  split
  · exact throw _
  · exact get (fun w d => by kernel_rfl) fun _ => bind (lift _) fun _ => modBp _ _

theorem loadColor (b : BpId) (v : Val) : Unread (loadColor b v) := by
  cases v with
  | none => exact pure _
  | _ => exact bind (lift _) fun _ => modBp _ _

theorem load (b : BpId) (v : Val) : Unread (load b v) :=
  bind (lift _) fun _ => bind (modBp _ _) fun _ => bind (loadColor _ _) fun _ => bind (modBp _ _) fun _ =>
  bind (lift _) fun _ => bind (forEach (loadIcon b) _) fun _ => bind (lift _) fun _ =>
  bind (forEach (layerLoad b) _) fun _ => bind (sort b) fun _ => bind (parseConnections b) fun _ =>
  bind (lift _) fun _ => bind (forEach (tileLoad b) _) fun _ => bind (tilesSort b) fun _ => bind (lift _) fun _ =>
  get (fun w d => by kernel_rfl) fun _ => bind (lift _) fun _ => modBp _ _

theorem setLabel (b : BpId) (l : Val) (c : Color ⊕ Val) : Unread (setLabel b l c) := by
  refine bind (modBp _ _) fun _ => ?_
  cases c with
  | inl c => exact modBp _ _
  | inr v =>
    cases v with
    | none => exact pure _
    | _ => exact bind (lift _) fun _ => modBp _ _

theorem shiftEnt (c : Operand) (r : Ref) : Unread (shiftEnt c r) := ofEq fun w d => by
  unfold Verif.shiftEnt
  have e1 : (withItems w d).heap = w.heap := rfl
  rw [e1]
  split <;> rfl

theorem recenter (b : BpId) (a : Option Operand) : Unread (recenter b a) := by
  refine get (fun w d => by kernel_rfl) fun w => bind (lift _) fun c => bind (lift _) fun z => ?_
  split
  · exact pure _
  · exact bind (forEach (shiftEnt c) _) fun _ => throw _

theorem onEnt (r : Ref) (f : Env → Entity → Except Exc Unit × Entity)
    (h : ∀ (w : World) d e, f (withItems w d).env e = f w.env e) : Unread (onEnt r f) := ofEq fun w d => by
  unfold Verif.onEnt
  rw [h]
  rfl

theorem setProtos (t : Table) (data : Dict) (a : Bool) : Unread (setProtos t data a) := by
  cases t with
  | item => exact fun w d => ⟨_, rfl⟩
  | _ => exact ofEq (fun _ _ => rfl)

theorem importTable (v : Val) (a : Bool) (key : String) (t : Table) : Unread (importTable v a key t) := by
  refine bind (lift _) fun x => ?_
  cases x with
  | dict d => exact setProtos t d a
  | _ => exact throw _

theorem importProtos (v : Val) (a : Bool) : Unread (importProtos v a) :=
  bind (importTable _ _ _ _) fun _ => bind (importTable _ _ _ _) fun _ => bind (importTable _ _ _ _) fun _ =>
  bind (importTable _ _ _ _) fun _ => importTable _ _ _ _

theorem tilesAdd (b : BpId) (o : Obj) : Unread (tilesAdd b o) := by
  cases o <;> exact throw _

theorem tilesMake (b : BpId) (kw : Dict) : Unread (tilesMake b kw) := by
  unfold Verif.tilesMake
  split
  · exact throw _
  · exact get (fun w d => by kernel_rfl) fun _ => bind (lift _) fun _ => bind (tilesAdd _ _) fun _ => pure _

theorem tilesRemove (b : BpId) (o : Obj) : Unread (tilesRemove b o) := ofEq fun w d => by
  unfold Verif.tilesRemove
  have e2 : (withItems w d).bp = w.bp := rfl
  rw [e2]
  cases o with
  | tile t => dsimp only; split <;> rfl
  | _ => rfl

theorem setPos (r : Ref) (v : Val) : Unread (setPos r v) := ofEq fun w d => by
  unfold Verif.setPos
  split <;> rfl

theorem setDir (r : Ref) (v : Val) : Unread (setDir r v) := ofEq fun w d => by
  unfold Verif.setDir
  split <;> rfl

theorem setOrientation (r : Ref) (v : Val) : Unread (setOrientation r v) := ofEq fun w d => by
  unfold Verif.setOrientation
  have e1 : (withItems w d).heap = w.heap := rfl
  rw [e1]
  split
  · split <;> rfl
  · rfl

theorem setIcon (b : BpId) (i : Nat) (v : Val) : Unread (setIcon b i v) := by
  refine get (fun w d => by kernel_rfl) fun w => ?_
  split
  · exact throw _
  · exact throw _
  · exact bind (lift _) fun _ => modBp _ _

theorem dropIcon (b : BpId) (i : Nat) : Unread (dropIcon b i) := by
  refine get (fun w d => by kernel_rfl) fun w => ?_
  split
  · exact modBp _ _
  · exact throw _

theorem addSchedule (b : BpId) (v : Val) : Unread (addSchedule b v) :=
  get (fun w d => by kernel_rfl) fun _ => bind (lift _) fun _ => modBp _ _

/-- No call reads the table of items. -/
theorem run (op : Op) : Unread op.run := by
  cases op with
  | newEntity l kw => exact bind (newEntity l kw) fun _ => pure _
  | make b kw => exact bind (layerMake b kw) fun _ => pure _
  | add b o => exact layerAdd b o
  | remove b o => exact layerRemove b o
  | delObj b r => exact layerDrop b r
  | delAt b p => exact layerDelAt b p
  | get b p => exact bind (layerGet b p) fun _ => pure _
  | rotate b n a d => exact bpRotate b n a d
  | entRotate r n a d => exact entRotate n a d r
  | connect r t f s c => exact bind (connect r t f s c) fun _ => pure _
  | flip b i => exact ofEq fun _ _ => rfl
  | flipColor b i => exact ofEq fun _ _ => rfl
  | getConnections r => exact bind (getConnections r) fun _ => pure _
  | entToJson r => exact bind (entToJson r) fun _ => pure _
  | toJson b => exact bind (toJson b) fun _ => pure _
  | load b d => exact load b d
  | recenter b a => exact recenter b a
  | setPos r v => exact setPos r v
  | setDir r v => exact setDir r v
  | setName r v => exact ofEq fun w d => by kernel_rfl
  | addMixins r ms => exact ofEq fun w d => by kernel_rfl
  | setMixins r ms => exact ofEq fun w d => by kernel_rfl
  | setNumber r n => exact ofEq fun _ _ => rfl
  | setOrientation r v => exact setOrientation r v
  | setAttr r k v => exact onEnt r (fun env e => e.setAttr env k v) fun w d e => by kernel_rfl
  | setControl r k v => exact onEnt r (fun env e => e.setControl env k v) fun w d e => by kernel_rfl
  | newControl r v => exact onEnt r (fun env e => e.newControl env v) fun w d e => by kernel_rfl
  | setLabel b l c => exact setLabel b l c
  | setProtos t d a => exact setProtos t d a
  | importProtos d a => exact importProtos d a
  | setCustom b c => exact ofEq fun _ _ => rfl
  | tilesMake b kw => exact bind (tilesMake b kw) fun _ => pure _
  | tilesAdd b o => exact tilesAdd b o
  | tilesRemove b o => exact tilesRemove b o
  | tilesGet b p => exact bind (ofEq fun _ _ => rfl) fun _ => pure _
  | sort b => exact sort b
  | parse b => exact parseConnections b
  | rotateLayer b n a d => exact layerRotate b n a d
  | setItem b v => exact ofEq fun _ _ => rfl
  | setVersion b v => exact ofEq fun _ _ => rfl
  | setStrict b s => exact ofEq fun _ _ => rfl
  | setIcon b i v => exact setIcon b i v
  | dropIcon b i => exact dropIcon b i
  | addSchedule b v => exact addSchedule b v

end Unread
end Verif
