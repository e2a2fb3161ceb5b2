import Verif.Spec.AllOrNothing
import Verif.Proofs.AssignOps
import Verif.Proofs.Make
import Verif.Proofs.Layer
import Verif.Proofs.Residue
import Verif.Proofs.RotateAll
/-!
# Helper lemmas: calls that raise before they change anything
-/
set_option autoImplicit false

namespace Verif
open Spec

/-- If the call raises, the world is as it was. -/
def Atomic {α : Type} (x : M α) (w : World) : Prop := ∀ e w', x w = (.error e, w') → w' = w

theorem atomic_void {α : Type} {x : M α} {w : World} (h : Atomic x w) :
    Atomic (do let _ ← x; return () : M Unit) w := by
  intro e w' hx
  rw [M.bind_eq] at hx
  cases hr : x w with
  | mk r v =>
    rw [hr] at hx
    cases r with
    | error y =>
      cases hx
      exact h _ _ hr
    | ok a => cases hx

theorem atomic_modBp (b : BpId) (f : Bp → Bp) (w : World) : Atomic (modBp b f) w := fun _ _ h => by cases h

theorem atomic_setEnt {x : Except Exc Unit} {e' : Entity} {w : World} {r : Ref} {y : Exc} {w' : World}
    (h : ∀ z, x = .error z → e' = w.heap r) (hx : (x, w.setEnt r e') = (.error y, w')) : w' = w := by
  cases hx
  rw [h y rfl, setEnt_same]

theorem filterCollides_sub {env : Env} {heap : Ref → Entity} {p : Operand} {l rs : List Ref}
    (h : filterCollides env heap p l = .ok rs) : rs.Sublist l := by
  induction l generalizing rs with
  | nil =>
    cases h
    exact .slnil
  | cons r l ih =>
    unfold filterCollides at h
    cases hc : (heap r).collides env p with
    | error x =>
      rw [hc] at h
      cases h
    | ok c =>
      cases hl : filterCollides env heap p l with
      | error x =>
        rw [hc, hl] at h
        cases h
      | ok rest =>
        rw [hc, hl] at h
        cases c <;> cases h
        · exact .cons _ (ih hl)
        · exact .cons_cons _ (ih hl)

theorem atomic_delAt {w : World} {b : BpId} {p : Operand} (hn : (w.bp b).objs.Nodup) : Atomic (layerDelAt b p) w := by
  intro e w' h
  unfold layerDelAt at h
  have e2 : (layerGet b p w).2 = w := by unfold layerGet; split <;> rfl
  cases hg : layerGet b p w with
  | mk res v =>
    rw [hg] at e2
    dsimp only at e2
    subst e2
    cases res with
    | error x =>
      rw [M.bind_error hg] at h
      cases h
      rfl
    | ok rs =>
      have hs : rs.Sublist (v.bp b).objs := by
        unfold layerGet at hg
        split at hg
        · exact filterCollides_sub (congrArg Prod.fst hg)
        · cases hg
        · exact filterCollides_sub (congrArg Prod.fst hg)
      rw [M.bind_ok hg, dropAll hn (hs.nodup hn) (fun r hr => hs.subset hr)] at h
      cases h

/-- Setters that compute the value and store it. -/
theorem setOne_error {k : String} {x : Except Exc Val} {z : Exc} (h : (setOne k x).1 = .error z) : (setOne k x).2 = [] := by
  unfold setOne at h ⊢
  split
  · rfl
  · cases h

theorem atomic_setAttr {env : Env} {e : Entity} {k : String} {v : Val} {z : Exc}
    (h1 : k ≠ "inventory") (h2 : k ≠ "infinity_settings") (h3 : k ≠ "infinity_settings_filters") (h4 : k ≠ "request_filters")
    (h : (e.setAttr env k v).1 = .error z) : (e.setAttr env k v).2 = e := by
  unfold Entity.setAttr at h ⊢
  cases hm : attrOwner k with
  | none => rfl
  | some m =>
    rw [hm] at h
    dsimp only at h ⊢
    split at h
    · rename_i hk
      rw [if_pos hk]
      dsimp only at h ⊢
      have : (mxAssign env e.strict e.klass.insFiltersShadowed k v).2 = [] := by
        clear hk hm m
        unfold mxAssign at h ⊢
        split at h <;> first
          | exact setOne_error h
          | contradiction
          | rfl
          | (unfold setItems at h ⊢; exact setOne_error h)
      rw [this]
      rfl
    · rename_i hk
      rw [if_neg hk]

theorem atomic_setControl {env : Env} {e : Entity} {k : String} {v : Val} {z : Exc}
    (h : (e.setControl env k v).1 = .error z) : (e.setControl env k v).2 = e := by
  unfold Entity.setControl at h ⊢
  cases hc : e.cb with
  | none => rfl
  | some c =>
    rw [hc] at h
    dsimp only at h ⊢
    have : (c.setAttr env k v).2 = c := by
      unfold Cb.setAttr at h ⊢
      split
      · rename_i hk
        rw [if_pos hk] at h
        split
        · rfl
        · rename_i hx
          rw [hx] at h
          cases h
      · rfl
    rw [this, ← hc]

/-- Every call of another kind raises before it changes anything. -/
theorem atomic_run {env : Env} {w : World} (h : Reachable env w) {op : Op} (hk : ∀ k, ¬ Leaving k op) :
    Atomic op.run w := by
  rw [Op.run.eq_def]
  cases op with
  | newEntity l kw =>
    refine atomic_void fun e w' hx => ?_
    unfold newEntity at hx
    split at hx <;> cases hx
    rfl
  | make b kw => exact atomic_void fun e w' hx => (layerMake_error hx).1
  | add b o =>
    intro e w' hx
    dsimp only at hx
    unfold layerAdd at hx
    split at hx
    · split at hx
      · cases hx
        rfl
      · split at hx <;> cases hx
    · cases hx
      rfl
  | remove b o =>
    intro e w' hx
    dsimp only at hx
    cases o with
    | ent r =>
      change layerDrop b r w = _ at hx
      unfold layerDrop at hx
      split at hx <;> cases hx
      rfl
    | tile t =>
      cases hx
      rfl
    | other =>
      cases hx
      rfl
  | delObj b r =>
    intro e w' hx
    dsimp only at hx
    unfold layerDrop at hx
    split at hx <;> cases hx
    rfl
  | delAt b p => exact atomic_delAt (h.owned.nodup b)
  | get b p =>
    refine atomic_void fun e w' hx => ?_
    unfold layerGet at hx
    split at hx <;> exact (congrArg Prod.snd hx).symm
  | connect r t f s c =>
    refine atomic_void fun e w' hx => ?_
    unfold connect at hx
    split at hx
    · cases hx
      rfl
    · split at hx <;> cases hx
      rfl
  | flip b i => exact atomic_modBp _ _ _
  | flipColor b i => exact atomic_modBp _ _ _
  | setPos r v =>
    intro e w' hx
    dsimp only at hx
    unfold setPos at hx
    split at hx <;> cases hx <;> rfl
  | setDir r v =>
    intro e w' hx
    dsimp only at hx
    unfold setDir at hx
    split at hx <;> cases hx
    rfl
  | addMixins r ms =>
    refine fun e w' hx => atomic_setEnt (fun z hz => ?_) hx
    unfold Entity.addMixins at hz ⊢
    dsimp only at hz ⊢
    split
    · rfl
    · rename_i hk
      rw [hk] at hz
      cases hz
  | setMixins r ms =>
    refine fun e w' hx => atomic_setEnt (fun z hz => ?_) hx
    unfold Entity.setMixins at hz ⊢
    dsimp only at hz ⊢
    split
    · rfl
    · rename_i hk
      rw [hk] at hz
      cases hz
  | setNumber r n => intro e w' hx; cases hx
  | setOrientation r v =>
    intro e w' hx
    dsimp only at hx
    unfold setOrientation at hx
    split at hx
    · split at hx <;> cases hx
      rfl
    · cases hx
      rfl
  | setAttr r k v =>
    refine fun e w' hx => atomic_setEnt (fun z hz => atomic_setAttr ?_ ?_ ?_ ?_ hz) hx
    · rintro rfl
      exact hk _ (.inventory ..)
    · rintro rfl
      exact hk _ (.infinitySettings ..)
    · rintro rfl
      exact hk _ (.infinityFilters ..)
    · rintro rfl
      exact hk _ (.requestFilters ..)
  | setControl r k v => exact fun e w' hx => atomic_setEnt (fun z hz => atomic_setControl hz) hx
  | newControl r v =>
    refine fun e w' hx => atomic_setEnt (fun z hz => ?_) hx
    unfold Entity.newControl at hz ⊢
    dsimp only at hz ⊢
    split
    · rfl
    · rename_i hk
      rw [hk] at hz
      cases hz
  | setProtos t d a => intro e w' hx; cases hx
  | setCustom b c => exact atomic_modBp _ _ _
  | tilesMake b kw =>
    refine atomic_void fun e w' hx => ?_
    unfold tilesMake at hx
    split at hx
    · cases hx
      rfl
    · rw [M.bind_eq, M.get_eq] at hx
      dsimp only at hx
      rw [M.bind_eq, M.lift_eq] at hx
      cases ht : Tile.new w.env.tiles.keys (kw ++ [("blueprint_layer", Val.none)]) with
      | error y =>
        rw [ht] at hx
        cases hx
        rfl
      | ok t =>
        rw [ht] at hx
        cases hx
        rfl
  | tilesAdd b o =>
    intro e w' hx
    dsimp only at hx
    cases o <;> cases hx <;> rfl
  | tilesRemove b o =>
    intro e w' hx
    dsimp only at hx
    unfold tilesRemove at hx
    split at hx
    · split at hx <;> cases hx
      rfl
    · cases hx
      rfl
  | tilesGet b p =>
    refine atomic_void fun e w' hx => ?_
    exact (congrArg Prod.snd hx).symm
  | sort b => intro e w' hx; cases hx
  | setItem b v => exact atomic_modBp _ _ _
  | setVersion b v => exact atomic_modBp _ _ _
  | setStrict b s => exact atomic_modBp _ _ _
  | setIcon b i v =>
    intro e w' hx
    dsimp only at hx
    unfold setIcon at hx
    rw [M.bind_eq, M.get_eq] at hx
    dsimp only at hx
    cases hi : (w.bp b).icons[i]? with
    | none =>
      rw [hi] at hx
      cases hx
      rfl
    | some o =>
      rw [hi] at hx
      cases o with
      | none =>
        cases hx
        rfl
      | some u =>
        dsimp only at hx
        rw [M.bind_eq, M.lift_eq] at hx
        cases hs : signalSet w.env v with
        | error y =>
          rw [hs] at hx
          cases hx
          rfl
        | ok s =>
          rw [hs] at hx
          cases hx
  | dropIcon b i =>
    intro e w' hx
    dsimp only at hx
    unfold dropIcon at hx
    rw [M.bind_eq, M.get_eq] at hx
    dsimp only at hx
    split at hx <;> cases hx
    rfl
  | addSchedule b v =>
    intro e w' hx
    dsimp only at hx
    unfold addSchedule at hx
    rw [M.bind_eq, M.get_eq] at hx
    dsimp only at hx
    rw [M.bind_eq, M.lift_eq] at hx
    cases hs : scheduleNew w b v with
    | error y =>
      rw [hs] at hx
      cases hx
      rfl
    | ok s =>
      rw [hs] at hx
      cases hx
  | load b d => exact absurd (.load ..) (hk _)
  | parse b => exact absurd (.parse ..) (hk _)
  | rotate b n a d => exact absurd (.rotate ..) (hk _)
  | rotateLayer b n a d => exact absurd (.rotateLayer ..) (hk _)
  | entRotate r n a d => exact absurd (.entRotate ..) (hk _)
  | recenter b a => exact absurd (.recenter ..) (hk _)
  | getConnections r => exact absurd (.getConnections ..) (hk _)
  | entToJson r => exact absurd (.entToJson ..) (hk _)
  | toJson b => exact absurd (.toJson ..) (hk _)
  | setName r v => exact absurd (.setName ..) (hk _)
  | setLabel b l c => exact absurd (.setLabel ..) (hk _)
  | importProtos d a => exact absurd (.importProtos ..) (hk _)

theorem Spec.OnlyMoved.refl (e : Entity) : OnlyMoved e e := ⟨e.pos, e.dir, e.attrs, rfl, fun _ _ => rfl⟩

theorem Spec.OnlyMoved.trans {e e' e'' : Entity} (h : OnlyMoved e e') (h' : OnlyMoved e' e'') : OnlyMoved e e'' := by
  obtain ⟨p, d, a, rfl, ha⟩ := h
  obtain ⟨p', d', a', rfl, ha'⟩ := h'
  exact ⟨p', d', a', rfl, fun k hk => (ha' k hk).trans (ha k hk)⟩

theorem onlyMoved_orientation {e e' : Entity} {n : Int} (h : e.rotateOrientation n = .ok e') : OnlyMoved e e' := by
  unfold Entity.rotateOrientation at h
  split at h
  · cases h
  · split at h
    · cases h
    · cases hs : (Num.mul (.flt (1/4)) (.int n)).mod (.int 1) with
      | error x =>
        rw [hs] at h
        cases h
      | ok step =>
        rw [hs] at h
        rename_i m _
        change (orientationSet (.num (m.add step)) >>= _) = _ at h
        cases ho : orientationSet (.num (m.add step)) with
        | error x =>
          rw [ho] at h
          cases h
        | ok o =>
          rw [ho] at h
          cases h
          exact ⟨e.pos, e.dir, _, rfl, fun k hk => lookup_set_ne hk⟩

theorem onlyMoved_chain {n : Int} {ms : List Mx} {e : Entity} : OnlyMoved e (Entity.rotateChain n ms e).2 := by
  induction ms generalizing e with
  | nil => exact .refl e
  | cons m ms ih =>
    cases m
    case Rotatable => exact Spec.OnlyMoved.trans ⟨e.pos, _, e.attrs, rfl, fun _ _ => rfl⟩ ih
    case Orientation =>
      unfold Entity.rotateChain
      split
      · exact .refl e
      · rename_i e' h
        exact (onlyMoved_orientation h).trans ih
    all_goals exact ih

theorem onlyMoved_rotate {e : Entity} {n : Int} {a : Operand} {d : DirArg} : OnlyMoved e (e.rotate n a d).2 := by
  unfold Entity.rotate
  split
  · exact .refl e
  · dsimp only
    split
    · exact .refl e
    · exact OnlyMoved.trans ⟨_, e.dir, e.attrs, rfl, fun _ _ => rfl⟩ onlyMoved_chain

theorem Spec.Disturbed.refl (rs : List Ref) (w : World) : Disturbed rs w w :=
  ⟨rfl, rfl, rfl, fun _ _ => rfl, fun _ => .refl _⟩

theorem Spec.Disturbed.setEnt {rs : List Ref} {w v : World} (h : Disturbed rs w v) {r : Ref} (hr : r ∈ rs) {e : Entity}
    (he : OnlyMoved (v.heap r) e) : Disturbed rs w (v.setEnt r e) := by
  refine ⟨h.env, h.next, h.bp, fun s hs => ?_, fun s => ?_⟩
  · rw [setEnt_heap, if_neg (fun (e : s = r) => hs (e ▸ hr))]
    exact h.others s hs
  · rw [setEnt_heap]
    split
    · rename_i e
      subst e
      exact (h.moved _).trans he
    · exact h.moved s

theorem disturbed_entRotate {rs : List Ref} {w : World} {r : Ref} (hr : r ∈ rs) (n : Int) (a : Operand) (d : DirArg) :
    Keeps (Disturbed rs w) (entRotate n a d r) := ⟨fun _ hv => hv.setEnt hr onlyMoved_rotate⟩

theorem disturbed_layerRotate {w w' : World} {b : BpId} {n : Int} {a : Option Operand} {d : Option DirArg} {x : Exc}
    (h : layerRotate b n a d w = (.error x, w')) : Disturbed (w.bp b).objs w w' := by
  unfold layerRotate at h
  rw [M.bind_get] at h
  have hk := (Keeps.forEach_mem (l := (w.bp b).objs) fun r hr => disturbed_entRotate (w := w) hr n
    (a.getD (.vec ⟨.int 0, .int 0⟩)) (d.getD (.int Direction.CLOCKWISE))).keeps w (.refl _ _)
  cases hf : M.forEach (entRotate n (a.getD (.vec ⟨.int 0, .int 0⟩)) (d.getD (.int Direction.CLOCKWISE))) (w.bp b).objs w with
  | mk res v =>
    rw [hf] at hk
    cases res with
    | error y =>
      rw [M.bind_error hf] at h
      cases h
      exact hk
    | ok u =>
      rw [M.bind_ok hf] at h
      cases h

theorem disturbed_recenter (b : BpId) (a : Option Operand) (w : World) :
    Disturbed (w.bp b).objs w (recenter b a w).2 := by
  unfold recenter
  rw [M.bind_get]
  refine (Keeps.bind (Keeps.lift _) fun c => Keeps.bind (Keeps.lift _) fun z => ?_).keeps w (.refl _ _)
  split
  · exact Keeps.pure ()
  · refine Keeps.bind (Keeps.forEach_mem fun r hr => ⟨fun v hv => ?_⟩) fun _ => Keeps.throw _
    unfold shiftEnt
    split
    · exact hv
    · exact hv.setEnt hr ⟨_, (v.heap r).dir, (v.heap r).attrs, rfl, fun _ _ => rfl⟩

end Verif
