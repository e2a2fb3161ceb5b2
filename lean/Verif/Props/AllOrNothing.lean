import Verif.Spec.AllOrNothing
import Verif.Proofs.AllOrNothing
import Verif.Proofs.WireExport
import Verif.Props.Reparse
import Verif.Props.Sample
/-!
# C90: A call that raises leaves everything as it was
-/
set_option autoImplicit false

namespace Verif
open Spec

/-- C90, what holds of it: every call that is not of one of the sixteen kinds. -/
theorem C90_other_partial {env : Env} {w w' : World} (h : Reachable env w) {op : Op} (hop : ∀ k, ¬ Leaving k op) {x : Exc}
    (hr : op.run w = (.error x, w')) : w' = w := atomic_run h hop _ _ hr

/-- C90, what holds of it: a program that catches exceptions reaches the same state without the refused calls of the other
kinds. -/
theorem C90_skip_partial {env : Env} {w : World} (h : Reachable env w) {ops ops' : List Op} (hs : Skipping w ops ops') :
    ops.foldl (fun v op => (op.run v).2) w = ops'.foldl (fun v op => (op.run v).2) w := by
  induction hs generalizing env with
  | done w => rfl
  | keep w op ops ops' hr _ ih =>
    rw [List.foldl_cons, List.foldl_cons]
    obtain ⟨env', h'⟩ : ∃ env', Reachable env' (op.run w).2 := ⟨env, .step op h hr⟩
    exact ih h'
  | skip w op ops ops' x hk hx hs ih =>
    have e : (op.run w).2 = w := C90_other_partial h hk (x := x) (Prod.ext hx rfl)
    rw [List.foldl_cons, e]
    exact ih h

namespace Sample

/-- Three belts, the first with behaviours given by hand. -/
def handmade : World := ((Op.addMixins 0 [.Train]).run belts).2
def handmadeCargo : World := ((Op.addMixins 0 [.Cargo]).run belts).2
def handmadeChest : World := ((Op.addMixins 0 [.InfinityContainer]).run belts).2
def handmadeBuffer : World := ((Op.addMixins 0 [.Requester]).run belts).2

theorem given (ms : List Mx) : Reachable env ((Op.addMixins 0 ms).run belts).2 :=
  .step _ belts_reachable (show 0 < belts.next by decide +kernel)

/-- A belt with a wire from another one and a wire to an entity that was never in a blueprint and has no number. -/
def loose : World :=
  ((Op.connect 0 (some 3) (.int 1) (.int 1) "red").run
    ((Op.connect 1 (some 0) (.int 1) (.int 1) "red").run
      ((Op.newEntity none (ent "belt" 9 9)).run belts).2).2).2

theorem loose_reachable : Reachable env loose :=
  .step _ (.step _ (.step _ belts_reachable trivial) (show _ ∧ _ by
    refine ⟨by decide +kernel, fun s hs => ?_⟩
    cases hs
    decide +kernel)) (show _ ∧ _ by
    refine ⟨by decide +kernel, fun s hs => ?_⟩
    cases hs
    decide +kernel)

/-- A belt whose connections cannot be read, beside two belts with a wire. -/
def garbled : World :=
  ((Op.make 0 (ent "belt" 9 9 ++ [("connections", .int 1)])).run
    ((Op.connect 0 (some 1) (.int 1) (.int 1) "red").run belts).2).2

theorem garbled_reachable : Reachable env garbled :=
  .step _ (.step _ belts_reachable (show _ ∧ _ by
    refine ⟨by decide +kernel, fun s hs => ?_⟩
    cases hs
    decide +kernel)) trivial

/-- A prototype without type. -/
def untyped : World := ((Op.setProtos .entity [("odd", .dict [])] true).run belts).2

end Sample

open Sample in
/-- C90 is false of each of the sixteen kinds: there is a call of this kind, on a reachable state, that raises and has
changed something. -/
theorem C90_false (k : CallKind) : ∃ (env : Env) (w : World) (op : Op), Reachable env w ∧ op.refsOk w ∧ Leaving k op ∧
    ∃ x w', op.run w = (.error x, w') ∧ w' ≠ w := by
  have key : ∀ {w : World} {op : Op} {x : Exc} {β : Type} (f : World → β), (op.run w).1 = .error x → f (op.run w).2 ≠ f w →
      ∃ x w', op.run w = (.error x, w') ∧ w' ≠ w := fun f h hf =>
    ⟨_, _, run_eq h, fun e => hf (congrArg f e)⟩
  cases k with
  | load => exact ⟨env, belts, .load 0 (.dict [("label", .str "a"), ("icons", .int 1)]), belts_reachable, trivial,
      .load .., key (x := .typeError) (fun w => (w.bp 0).label) (by decide +kernel) (by decide +kernel)⟩
  | parse => exact ⟨env, garbled, .parse 0, garbled_reachable, trivial, .parse ..,
      key (x := .attributeError) (fun w => (w.bp 0).conns.length) (by decide +kernel) (by decide +kernel)⟩
  | rotate => exact ⟨env, handmade, .rotate 0 1 none none, given _, trivial, .rotate ..,
      key (x := .attributeError) (fun w => (w.heap 0).pos) (by decide +kernel) (by decide +kernel)⟩
  | rotateLayer => exact ⟨env, handmade, .rotateLayer 0 1 none none, given _, trivial, .rotateLayer ..,
      key (x := .attributeError) (fun w => (w.heap 0).pos) (by decide +kernel) (by decide +kernel)⟩
  | entRotate => exact ⟨env, handmade, .entRotate 0 1 (.vec ⟨.int 0, .int 0⟩) (.int 2), given _,
      (show 0 < handmade.next by decide +kernel), .entRotate ..,
      key (x := .attributeError) (fun w => (w.heap 0).pos) (by decide +kernel) (by decide +kernel)⟩
  | recenter => exact ⟨env, belts, .recenter 0 (some (.vec ⟨.int 1, .int 1⟩)), belts_reachable, trivial, .recenter ..,
      key (x := .attributeError) (fun w => (w.heap 0).pos) (by decide +kernel) (by decide +kernel)⟩
  | getConnections => exact ⟨env, loose, .getConnections 0, loose_reachable, (show 0 < loose.next by decide +kernel),
      .getConnections .., key (x := .typeError) (fun w => (w.bp 0).conns.map (·.fromE)) (by decide +kernel) (by decide +kernel)⟩
  | entToJson => exact ⟨env, loose, .entToJson 0, loose_reachable, (show 0 < loose.next by decide +kernel),
      .entToJson .., key (x := .typeError) (fun w => (w.bp 0).conns.map (·.fromE)) (by decide +kernel) (by decide +kernel)⟩
  | toJson => exact ⟨env, loose, .toJson 0, loose_reachable, trivial,
      .toJson .., key (x := .typeError) (fun w => (w.bp 0).conns.map (·.fromE)) (by decide +kernel) (by decide +kernel)⟩
  | setName => exact ⟨env, untyped, .setName 0 (.str "odd"), .step _ belts_reachable trivial,
      (show 0 < untyped.next by decide +kernel), .setName ..,
      key (x := .keyError) (fun w => (w.heap 0).name) (by decide +kernel) (by decide +kernel)⟩
  | setLabel => exact ⟨env, belts, .setLabel 0 (.str "a") (.inr (.int 1)), belts_reachable, trivial, .setLabel ..,
      key (x := .typeError) (fun w => (w.bp 0).label) (by decide +kernel) (by decide +kernel)⟩
  | importProtos => exact ⟨env, belts, .importProtos (.dict [("entity", .dict [])]) false, belts_reachable, trivial,
      .importProtos .., key (x := .keyError) (fun w => w.env.entities.length) (by decide +kernel) (by decide +kernel)⟩
  | inventory => exact ⟨env, handmadeCargo, .setAttr 0 "inventory" (.int 1), given _,
      (show 0 < handmadeCargo.next by decide +kernel), .inventory ..,
      key (x := .attributeError) (fun w => (w.heap 0).attrs.length) (by decide +kernel) (by decide +kernel)⟩
  | infinitySettings => exact ⟨env, handmadeChest, .setAttr 0 "infinity_settings"
        (.dict [("remove_unfiltered_items", .bool true)]), given _,
      (show 0 < handmadeChest.next by decide +kernel), .infinitySettings ..,
      key (x := .keyError) (fun w => (w.heap 0).attrs.length) (by decide +kernel) (by decide +kernel)⟩
  | infinityFilters => exact ⟨env, handmadeChest, .setAttr 0 "infinity_settings_filters" (.int 1), given _,
      (show 0 < handmadeChest.next by decide +kernel), .infinityFilters ..,
      key (x := .typeError) (fun w => (w.heap 0).attrs.length) (by decide +kernel) (by decide +kernel)⟩
  | requestFilters => exact ⟨env, handmadeBuffer, .setAttr 0 "request_filters" (.int 1), given _,
      (show 0 < handmadeBuffer.next by decide +kernel), .requestFilters ..,
      key (x := .typeError) (fun w => (w.heap 0).attrs.length) (by decide +kernel) (by decide +kernel)⟩

/-- Hence C90 as a whole is false. -/
theorem C90_all_false : ¬ AllOrNothing := by
  intro h
  obtain ⟨env, w, op, hw, hr, -, x, w', hx, hne⟩ := C90_false .load
  exact hne (h env w w' op x hw hr hx)

/-! What the calls of some of the sixteen kinds can have changed. -/

/-- C90, what holds of it: an export that raises changes nothing but which end of a wire is written first. -/
theorem C90_reads_partial {w w' : World} {op : Op} {x : Exc} (hr : op.run w = (.error x, w'))
    (h : (∃ r, op = .getConnections r) ∨ (∃ r, op = .entToJson r) ∨ ∃ b, op = .toJson b) :
    w'.env = w.env ∧ w'.heap = w.heap ∧ w'.next = w.next ∧
      ∀ c, w'.bp c = { w.bp c with conns := (w'.bp c).conns } ∧ List.Forall₂ Equal (w'.bp c).conns (w.bp c).conns := by
  have key : ∀ {α : Type} {m : M α}, Keeps (SameUpToFlips w) m →
      (do let _ ← m; return () : M Unit) w = (.error x, w') → SameUpToFlips w w' := by
    intro α m hm hx
    have h2 := (Keeps.bind hm (fun _ => Keeps.pure (a := ()))).keeps w (SameUpToFlips.refl w)
    have e : w' = ((do let _ ← m; return () : M Unit) w).2 := by rw [hx]
    rw [e]
    exact h2
  have : SameUpToFlips w w' := by
    rcases h with ⟨r, rfl⟩ | ⟨r, rfl⟩ | ⟨b, rfl⟩
    · exact key (Keeps.flips_getConnections w r) hr
    · exact key (Keeps.flips_entToJson w r) hr
    · exact key (Keeps.flips_toJson w b) hr
  exact ⟨this.env, this.heap, this.next, fun c => ⟨this.bp c, (this.conns c).imp (fun _ _ h => (equal_iff _ _).2 h)⟩⟩

/-- C90, what holds of it: a refused name or setting changes nothing but that entity, and there nothing but the name or
the settings. -/
theorem C90_entity_partial {w w' : World} {r : Ref} {x : Exc} :
    (∀ v, (Op.setName r v).run w = (.error x, w') → ∃ n, w' = w.setEnt r { w.heap r with name := n }) ∧
    (∀ k v, (Op.setAttr r k v).run w = (.error x, w') → ∃ a, w' = w.setEnt r { w.heap r with attrs := a }) := by
  constructor
  · intro v hx
    have hx : entSetName r v w = (.error x, w') := hx
    unfold entSetName at hx
    have h1 := congrArg Prod.fst hx
    have h2 := congrArg Prod.snd hx
    dsimp only at h1 h2
    rw [← h2]
    unfold Entity.setName at h1 ⊢
    split at h1
    · rename_i hs
      rw [if_pos hs]
      split at h1
      · cases h1
      · exact ⟨(w.heap r).name, rfl⟩
    · rename_i hs
      rw [if_neg hs]
      split at h1
      · split at h1
        · exact ⟨(w.heap r).name, rfl⟩
        · dsimp only at h1 ⊢
          split at h1
          · exact ⟨_, rfl⟩
          · split at h1
            · exact ⟨_, rfl⟩
            · split at h1
              · exact ⟨_, rfl⟩
              · cases h1
      · exact ⟨(w.heap r).name, rfl⟩
  · intro k v hx
    have hx : (((w.heap r).setAttr w.env k v).1, w.setEnt r ((w.heap r).setAttr w.env k v).2) = (Except.error x, w') := hx
    have h2 := congrArg Prod.snd hx
    dsimp only at h2
    rw [← h2]
    unfold Entity.setAttr
    split
    · exact ⟨(w.heap r).attrs, rfl⟩
    · split
      · exact ⟨_, rfl⟩
      · exact ⟨(w.heap r).attrs, rfl⟩

/-- C90, what holds of it: if the colour is refused, the label is set and nothing else is changed. -/
theorem C90_label_partial {w w' : World} {b : BpId} {l : Val} {c : Color ⊕ Val} {x : Exc}
    (hr : (Op.setLabel b l c).run w = (.error x, w')) : w' = w.setBp b { w.bp b with label := l } := by
  have hr : setLabel b l c w = (.error x, w') := hr
  unfold setLabel at hr
  cases c with
  | inl c => cases hr
  | inr v =>
    cases v with
    | none => cases hr
    | _ =>
      rw [M.bind_ok (show modBp b _ w = (.ok (), _) from rfl)] at hr
      dsimp only at hr
      rw [M.bind_eq, M.lift_eq] at hr
      split at hr
      · rename_i h
        cases hr
        exact (congrArg Prod.snd h).symm
      · cases hr

/-- C90, what holds of it: prototype data that are refused half way change no entity and no blueprint. -/
theorem C90_protos_partial {w w' : World} {data : Val} {a : Bool} {x : Exc}
    (hr : (Op.importProtos data a).run w = (.error x, w')) : w'.heap = w.heap ∧ w'.next = w.next ∧ w'.bp = w.bp := by
  have hr : importProtos data a w = (.error x, w') := hr
  have one : ∀ key t, Keeps (fun v => v.heap = w.heap ∧ v.next = w.next ∧ v.bp = w.bp) (importTable data a key t) := by
    intro key t
    refine Keeps.bind (Keeps.lift _) fun u => ⟨fun v hv => ?_⟩
    split <;> exact hv
  have all : Keeps (fun v => v.heap = w.heap ∧ v.next = w.next ∧ v.bp = w.bp) (importProtos data a) :=
    Keeps.bind (one _ _) fun _ => Keeps.bind (one _ _) fun _ => Keeps.bind (one _ _) fun _ =>
      Keeps.bind (one _ _) fun _ => one _ _
  have := all.keeps w ⟨rfl, rfl, rfl⟩
  rw [hr] at this
  exact this

/-- C90, what holds of it: a call that turns or moves and raises changes nothing but position, direction and orientation of
the entities that it is about; the order and the numbers stay. -/
theorem C90_moves_partial {env : Env} {w w' : World} (h : Reachable env w) {x : Exc} :
    (∀ b n a d, (Op.rotate b n a d).run w = (.error x, w') → Disturbed (w.bp b).objs w w') ∧
    (∀ b n a d, (Op.rotateLayer b n a d).run w = (.error x, w') → Disturbed (w.bp b).objs w w') ∧
    (∀ r n a d, (Op.entRotate r n a d).run w = (.error x, w') → Disturbed [r] w w') ∧
    (∀ b a, (Op.recenter b a).run w = (.error x, w') → Disturbed (w.bp b).objs w w') := by
  refine ⟨fun b n a d hx => ?_, fun b n a d hx => disturbed_layerRotate hx, fun r n a d hx => ?_, fun b a hx => ?_⟩
  · have hx : bpRotate b n a d w = (.error x, w') := hx
    rw [bpRotate_noTiles (h.noTiles b)] at hx
    exact disturbed_layerRotate hx
  · have hx : entRotate n a d r w = (.error x, w') := hx
    have := (disturbed_entRotate (w := w) (List.mem_singleton_self r) n a d).keeps w (.refl _ _)
    rwa [hx] at this
  · have hx : recenter b a w = (.error x, w') := hx
    have := disturbed_recenter b a w
    rwa [hx] at this

/-- C90, what holds of it: reading the wires again, when it raises, changes nothing but the wires of that blueprint. -/
theorem C90_parse_partial {env : Env} {w w' : World} (h : Reachable env w) {b : BpId} {x : Exc}
    (hr : (Op.parse b).run w = (.error x, w')) :
    w'.env = w.env ∧ w'.heap = w.heap ∧ w'.next = w.next ∧ (∀ c, c ≠ b → w'.bp c = w.bp c) ∧
      w'.bp b = { w.bp b with conns := (w'.bp b).conns } := by
  have e : w' = ((Op.parse b).run w).2 := by rw [hr]
  have hs := C68_only_wires b w
  rw [e]
  refine ⟨hs.env, hs.heap, hs.next, fun c hc => C68_other_blueprints h b c hc, ?_⟩
  have h1 := hs.rest b
  generalize ((Op.parse b).run w).2.bp b = p at h1
  generalize w.bp b = q at h1
  cases p
  cases q
  cases h1
  rfl

/-- A refused call of another kind: a wire from a connector that is no number. -/
example : ((Op.connect 0 (some 1) (.str "in") (.int 1) "red").run Sample.belts).1 ≠ .ok () ∧
    ∀ k, ¬ Leaving k (Op.connect 0 (some 1) (.str "in") (.int 1) "red") :=
  ⟨by decide +kernel, fun _ h => nomatch h⟩

/-- An entity that is not there cannot be removed. -/
example : ((Op.remove 0 (.ent 9)).run Sample.belts).1 = .error .valueError ∧ ∀ k, ¬ Leaving k (Op.remove 0 (.ent 9)) :=
  ⟨by decide +kernel, fun _ h => nomatch h⟩

/-- A removal that is refused, before and after a call that works. -/
example : Skipping Sample.belts [.remove 0 (.ent 9), .sort 0, .remove 0 (.ent 9)] [.sort 0] :=
  .skip _ _ _ _ .valueError (fun _ h => nomatch h) (by decide +kernel)
    (.keep _ _ _ _ trivial (.skip _ _ _ _ .valueError (fun _ h => nomatch h) (by decide +kernel) (.done _)))

/-- A rotation that raises half way. -/
example : ((Op.rotate 0 1 none none).run Sample.handmade).1 = .error .attributeError := by decide +kernel

end Verif
