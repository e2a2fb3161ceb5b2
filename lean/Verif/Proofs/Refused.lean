import Verif.Proofs.Residue
import Verif.Proofs.Accept
import Verif.Spec.Refused
/-!
# Helper lemmas: imports that are refused (C89)
-/
set_option autoImplicit false

namespace Verif
open Spec

namespace Kept

theorem refl (w : World) : Kept w w := ⟨fun _ _ h => h, fun _ _ => rfl, Nat.le_refl _⟩

theorem trans {w w' w'' : World} (h : Kept w w') (h' : Kept w' w'') : Kept w w'' :=
  ⟨fun c s hs => h'.member c s (h.member c s hs),
    fun s hs => (h'.entity s (Nat.lt_of_lt_of_le hs h.new)).trans (h.entity s hs), Nat.le_trans h.new h'.new⟩

theorem setBp {w : World} {b : BpId} {p : Bp} (h : p.objs = (w.bp b).objs) : Kept w (w.setBp b p) := by
  refine ⟨fun c s hs => ?_, fun _ _ => rfl, Nat.le_refl _⟩
  rw [setBp_bp]
  split
  · rename_i e
    subst e
    rw [h]
    exact hs
  · exact hs

end Kept

/-- Running this call keeps all entities, whether it raises or not. -/
def Keeping {α : Type} (x : M α) : Prop := ∀ w, Kept w (x w).2

namespace Keeping

theorem pure {α : Type} (a : α) : Keeping (Pure.pure a : M α) := fun w => Kept.refl w

theorem lift {α : Type} (x : Except Exc α) : Keeping (M.lift x) := fun w => Kept.refl w

theorem bind {α β : Type} {x : M α} {f : α → M β} (h : Keeping x) (hf : ∀ a, Keeping (f a)) : Keeping (x >>= f) := by
  intro w
  rw [M.bind_eq]
  have := h w
  cases hx : x w with
  | mk r w' =>
    rw [hx] at this
    cases r with
    | error e => exact this
    | ok a => exact Kept.trans this (hf a w')

theorem get {β : Type} {f : World → M β} (hf : ∀ v, Keeping (f v)) : Keeping (M.get >>= f) := fun w => hf w w

theorem forEach {α : Type} {f : α → M Unit} (hf : ∀ a, Keeping (f a)) (l : List α) : Keeping (M.forEach f l) := by
  induction l with
  | nil => exact pure ()
  | cons a l ih => exact bind (hf a) (fun _ => ih)

theorem modBp {b : BpId} {f : Bp → Bp} (h : ∀ p, (f p).objs = p.objs) : Keeping (Verif.modBp b f) :=
  fun w => Kept.setBp (h _)

theorem loadColor (b : BpId) (v : Val) : Keeping (loadColor b v) := by
  unfold Verif.loadColor
  split
  · exact pure ()
  · exact bind (lift _) fun _ => modBp fun _ => rfl

theorem loadIcon (b : BpId) (v : Val) : Keeping (loadIcon b v) :=
  get fun _ => bind (lift _) fun _ => bind (lift _) fun _ => bind (lift _) fun _ => bind (lift _) fun _ =>
    bind (lift _) fun _ => modBp fun _ => rfl

theorem newEntity (layer : Option BpId) (kw : Dict) : Keeping (newEntity layer kw) := by
  intro w
  unfold Verif.newEntity
  split
  · exact Kept.refl w
  · refine ⟨fun _ _ h => h, fun s hs => ?_, Nat.le_succ _⟩
    show SameButNumber (if s = w.next then _ else w.heap s) (w.heap s)
    rw [if_neg (Nat.ne_of_lt hs)]
    rfl

theorem layerLoad (b : BpId) (v : Val) : Keeping (layerLoad b v) := by
  unfold Verif.layerLoad
  refine bind (lift _) fun kw => bind (newEntity _ _) fun r => ?_
  intro w
  refine ⟨fun c s hs => ?_, fun _ _ => rfl, Nat.le_refl _⟩
  show s ∈ ((w.setBp b _).bp c).objs
  rw [setBp_bp]
  split
  · rename_i e
    subst e
    exact List.mem_append_left _ hs
  · exact hs

theorem sort (b : BpId) : Keeping (M.modify (·.sort b)) := by
  intro w
  refine ⟨fun c s hs => ?_, fun s _ => sort_same w b s, Nat.le_refl _⟩
  show s ∈ ((w.setBp b _).bp c).objs
  rw [setBp_bp]
  split
  · rename_i e
    subst e
    exact (mem_sortBy _).2 hs
  · exact hs

theorem getConnections (r : Ref) : Keeping (getConnections r) := by
  intro w
  unfold Verif.getConnections
  split
  · exact Kept.refl w
  · dsimp only
    split
    · exact Kept.setBp rfl
    · split <;> exact Kept.setBp rfl

theorem loadRef (b : BpId) (r : Ref) (s c : String) (v : Val) : Keeping (loadRef b r s c v) :=
  get fun _ => bind (lift _) fun _ => bind (lift _) fun _ => bind (lift _) fun _ => modBp fun _ => rfl

theorem loadWires (b : BpId) (r : Ref) : Keeping (loadWires b r) := by
  unfold Verif.loadWires
  refine get fun w => ?_
  split
  · exact pure ()
  · exact bind (lift _) fun _ => forEach (fun _ => bind (lift _) fun _ => forEach (fun _ => bind (lift _) fun _ =>
      forEach (fun _ => loadRef _ _ _ _ _) _) _) _

theorem parseConnections (b : BpId) : Keeping (parseConnections b) :=
  bind (modBp fun _ => rfl) fun _ => get fun _ => bind (forEach (fun _ => loadWires _ _) _) fun _ =>
    forEach (fun _ => bind (getConnections _) fun _ => pure ()) _

theorem tileLoad (b : BpId) (v : Val) : Keeping (tileLoad b v) := by
  unfold Verif.tileLoad
  refine bind (lift _) fun kw => ?_
  split
  · exact fun w => Kept.refl w
  · exact get fun _ => bind (lift _) fun _ => modBp fun _ => rfl

theorem load (b : BpId) (data : Val) : Keeping (load b data) := by
  unfold Verif.load
  exact bind (lift _) fun _ => bind (modBp fun _ => rfl) fun _ => bind (loadColor _ _) fun _ => bind (modBp fun _ => rfl) fun _ =>
    bind (lift _) fun _ => bind (forEach (fun _ => loadIcon _ _) _) fun _ => bind (lift _) fun _ =>
    bind (forEach (fun _ => layerLoad _ _) _) fun _ => bind (sort b) fun _ => bind (parseConnections b) fun _ =>
    bind (lift _) fun _ => bind (forEach (fun _ => tileLoad _ _) _) fun _ => bind (modBp fun _ => rfl) fun _ =>
    bind (lift _) fun _ => get fun _ => bind (lift _) fun _ => modBp fun _ => rfl

end Keeping

/-! ## Steps that leave more as it was -/

/-- The worlds before and after the call, whether it raises or not, are related. -/
def Along (R : World → World → Prop) {α : Type} (x : M α) : Prop := ∀ w, R w (x w).2

/-- A relation that holds of equal worlds and is transitive. -/
structure Chained (R : World → World → Prop) : Prop where
  refl : ∀ w, R w w
  trans : ∀ {w w' w''}, R w w' → R w' w'' → R w w''

namespace Along
variable {R : World → World → Prop}

theorem pure (h : Chained R) {α : Type} (a : α) : Along R (Pure.pure a : M α) := fun w => h.refl w

theorem lift (h : Chained R) {α : Type} (x : Except Exc α) : Along R (M.lift x) := fun w => h.refl w

theorem bind (h : Chained R) {α β : Type} {x : M α} {f : α → M β} (hx : Along R x) (hf : ∀ a, Along R (f a)) :
    Along R (x >>= f) := by
  intro w
  rw [M.bind_eq]
  have := hx w
  cases hx : x w with
  | mk r w' =>
    rw [hx] at this
    cases r with
    | error e => exact this
    | ok a => exact h.trans this (hf a w')

theorem get {β : Type} {f : World → M β} (hf : ∀ v, Along R (f v)) : Along R (M.get >>= f) := fun w => hf w w

theorem forEach (h : Chained R) {α : Type} {f : α → M Unit} (hf : ∀ a, Along R (f a)) (l : List α) :
    Along R (M.forEach f l) := by
  induction l with
  | nil => exact pure h ()
  | cons a l ih => exact bind h (hf a) (fun _ => ih)

end Along

/-- Nothing but the label, the colour, the version, the item and the icons changed. -/
def HeadOnly (b : BpId) (w w' : World) : Prop :=
  w'.heap = w.heap ∧ w'.next = w.next ∧ (∀ c, c ≠ b → w'.bp c = w.bp c) ∧ (w'.bp b).objs = (w.bp b).objs ∧
    (w'.bp b).conns = (w.bp b).conns ∧ (w'.bp b).tiles = (w.bp b).tiles ∧ (w'.bp b).schedules = (w.bp b).schedules

theorem headOnly_chained (b : BpId) : Chained (HeadOnly b) :=
  ⟨fun _ => ⟨rfl, rfl, fun _ _ => rfl, rfl, rfl, rfl, rfl⟩,
    fun ⟨a1, a2, a3, a4, a5, a6, a7⟩ ⟨b1, b2, b3, b4, b5, b6, b7⟩ =>
      ⟨b1.trans a1, b2.trans a2, fun c hc => (b3 c hc).trans (a3 c hc), b4.trans a4, b5.trans a5, b6.trans a6, b7.trans a7⟩⟩

theorem headOnly_setBp {b : BpId} {f : Bp → Bp} (h : ∀ p, (f p).objs = p.objs ∧ (f p).conns = p.conns ∧
    (f p).tiles = p.tiles ∧ (f p).schedules = p.schedules) : Along (HeadOnly b) (modBp b f) := by
  intro w
  rw [modBp_eq]
  refine ⟨rfl, rfl, fun c hc => by rw [setBp_bp, if_neg hc], ?_⟩
  rw [setBp_bp_self]
  exact h _

theorem headOnly_loadHead (b : BpId) (d : Dict) : Along (HeadOnly b) (loadHead b d) := by
  have hC := headOnly_chained b
  unfold loadHead
  refine .bind hC (headOnly_setBp fun _ => ⟨rfl, rfl, rfl, rfl⟩) fun _ => .bind hC ?_ fun _ =>
    .bind hC (headOnly_setBp fun _ => ⟨rfl, rfl, rfl, rfl⟩) fun _ => .bind hC (.lift hC _) fun _ => .forEach hC (fun v => ?_) _
  · unfold loadColor
    split
    · exact .pure hC ()
    · exact .bind hC (.lift hC _) fun _ => headOnly_setBp fun _ => ⟨rfl, rfl, rfl, rfl⟩
  · unfold loadIcon
    exact .get fun _ => .bind hC (.lift hC _) fun _ => .bind hC (.lift hC _) fun _ => .bind hC (.lift hC _) fun _ =>
      .bind hC (.lift hC _) fun _ => .bind hC (.lift hC _) fun _ => headOnly_setBp fun _ => ⟨rfl, rfl, rfl, rfl⟩

/-- The entities and their order did not change. -/
def EntitiesFixed (w w' : World) : Prop := w'.heap = w.heap ∧ ∀ c, (w'.bp c).objs = (w.bp c).objs

theorem fixed_chained : Chained EntitiesFixed :=
  ⟨fun _ => ⟨rfl, fun _ => rfl⟩, fun ⟨a1, a2⟩ ⟨b1, b2⟩ => ⟨b1.trans a1, fun c => (b2 c).trans (a2 c)⟩⟩

theorem fixed_setBp {w : World} {b : BpId} {p : Bp} (h : p.objs = (w.bp b).objs) : EntitiesFixed w (w.setBp b p) := by
  refine ⟨rfl, fun c => ?_⟩
  rw [setBp_bp]
  split
  · rename_i e
    subst e
    exact h
  · rfl

theorem fixed_modBp {b : BpId} {f : Bp → Bp} (h : ∀ p, (f p).objs = p.objs) : Along EntitiesFixed (modBp b f) :=
  fun _ => fixed_setBp (h _)

theorem fixed_parse (b : BpId) : Along EntitiesFixed (parseConnections b) := by
  have hC := fixed_chained
  unfold parseConnections
  refine .bind hC (fixed_modBp fun _ => rfl) fun _ => .get fun _ => .bind hC (.forEach hC (fun r => ?_) _) fun _ =>
    .forEach hC (fun r => .bind hC ?_ fun _ => .pure hC ()) _
  · unfold loadWires
    refine .get fun w => ?_
    split
    · exact .pure hC ()
    · refine .bind hC (.lift hC _) fun _ => .forEach hC (fun _ => .bind hC (.lift hC _) fun _ =>
        .forEach hC (fun _ => .bind hC (.lift hC _) fun _ => .forEach hC (fun v => ?_) _) _) _
      unfold loadRef
      exact .get fun _ => .bind hC (.lift hC _) fun _ => .bind hC (.lift hC _) fun _ => .bind hC (.lift hC _) fun _ =>
        fixed_modBp fun _ => rfl
  · intro w
    unfold getConnections
    split
    · exact hC.refl w
    · dsimp only
      split
      · exact fixed_setBp rfl
      · split <;> exact fixed_setBp rfl

theorem fixed_tile (b : BpId) (v : Val) : Along EntitiesFixed (tileLoad b v) := by
  have hC := fixed_chained
  unfold tileLoad
  refine .bind hC (.lift hC _) fun kw => ?_
  split
  · exact fun w => hC.refl w
  · exact .get fun _ => .bind hC (.lift hC _) fun _ => fixed_modBp fun _ => rfl

theorem fixed_rest (b : BpId) (d : Dict) : Along EntitiesFixed (do
    parseConnections b
    let tiles ← M.lift (Dict.getD d "tiles" (.list [])).iter
    M.forEach (tileLoad b) tiles
    tilesSort b
    loadTail b d) := by
  have hC := fixed_chained
  unfold loadTail tilesSort
  exact .bind hC (fixed_parse b) fun _ => .bind hC (.lift hC _) fun _ => .bind hC (.forEach hC (fun v => fixed_tile b v) _) fun _ =>
    .bind hC (fixed_modBp fun _ => rfl) fun _ => .bind hC (.lift hC _) fun _ => .get fun _ => .bind hC (.lift hC _) fun _ =>
      fixed_modBp fun _ => rfl

/-- The schedules did not change. -/
def SchedulesFixed (w w' : World) : Prop := ∀ c, (w'.bp c).schedules = (w.bp c).schedules

theorem schedules_chained : Chained SchedulesFixed := ⟨fun _ _ => rfl, fun a b c => (b c).trans (a c)⟩

theorem schedules_setBp {w : World} {b : BpId} {p : Bp} (h : p.schedules = (w.bp b).schedules) :
    SchedulesFixed w (w.setBp b p) := by
  intro c
  rw [setBp_bp]
  split
  · rename_i e
    subst e
    exact h
  · rfl

theorem schedules_modBp {b : BpId} {f : Bp → Bp} (h : ∀ p, (f p).schedules = p.schedules) : Along SchedulesFixed (modBp b f) :=
  fun _ => schedules_setBp (h _)

theorem schedules_head (b : BpId) (d : Dict) : Along SchedulesFixed (loadHead b d) := by
  intro w c
  obtain ⟨-, -, h, -, -, -, h'⟩ := headOnly_loadHead b d w
  by_cases hc : c = b
  · rw [hc, h']
  · rw [h c hc]

theorem schedules_layerLoad (b : BpId) (v : Val) : Along SchedulesFixed (layerLoad b v) := by
  have hC := schedules_chained
  unfold layerLoad
  refine .bind hC (.lift hC _) fun kw => .bind hC (fun w => ?_) fun r w => schedules_setBp rfl
  unfold newEntity
  split
  · exact hC.refl w
  · exact fun _ => rfl

theorem schedules_parse (b : BpId) : Along SchedulesFixed (parseConnections b) := by
  have hC := schedules_chained
  unfold parseConnections
  refine .bind hC (schedules_modBp fun _ => rfl) fun _ => .get fun _ => .bind hC (.forEach hC (fun r => ?_) _) fun _ =>
    .forEach hC (fun r => .bind hC ?_ fun _ => .pure hC ()) _
  · unfold loadWires
    refine .get fun w => ?_
    split
    · exact .pure hC ()
    · refine .bind hC (.lift hC _) fun _ => .forEach hC (fun _ => .bind hC (.lift hC _) fun _ =>
        .forEach hC (fun _ => .bind hC (.lift hC _) fun _ => .forEach hC (fun v => ?_) _) _) _
      unfold loadRef
      exact .get fun _ => .bind hC (.lift hC _) fun _ => .bind hC (.lift hC _) fun _ => .bind hC (.lift hC _) fun _ =>
        schedules_modBp fun _ => rfl
  · intro w
    unfold getConnections
    split
    · exact hC.refl w
    · dsimp only
      split
      · exact schedules_setBp rfl
      · split <;> exact schedules_setBp rfl

theorem schedules_tile (b : BpId) (v : Val) : Along SchedulesFixed (tileLoad b v) := by
  have hC := schedules_chained
  unfold tileLoad
  refine .bind hC (.lift hC _) fun kw => ?_
  split
  · exact fun w => hC.refl w
  · exact .get fun _ => .bind hC (.lift hC _) fun _ => schedules_modBp fun _ => rfl

/-- If the call raises, the worlds before and after it are related. -/
def IfRefused (R : World → World → Prop) {α : Type} (x : M α) : Prop := ∀ w e w', x w = (.error e, w') → R w w'

theorem IfRefused.bind {R : World → World → Prop} (h : Chained R) {α β : Type} {x : M α} {f : α → M β} (hx : Along R x)
    (hf : ∀ a, IfRefused R (f a)) : IfRefused R (x >>= f) := by
  intro w e w' hr
  rw [M.bind_eq] at hr
  have := hx w
  cases hx : x w with
  | mk r v =>
    rw [hx] at this hr
    cases r with
    | error y =>
      cases hr
      exact this
    | ok a => exact h.trans this (hf a _ _ _ hr)

theorem IfRefused.get {R : World → World → Prop} {β : Type} {f : World → M β} (hf : ∀ v, IfRefused R (f v)) :
    IfRefused R (M.get >>= f) := fun w => hf w w

theorem schedules_load (b : BpId) (data : Val) : IfRefused SchedulesFixed (load b data) := by
  have hC := schedules_chained
  rw [load_parts]
  refine .bind hC (.lift hC _) fun d => .bind hC (schedules_head b d) fun _ => .bind hC ?_ fun _ => ?_
  · unfold loadBody tilesSort
    refine .bind hC (.lift hC _) fun _ => .bind hC (.forEach hC (fun v => schedules_layerLoad b v) _) fun _ =>
      .bind hC (fun w c => ?_) fun _ => .bind hC (schedules_parse b) fun _ => .bind hC (.lift hC _) fun _ =>
      .bind hC (.forEach hC (fun v => schedules_tile b v) _) fun _ => schedules_modBp fun _ => rfl
    show ((w.sort b).bp c).schedules = _
    by_cases hc : c = b
    · subst hc
      simp [World.sort]
    · simp [World.sort, setBp_bp, hc]
  · unfold loadTail
    refine .bind hC (.lift hC _) fun _ => .get fun _ => .bind hC (.lift hC _) fun _ => fun w e w' h => ?_
    cases h

/-- The import after the entities. -/
theorem load_rest {b : BpId} {data : Val} {d : Dict} {w w1 : World} {l : List Val} {es : List Entity}
    (hd : unwrapData data = .ok d) (hh : loadHead b d w = (.ok (), w1))
    (hl : (Dict.getD d "entities" (.list [])).iter = .ok l)
    (hes : buildAll w1.env (w1.customOf (some b)) b l = .ok es) :
    load b data w = (do
      parseConnections b
      let tiles ← M.lift (Dict.getD d "tiles" (.list [])).iter
      M.forEach (tileLoad b) tiles
      tilesSort b
      loadTail b d : M Unit) ((w1.pushAll b es).sort b) := by
  rw [load_parts, M.bind_eq, M.lift_eq, hd]
  dsimp only
  rw [M.bind_ok hh]
  unfold loadBody
  simp only [M.bind_assoc']
  rw [M.bind_eq, M.lift_eq, hl]
  dsimp only
  rw [M.bind_ok (forEach_layerLoad_ok.2 ⟨es, hes, rfl⟩)]
  rfl

theorem forEach_append {α : Type} (f : α → M Unit) (l l' : List α) (w : World) :
    M.forEach f (l ++ l') w = (M.forEach f l >>= fun _ => M.forEach f l') w := by
  induction l generalizing w with
  | nil => rfl
  | cons a l ih =>
    show (f a >>= fun _ => M.forEach f (l ++ l')) w = ((f a >>= fun _ => M.forEach f l) >>= fun _ => M.forEach f l') w
    rw [M.bind_assoc', M.bind_eq, M.bind_eq]
    cases f a w with
    | mk r w' => cases r <;> first | rfl | exact ih w'

/-- The entities up to the one that is refused. -/
theorem forEach_refused {b : BpId} {pre post : List Val} {v : Val} {w : World} {es : List Entity}
    (hpre : buildAll w.env (w.customOf (some b)) b pre = .ok es)
    (hv : ∀ kw e, v = .dict kw → Entity.new w.env (w.customOf (some b)) (some b) kw ≠ .ok e) :
    ∃ x, M.forEach (layerLoad b) (pre ++ v :: post) w = (.error x, w.pushAll b es) := by
  rw [forEach_append, M.bind_ok (forEach_layerLoad_ok.2 ⟨es, hpre, rfl⟩)]
  show ∃ x, (layerLoad b v >>= fun _ => M.forEach (layerLoad b) post) (w.pushAll b es) = _
  rw [M.bind_eq]
  have hc : (w.pushAll b es).customOf (some b) = w.customOf (some b) := by
    simp [World.customOf, pushAll_bp_self]
  have : ∃ x, layerLoad b v (w.pushAll b es) = (.error x, w.pushAll b es) := by
    unfold layerLoad
    rw [M.bind_eq, M.lift_eq]
    cases hk : v.kwargs with
    | error x => exact ⟨x, rfl⟩
    | ok kw =>
      have hd := kwargs_ok.1 hk
      dsimp only
      rw [M.bind_eq]
      unfold newEntity
      rw [hc, pushAll_env]
      cases hn : Entity.new w.env (w.customOf (some b)) (some b) kw with
      | error x => exact ⟨x, rfl⟩
      | ok e => exact absurd hn (hv kw e hd)
  obtain ⟨x, hx⟩ := this
  rw [hx]
  exact ⟨x, rfl⟩

end Verif
