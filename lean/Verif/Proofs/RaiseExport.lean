import Verif.Proofs.Attrs
import Verif.Proofs.WireExport
import Verif.Spec.Raise
import Verif.Model.Codec
/-!
# Which exceptions an export raises
-/
set_option autoImplicit false

namespace Verif
open Spec

/-! ## The icons of alerts -/

/-- The icon of the alert settings is missing or a name. -/
def AlertOk (a : Attrs) : Prop :=
  ∀ v, List.lookup "alert_parameters" a = some v → ∀ i, v.subscript "icon_signal_id" = .ok i → i = .none ∨ ∃ s, i = .str s

theorem nameStr_shape {env : Env} {v n : Val} (h : nameStr env v = .ok n) : n = .none ∨ ∃ s, n = .str s := by
  unfold nameStr at h
  split at h
  · cases h; exact .inl rfl
  · split at h
    · cases h; exact .inr ⟨_, rfl⟩
    · cases h
  · split at h <;> cases h

theorem readAlert_shape {env : Env} {v u : Val} (h : readAlert env v = .ok u) {i : Val}
    (hi : u.subscript "icon_signal_id" = .ok i) : i = .none ∨ ∃ s, i = .str s := by
  unfold readAlert at h
  split at h
  · cases h; cases hi
  · simp only [bind_eq_ok, pure_eq_ok, Except.ok.injEq] at h
    obtain ⟨_, _, _, _, _, _, _, _, n, hn, _, _, rfl⟩ := h
    cases hi
    exact nameStr_shape hn

theorem alert_owner {m : Mx} (h : "alert_parameters" ∈ mxAttrs m) : m = .Speaker := by
  cases m <;> first | rfl | (exfalso; revert h; decide)

theorem initChain_alertOk {env : Env} {strict sh : Bool} {lo : Exc} {ms : List Mx} {args : Bool} {kw : Dict}
    {a' : Attrs} (h : initChain env strict sh lo ms args kw [] = .ok a') : AlertOk a' := by
  intro v hv i hi
  rcases initChain_attr h hv with h | ⟨m, -, g, w, hw, hm⟩
  · cases h
  · have := alert_owner (mxRead_keys hw _ hm)
    subst this
    simp only [mxRead, bind_eq_ok, pure_eq_ok, Except.ok.injEq] at hw
    obtain ⟨p, -, al, hal, rfl⟩ := hw
    simp only [List.mem_cons, Prod.mk.injEq, List.not_mem_nil, or_false] at hm
    rcases hm with ⟨h, -⟩ | ⟨-, rfl⟩
    · exact absurd h (by decide)
    · exact readAlert_shape hal hi

theorem AlertOk.set {a : Attrs} (h : AlertOk a) {k : String} (hk : k ≠ "alert_parameters") (v : Val) :
    AlertOk (Dict.set a k v) := by
  intro u hu
  rw [lookup_set, if_neg (Ne.symm hk)] at hu
  exact h u hu

theorem rotateChain_alertOk (n : Int) (ms : List Mx) {e : Entity} (h : AlertOk e.attrs) :
    AlertOk (Entity.rotateChain n ms e).2.attrs := by
  fun_induction Entity.rotateChain n ms e with
  | case1 e => exact h
  | case2 e ms ih => exact ih h
  | case3 e ms x hx => exact h
  | case4 e ms e' he ih =>
    obtain ⟨o, ho, rfl⟩ := Entity.rotateOrientation_ok.1 he
    exact ih (h.set (by decide) _)
  | case5 => rename_i ih; exact ih h

theorem setAttr_alertOk {env : Env} {e : Entity} {k : String} {v : Val} (h : AlertOk e.attrs) :
    AlertOk (e.setAttr env k v).2.attrs := by
  unfold Entity.setAttr
  split
  · exact h
  · rename_i m hm
    split
    · dsimp only
      intro u hu
      rcases setAll_mem hu with hu | hu
      · have := alert_owner (mxAssign_keys hm _ hu)
        subst this
        intro i hi
        have hk : k = "parameters" ∨ k = "alert_parameters" := by
          unfold attrOwner at hm
          split at hm <;> first | exact .inl rfl | exact .inr rfl | cases hm
        rcases hk with rfl | rfl
        · have hu : (("alert_parameters", u) : String × Val) ∈ (setOne "parameters" (readParameters v)).2 := hu
          unfold setOne at hu
          split at hu
          · cases hu
          · have := congrArg Prod.fst (List.mem_singleton.1 hu)
            exact absurd this (show ("alert_parameters" : String) ≠ "parameters" by decide)
        · have hu : (("alert_parameters", u) : String × Val) ∈ (setOne "alert_parameters" (readAlert env v)).2 := hu
          unfold setOne at hu
          split at hu
          · cases hu
          · rename_i x hx
            have := congrArg Prod.snd (List.mem_singleton.1 hu)
            cases this
            exact readAlert_shape hx hi
      · exact h u hu
    · exact h

theorem Reachable.alertOk {env : Env} {w : World} (h : Reachable env w) (r : Ref) : AlertOk (w.heap r).attrs := by
  refine h.entity (P := fun e => AlertOk e.attrs) (by intro v hv; cases hv) ?_ ?_ (fun _ _ h => h)
    (fun _ _ h => h) r
  · rintro env l e ⟨custom, kw, he⟩
    obtain ⟨-, -, name, position, number, e', -, -, -, hs, hf⟩ := Entity.new_ok.1 he
    obtain ⟨pos, dir, cb, a, -, -, -, ha, rfl⟩ := Entity.finish_ok.1 hf
    exact initChain_alertOk ha
  · intro env e e' he heff
    cases heff with
    | rotate n a d =>
      unfold Entity.rotate
      split
      · exact he
      · dsimp only
        split
        · exact he
        · exact rotateChain_alertOk _ _ he
    | setName c v => obtain ⟨_, _, _, hf⟩ := Entity.setName_frame env c e v; rw [hf]; exact he
    | setPos p => exact he
    | setDir v d hd => exact he
    | setClass base ms k hb hk => exact he
    | setNumber n => exact he
    | setOri v o h ht => exact he.set (by decide) _
    | setAttr k v => exact setAttr_alertOk he
    | setControl k v => obtain ⟨_, hf⟩ := Entity.setControl_frame env e k v; rw [hf]; exact he
    | newControl v => obtain ⟨_, hf⟩ := Entity.newControl_frame env e v; rw [hf]; exact he

/-! ## Exports -/

/-- The exception raised, if any, is one of an export. -/
def Emits {α : Type} (x : Except Exc α) : Prop := ∀ e, x = .error e → e ∈ exportErrors

section
variable {α β : Type}

theorem Emits.ok (a : α) : Emits (.ok a : Except Exc α) := fun _ h => by cases h

theorem Emits.error {e : Exc} (h : e ∈ exportErrors) : Emits (.error e : Except Exc α) := fun _ h' => by cases h'; exact h

theorem Emits.bind {x : Except Exc α} {f : α → Except Exc β} (hx : Emits x) (hf : ∀ a, x = .ok a → Emits (f a)) :
    Emits (x >>= f) := by
  intro e h
  rcases bind_eq_error.1 h with h | ⟨a, h1, h2⟩
  · exact hx e h
  · exact hf a h1 e h2

theorem Emits.mapM {f : α → Except Exc β} : ∀ {l : List α}, (∀ a ∈ l, Emits (f a)) → Emits (l.mapM f)
  | [], _ => by rw [List.mapM_nil]; exact .ok _
  | a :: l, h => by
    rw [List.mapM_cons]
    exact .bind (h a (List.mem_cons_self ..)) (fun _ _ =>
      .bind (Emits.mapM (fun x hx => h x (List.mem_cons_of_mem _ hx))) (fun _ _ => .ok _))

theorem Emits.foldlM {f : β → α → Except Exc β} : ∀ {l : List α} (b : β), (∀ b, ∀ a ∈ l, Emits (f b a)) → Emits (l.foldlM f b)
  | [], _, _ => by rw [List.foldlM_nil]; exact .ok _
  | a :: l, b, h => by
    rw [List.foldlM_cons]
    exact .bind (h b a (List.mem_cons_self ..)) (fun c _ => Emits.foldlM c (fun c x hx => h c x (List.mem_cons_of_mem _ hx)))

end

theorem emits_subscript (v : Val) (k : String) : Emits (v.subscript k) := by
  cases v with
  | dict d =>
    unfold Val.subscript Dict.getItem
    dsimp only
    split
    · exact .ok _
    · exact .error (by decide)
  | _ => exact .error (by decide)

theorem emits_iter (v : Val) : Emits v.iter := by
  cases v <;> first | exact .ok _ | exact .error (by decide)

theorem emits_asDict (v : Val) : Emits v.asDict := by
  cases v <;> first | exact .ok _ | exact .error (by decide)

theorem emits_kwargs (v : Val) : Emits v.kwargs := by
  cases v <;> first | exact .ok _ | exact .error (by decide)

theorem emits_attr (a : Kw) (k : String) : Emits (attr a k) := by
  unfold attr
  split
  · exact .ok _
  · exact .error (by decide)

theorem emits_signalJson (env : Env) (s : String) : Emits (signalJson env s) := by
  unfold signalJson
  refine .bind ?_ fun _ _ => .bind (emits_subscript _ _) fun _ _ => .ok _
  unfold Dict.getItem
  split
  · exact .ok _
  · exact .error (by decide)

theorem emits_signalToJson (env : Env) (v : Val) : Emits (signalToJson env v) := by
  unfold signalToJson
  split
  · exact emits_signalJson _ _
  · exact .error (by decide)

theorem emits_alert {env : Env} {v : Val} (h : ∀ i, v.subscript "icon_signal_id" = .ok i → i = .none ∨ ∃ s, i = .str s) :
    Emits (alertJson env v) := by
  unfold alertJson
  split
  · exact .ok _
  · refine .bind (emits_subscript _ _) fun _ _ => .bind (emits_subscript _ _) fun _ _ => .bind (emits_subscript _ _) fun _ _ =>
      .bind (emits_subscript _ _) fun i hi => .bind ?_ fun _ _ => .ok _
    rcases h i hi with rfl | ⟨s, rfl⟩
    · exact .ok _
    · exact .bind (emits_subscript _ _) fun _ _ => .ok _

theorem emits_mx {env : Env} (m : Mx) {a : Attrs} (ha : AlertOk a) (dir : Direction) : Emits (mxEmit env m (Dict.get? a) dir) := by
  cases m with
  | Items => exact .bind (emits_attr _ _) fun _ _ => .ok _
  | Train => exact .bind (emits_attr _ _) fun _ _ => .ok _
  | Cargo => exact .bind (emits_attr _ _) fun _ _ => .bind (emits_attr _ _) fun _ _ => .ok _
  | Container => exact .bind (emits_attr _ _) fun _ _ => .ok _
  | Inserter =>
    exact .bind (emits_attr _ _) fun _ _ => .bind (emits_attr _ _) fun _ _ => .bind (emits_attr _ _) fun _ _ => .ok _
  | FilterInserter => exact .bind (emits_attr _ _) fun _ _ => .bind (emits_attr _ _) fun _ _ => .ok _
  | InfinityContainer => exact .bind (emits_attr _ _) fun _ _ => .bind (emits_attr _ _) fun _ _ => .ok _
  | Requester => exact .bind (emits_attr _ _) fun _ _ => .bind (emits_attr _ _) fun _ _ => .ok _
  | Silo => exact .bind (emits_attr _ _) fun _ _ => .ok _
  | Speaker =>
    refine .bind (emits_attr _ _) fun _ _ => .bind (emits_attr _ _) fun v hv => .bind (emits_alert (ha v ?_)) fun _ _ => .ok _
    unfold attr at hv
    split at hv
    · rename_i h
      cases hv
      exact h
    · cases hv
  | Splitter =>
    exact .bind (emits_attr _ _) fun _ _ => .bind (emits_attr _ _) fun _ _ => .bind (emits_attr _ _) fun _ _ => .ok _
  | Station => exact .bind (emits_attr _ _) fun _ _ => .ok _
  | Underground => exact .bind (emits_attr _ _) fun _ _ => .ok _
  | Variation => exact .bind (emits_attr _ _) fun _ _ => .ok _
  | _ => exact .ok _

theorem emits_chain {env : Env} {a : Attrs} (ha : AlertOk a) (dir : Direction) : ∀ (ms : List Mx) (obj : Dict),
    Emits (emitChain env dir ms (Dict.get? a) obj)
  | [], _ => .ok _
  | m :: ms, obj => by
    unfold emitChain
    have h := emits_mx (env := env) m ha dir
    split
    · rename_i hx
      exact fun e he => by cases he; exact h _ hx
    · exact emits_chain ha dir ms _

theorem emits_objSetSignal (env : Env) (k : String) (v : Val) : Emits (objSetSignal env k v) := by
  unfold objSetSignal
  split
  · exact .ok _
  · exact .bind (emits_signalJson _ _) fun _ _ => .ok _
  · exact .ok _

theorem emits_objSetIfSignal (env : Env) (k : String) (v : Val) : Emits (objSetIfSignal env k v) := by
  unfold objSetIfSignal
  dsimp only
  split
  · exact .bind (emits_signalToJson _ _) fun _ _ => .ok _
  · exact .ok _

theorem emits_operand (env : Env) (c k : String) (v : Val) : Emits (operandJson env c k v) := by
  unfold operandJson
  split
  · exact .ok _
  · exact .ok _
  · exact .bind (emits_signalToJson _ _) fun _ _ => .ok _

theorem emits_filter (env : Env) (f : Val) : Emits (filterJson env f) := by
  unfold filterJson
  exact .bind (emits_subscript _ _) fun _ _ => .bind (emits_subscript _ _) fun _ _ => .bind (emits_subscript _ _) fun _ _ =>
    .bind (emits_signalToJson _ _) fun _ _ => .ok _

theorem emits_cb (env : Env) (m : Mx) (a : Kw) : Emits (cbEmit env m a) := by
  cases m with
  | Accumulator => exact emits_objSetSignal _ _ _
  | Filters =>
    refine .bind (emits_attr _ _) fun _ _ => .bind (emits_iter _) fun fs _ => ?_
    split
    · exact .ok _
    · exact .bind (.mapM fun _ _ => emits_filter _ _) fun _ _ => .ok _
  | ConstantCombinator => exact .bind (emits_attr _ _) fun _ _ => .ok _
  | TransportBelt =>
    exact .bind (emits_attr _ _) fun _ _ => .bind (emits_attr _ _) fun _ _ => .bind (emits_attr _ _) fun _ _ => .ok _
  | TrainSignal =>
    exact .bind (emits_attr _ _) fun _ _ => .bind (emits_objSetSignal _ _ _) fun _ _ => .bind (emits_objSetSignal _ _ _) fun _ _ =>
      .bind (emits_objSetSignal _ _ _) fun _ _ => .ok _
  | ChainSignal => exact emits_objSetSignal _ _ _
  | RailSignal => exact .bind (emits_attr _ _) fun _ _ => .ok _
  | CircuitCondition => exact .bind (emits_operand _ _ _ _) fun _ _ => .bind (emits_operand _ _ _ _) fun _ _ => .ok _
  | Lamp => exact .bind (emits_attr _ _) fun _ _ => .ok _
  | MiningDrill =>
    exact .bind (emits_attr _ _) fun _ _ => .bind (emits_attr _ _) fun _ _ => .bind (emits_attr _ _) fun _ _ => .ok _
  | Inserter =>
    exact .bind (emits_attr _ _) fun _ _ => .bind (emits_attr _ _) fun _ _ => .bind (emits_objSetSignal _ _ _) fun _ _ =>
      .bind (emits_attr _ _) fun _ _ => .bind (emits_attr _ _) fun _ _ => .ok _
  | Requester => exact .bind (emits_attr _ _) fun _ _ => .ok _
  | Roboport =>
    exact .bind (emits_attr _ _) fun _ _ => .bind (emits_attr _ _) fun _ _ => .bind (emits_objSetIfSignal _ _ _) fun _ _ =>
      .bind (emits_objSetIfSignal _ _ _) fun _ _ => .bind (emits_objSetIfSignal _ _ _) fun _ _ =>
      .bind (emits_objSetIfSignal _ _ _) fun _ _ => .ok _
  | Speaker => exact .bind (emits_attr _ _) fun _ _ => .ok _
  | Station =>
    exact .bind (emits_attr _ _) fun _ _ => .bind (emits_attr _ _) fun _ _ => .bind (emits_attr _ _) fun _ _ =>
      .bind (emits_objSetIfSignal _ _ _) fun _ _ => .ok _
  | _ => exact .ok _

theorem emits_setTo (env : Env) (ctx : CbCtx) (s : Dict) (k : String) (v : Val) : Emits (setTo env ctx s k v) := by
  unfold setTo
  split
  · exact .ok _
  · exact .bind (emits_objSetSignal _ _ _) fun _ _ => .ok _

theorem emits_operator (ctx : CbCtx) (a : Kw) : Emits (operatorRead ctx a) := by
  unfold operatorRead
  split
  · rename_i x hx
    split at hx
    · cases hx
    · exact fun e he => by cases he; exact emits_attr _ _ _ hx
  · split
    · exact .error (by decide)
    · exact .ok _

theorem emits_cb1 (env : Env) (ctx : CbCtx) (m : Mx) (a : Kw) (obj : Dict) : Emits (cbEmit1 env ctx m a obj) := by
  unfold cbEmit1
  split
  · unfold combinatorEmit
    exact .bind (emits_operator _ _) fun _ _ => .bind (emits_setTo _ _ _ _ _) fun _ _ => .bind (emits_setTo _ _ _ _ _) fun _ _ =>
      .bind (emits_setTo _ _ _ _ _) fun _ _ => .bind (emits_kwargs _) fun _ _ => .ok _
  · unfold deciderEmit
    dsimp only
    split
    · exact .bind (emits_asDict _) fun _ _ => .bind (emits_attr _ _) fun _ _ => .ok _
    · exact .bind (.ok _) fun _ _ => .bind (emits_attr _ _) fun _ _ => .ok _
  · exact .bind (emits_cb _ _ _) fun _ _ => .ok _

theorem emits_cbChain (env : Env) (ctx : CbCtx) (a : Kw) : ∀ (ms : List Mx) (obj : Dict), Emits (cbEmitChain env ctx ms a obj)
  | [], _ => .ok _
  | m :: ms, obj => by
    unfold cbEmitChain
    have h := emits_cb1 env ctx m a obj
    split
    · rename_i hx
      exact fun e he => by cases he; exact h _ hx
    · exact emits_cbChain env ctx a ms _

theorem emits_rest {env : Env} {e : Entity} (h : AlertOk e.attrs) (obj : Dict) : Emits (e.emitRest env obj) := by
  unfold Entity.emitRest
  refine .bind (emits_chain h _ _ _) fun _ _ => ?_
  split
  · exact .ok _
  · unfold Cb.toJson
    refine .bind (.bind (emits_cbChain _ _ _ _ _) fun _ _ => .ok _) fun o _ => ?_
    split <;> exact .ok _

theorem emits_icons (env : Env) : ∀ (n : Nat) (l : List (Option Val)), Emits (iconsJson env n l)
  | _, [] => .ok _
  | n, none :: l => emits_icons env (n + 1) l
  | n, some s :: l => .bind (emits_signalToJson _ _) fun _ _ => .bind (emits_icons env (n + 1) l) fun _ _ => .ok _

theorem emits_getConnections (r : Ref) (w : World) : Emits (getConnections r w).1 := by
  unfold getConnections
  split
  · exact .error (by decide)
  · dsimp only
    split
    · rename_i hx
      refine fun e he => ?_
      cases he
      refine Emits.mapM (fun c _ => ?_) _ hx
      refine .bind ?_ fun _ _ => .ok _
      unfold otherAuto
      split
      · exact .error (by decide)
      · exact .ok _
    · split
      · exact .error (by decide)
      · exact .ok _

theorem emits_wireStep (heap : Ref → Entity) (r : Ref) (o : WireObj) (c : Conn) : Emits (wireStep heap r o c) := by
  unfold wireStep
  split
  · exact .error (by decide)
  · exact .ok _

/-- The same for computations with state. -/
theorem Emits.bindM {α β : Type} {x : M α} {f : α → M β} {w : World} (hx : Emits (x w).1)
    (hf : ∀ a v, x w = (.ok a, v) → Emits (f a v).1) : Emits ((x >>= f) w).1 := by
  rw [M.bind_eq]
  cases h : x w with
  | mk r v =>
    rw [h] at hx
    cases r with
    | error e => exact fun e' he => by cases he; exact hx _ rfl
    | ok a => exact hf a v h

theorem emits_entity {r : Ref} {w : World} (h : AlertOk (w.heap r).attrs) : Emits (entToJson r w).1 := by
  unfold entToJson
  show Emits ((connectionsToJson r >>= _) w).1
  refine .bindM ?_ fun c v _ => ?_
  · unfold connectionsToJson
    refine .bindM (emits_getConnections r w) fun c v _ => ?_
    show Emits (List.foldlM (wireStep v.heap r) [] c)
    exact .foldlM _ fun _ _ _ => emits_wireStep _ _ _ _
  · refine .bindM ?_ fun d v _ => .ok _
    exact emits_rest h _

theorem emits_entities : ∀ (l : List Ref) (w : World), (∀ r, AlertOk (w.heap r).attrs) → Emits (M.mapL entToJson l w).1
  | [], _, _ => .ok _
  | r :: l, w, h => by
    show Emits ((entToJson r >>= _) w).1
    refine .bindM (emits_entity (h r)) fun a v hv => ?_
    show Emits ((M.mapL entToJson l >>= _) v).1
    have hh : v.heap = w.heap := by
      have := ((Keeps.flips_entToJson w r).1 w (.refl w)).heap
      rw [hv] at this
      exact this
    exact .bindM (emits_entities l v (by rw [hh]; exact h)) fun _ _ _ => .ok _

theorem emits_toJson {b : BpId} {w : World} (h : ∀ r, AlertOk (w.heap r).attrs) : Emits (toJson b w).1 := by
  unfold toJson
  show Emits ((M.mapL entToJson _ >>= _) w).1
  refine .bindM (emits_entities _ _ h) fun _ v _ => ?_
  show Emits ((M.lift _ >>= _) v).1
  exact .bindM (emits_icons _ _ _) fun _ _ _ => .ok _

end Verif
