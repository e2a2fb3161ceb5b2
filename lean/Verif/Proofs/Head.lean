import Verif.Proofs.Unread
import Verif.Proofs.Content
import Verif.Spec.Head
/-!
# The exported entities do not depend on label, icons, schedules and the like
-/
set_option autoImplicit false

namespace Verif
open Spec

/-- The same entities, tiles and wires with other fields of the blueprints. -/
def World.rehead (w : World) (f : BpId → Bp) : World :=
  { w with bp := fun c => { f c with objs := (w.bp c).objs, tiles := (w.bp c).tiles, conns := (w.bp c).conns } }

theorem setBp_rehead (w : World) (f : BpId → Bp) (b : BpId) (p q : Bp)
    (h : q = { f b with objs := p.objs, tiles := p.tiles, conns := p.conns }) :
    (w.rehead f).setBp b q = (w.setBp b p).rehead f := by
  subst h
  unfold World.rehead World.setBp
  congr 1
  funext c
  dsimp only
  split
  · rename_i e; subst e; rfl
  · rfl

/-- The computation does not depend on those fields. -/
def Headless {α : Type} (m : M α) : Prop := ∀ w f, m (w.rehead f) = ((m w).1, (m w).2.rehead f)

namespace Headless

theorem pure {α : Type} (a : α) : Headless (Pure.pure a : M α) := fun _ _ => rfl

theorem lift {α : Type} (x : Except Exc α) : Headless (M.lift x) := fun _ _ => rfl

theorem bind {α β : Type} {x : M α} {f : α → M β} (hx : Headless x) (hf : ∀ a, Headless (f a)) : Headless (x >>= f) := by
  intro w d
  have e1 : ∀ u, (x >>= f) u = match x u with | (.error e, u) => (.error e, u) | (.ok a, u) => f a u := fun _ => rfl
  rw [e1, e1, hx w d]
  cases hw : x w with
  | mk r w1 =>
    cases r with
    | error e => rfl
    | ok a => exact hf a w1 d

theorem get {α : Type} {f : World → M α} (h : ∀ w d, f (w.rehead d) = f w) (hf : ∀ w, Headless (f w)) :
    Headless (M.get >>= f) := by
  intro w d
  have e1 : ∀ u, (M.get >>= f) u = f u u := fun _ => rfl
  rw [e1, e1, h]
  exact hf w w d

theorem mapL {α β : Type} {f : α → M β} (h : ∀ a, Headless (f a)) : ∀ l, Headless (M.mapL f l)
  | [] => Headless.pure []
  | a :: l => Headless.bind (h a) (fun _ => Headless.bind (mapL h l) (fun _ => Headless.pure _))

theorem getConnections (r : Ref) : Headless (getConnections r) := fun w d => by
  unfold Verif.getConnections
  have e1 : (w.rehead d).heap = w.heap := rfl
  have e2 : ∀ b, ((w.rehead d).bp b).conns = (w.bp b).conns := fun _ => rfl
  rw [e1]
  cases (w.heap r).layer with
  | none => rfl
  | some b =>
    dsimp only
    have e3 : ∀ p, ((w.rehead d).setBp b p).heap = w.heap := fun _ => rfl
    have e4 : ∀ p, (w.setBp b p).heap = w.heap := fun _ => rfl
    rw [e2, e3, e4]
    cases ((((w.bp b).conns.filter (·.attachedTo r)).map (·.orientate r)).mapM
        (fun c => do return ((← otherAuto w.heap c), c)) : Except Exc (List (Option Int × Conn))) with
    | error e => exact Prod.ext rfl (setBp_rehead w d b _ _ rfl)
    | ok keyed =>
      dsimp only
      split
      · exact Prod.ext rfl (setBp_rehead w d b _ _ rfl)
      · exact Prod.ext rfl (setBp_rehead w d b _ _ rfl)

theorem connectionsToJson (r : Ref) : Headless (connectionsToJson r) :=
  bind (getConnections r) (fun _ => get (fun _ _ => rfl) (fun _ => lift _))

theorem entToJson (r : Ref) : Headless (entToJson r) :=
  get (fun w d => by kernel_rfl)
    (fun _ => bind (connectionsToJson r) (fun _ => bind (lift _) (fun _ => pure _)))

end Headless

theorem setBp_as_rehead (w : World) (b : BpId) (p : Bp) (ho : p.objs = (w.bp b).objs) (ht : p.tiles = (w.bp b).tiles)
    (hc : p.conns = (w.bp b).conns) : w.setBp b p = w.rehead (fun c => if c = b then p else w.bp c) := by
  unfold World.rehead World.setBp
  congr 1
  funext c
  dsimp only
  split
  · rename_i e
    subst e
    rw [← ho, ← ht, ← hc]
  · rfl

/-- The export of a blueprint after a change of its other fields: the entities are exported as before. -/
theorem export_head {w w1 : World} {b : BpId} {v : Val} (he : toJson b w = (.ok v, w1)) (p : Bp)
    (ho : p.objs = (w.bp b).objs) (ht : p.tiles = (w.bp b).tiles) (hc : p.conns = (w.bp b).conns) :
    ∃ ents icons, iconsJson w.env 0 (w.bp b).icons = .ok icons ∧
      v = .dict [("blueprint", .dict (exportDict (w.bp b) ents icons ((w.bp b).schedules.map (scheduleJson w.heap))))] ∧
      ∃ u, (∀ icons', iconsJson w.env 0 p.icons = .ok icons' → toJson b (w.setBp b p) =
        (.ok (.dict [("blueprint", .dict (exportDict p ents icons' (p.schedules.map (scheduleJson w.heap))))]), u)) ∧
        ∀ e, iconsJson w.env 0 p.icons = .error e → toJson b (w.setBp b p) = (.error e, u) := by
  obtain ⟨ents, icons, h1, h2, h3⟩ := toJson_ok.1 he
  have hm := Headless.mapL Headless.entToJson (w.bp b).objs w (fun c => if c = b then p else w.bp c)
  rw [← setBp_as_rehead w b p ho ht hc, h1] at hm
  refine ⟨ents, icons, h2, h3, w1.rehead (fun c => if c = b then p else w.bp c), fun icons' hi => ?_, fun e hi => ?_⟩
  · refine toJson_ok.2 ⟨ents, icons', ?_, ?_, ?_⟩
    · rw [setBp_bp_self, ho]
      exact hm
    · rw [setBp_bp_self]
      exact hi
    · rw [setBp_bp_self]
      rfl
  · have e1 : ∀ u, toJson b u = (M.mapL entToJson (u.bp b).objs >>= fun ents => M.lift (iconsJson u.env 0 (u.bp b).icons) >>=
      fun icons => Pure.pure (Val.dict [("blueprint", .dict (exportDict (u.bp b) ents icons
        ((u.bp b).schedules.map (scheduleJson u.heap))))]) : M Val) u := fun _ => rfl
    have e2 : ∀ {α β : Type} (x : M α) (f : α → M β) u,
      (x >>= f) u = match x u with | (.error e, u) => (.error e, u) | (.ok a, u) => f a u := fun _ _ _ => rfl
    rw [e1, e2, setBp_bp_self, ho, hm]
    dsimp only
    rw [show (w.setBp b p).env = w.env from rfl, hi]
    rfl

theorem iconsJson_total {env : Env} {l : List (Option Val)}
    (h : ∀ (p : Nat) (s : Val), l[p]? = some (some s) → ∃ j, signalToJson env (signalGet s) = .ok j) (i : Nat) :
    ∃ out, iconsJson env i l = .ok out := by
  induction l generalizing i with
  | nil => exact ⟨[], rfl⟩
  | cons a l ih =>
    obtain ⟨out, ho⟩ := ih (fun p s hp => h (p + 1) s hp) (i + 1)
    cases a with
    | none => exact ⟨out, ho⟩
    | some s =>
      obtain ⟨j, hj⟩ := h 0 s rfl
      refine ⟨Val.dict [("index", .int ((i : Int) + 1)), ("signal", j)] :: out, ?_⟩
      rw [iconsJson, hj, ok_bind, ho, ok_bind]
      rfl

theorem iconsJson_each {env : Env} {l : List (Option Val)} {i : Nat} {out : List Val} (h : iconsJson env i l = .ok out) :
    ∀ (p : Nat) (s : Val), l[p]? = some (some s) → ∃ j, signalToJson env (signalGet s) = .ok j := by
  induction l generalizing i out with
  | nil => intro p s hp; cases hp
  | cons a l ih =>
    cases a with
    | none =>
      intro p s hp
      cases p with
      | zero => cases hp
      | succ p => exact ih h p s hp
    | some x =>
      rw [iconsJson] at h
      simp only [bind_eq_ok, pure_eq_ok, Except.ok.injEq] at h
      obtain ⟨j, hj, rest, hr, rfl⟩ := h
      intro p s hp
      cases p with
      | zero => cases hp; exact ⟨j, hj⟩
      | succ p => exact ih hr p s hp

theorem iconsJson_bad {env : Env} {l : List (Option Val)} {i : Nat} {out : List Val} (h : iconsJson env i l = .ok out)
    {p : Nat} (hp : p < l.length) {s : Val} {e : Exc} (hs : signalToJson env (signalGet s) = .error e) :
    iconsJson env i (l.set p (some s)) = .error e := by
  induction l generalizing i p out with
  | nil => cases hp
  | cons a l ih =>
    cases p with
    | zero =>
      rw [List.set_cons_zero, iconsJson, hs]
      rfl
    | succ p =>
      have hp' : p < l.length := Nat.lt_of_succ_lt_succ hp
      rw [List.set_cons_succ]
      cases a with
      | none => exact ih h hp'
      | some x =>
        rw [iconsJson] at h
        simp only [bind_eq_ok, pure_eq_ok, Except.ok.injEq] at h
        obtain ⟨j, hj, rest, hr, rfl⟩ := h
        rw [iconsJson, hj, ok_bind, ih hr hp']
        rfl

/-- The exported icons after one slot was set. -/
theorem iconsJson_set {env : Env} {l : List (Option Val)} {out : List Val} (h : iconsJson env 0 l = .ok out)
    {p : Nat} (hp : p < l.length) {s j : Val} (hs : signalToJson env (signalGet s) = .ok j) :
    ∃ out', iconsJson env 0 (l.set p (some s)) = .ok out' ∧
      ∀ u, u ∈ out' ↔ u = .dict [("index", .int ((p : Int) + 1)), ("signal", j)] ∨ u ∈ out ∧ ¬ InSlot ((p : Int) + 1) u := by
  obtain ⟨out', ho⟩ := iconsJson_total (env := env) (l := l.set p (some s)) (fun q x hq => by
    rw [List.getElem?_set] at hq
    split at hq
    · cases hq; exact ⟨j, hs⟩
    · exact iconsJson_each h q x hq) 0
  refine ⟨out', ho, fun u => ?_⟩
  rw [iconsJson_mem ho, iconsJson_mem h]
  constructor
  · rintro ⟨q, x, j', hq, hj, rfl⟩
    rw [List.getElem?_set] at hq
    split at hq
    · rename_i e
      subst e
      cases hq
      rw [hs] at hj
      cases hj
      exact .inl (icon_eq _ (by omega))
    · rename_i e
      refine .inr ⟨⟨q, x, j', hq, hj, rfl⟩, ?_⟩
      rintro ⟨_, hi⟩
      injection hi with hi
      injection hi with hi
      injection hi with _ hi
      injection hi with hi
      injection hi with hi
      omega
  · rintro (rfl | ⟨⟨q, x, j', hq, hj, rfl⟩, hn⟩)
    · exact ⟨p, s, j, by rw [List.getElem?_set_self hp], hs, icon_eq _ (by omega)⟩
    · refine ⟨q, x, j', ?_, hj, rfl⟩
      rw [List.getElem?_set_ne]
      · exact hq
      · rintro rfl
        exact hn ⟨j', icon_eq _ (by omega)⟩

/-- … and after one slot was emptied. -/
theorem iconsJson_drop {env : Env} {l : List (Option Val)} {out : List Val} (h : iconsJson env 0 l = .ok out) (p : Nat) :
    ∃ out', iconsJson env 0 (l.set p none) = .ok out' ∧ ∀ u, u ∈ out' ↔ u ∈ out ∧ ¬ InSlot ((p : Int) + 1) u := by
  obtain ⟨out', ho⟩ := iconsJson_total (env := env) (l := l.set p none) (fun q x hq => by
    rw [List.getElem?_set] at hq
    split at hq
    · split at hq <;> cases hq
    · exact iconsJson_each h q x hq) 0
  refine ⟨out', ho, fun u => ?_⟩
  rw [iconsJson_mem ho, iconsJson_mem h]
  constructor
  · rintro ⟨q, x, j', hq, hj, rfl⟩
    rw [List.getElem?_set] at hq
    split at hq
    · split at hq <;> cases hq
    · rename_i e
      refine ⟨⟨q, x, j', hq, hj, rfl⟩, ?_⟩
      rintro ⟨_, hi⟩
      injection hi with hi
      injection hi with hi
      injection hi with _ hi
      injection hi with hi
      injection hi with hi
      omega
  · rintro ⟨⟨q, x, j', hq, hj, rfl⟩, hn⟩
    refine ⟨q, x, j', ?_, hj, rfl⟩
    rw [List.getElem?_set_ne]
    · exact hq
    · rintro rfl
      exact hn ⟨j', icon_eq _ (by omega)⟩

theorem signalSet_named {env : Env} {v t : Val} {n : String} (hv : SignalNamed v n) (ht : SignalType env n t) :
    signalSet env v = .ok (.str n) := by
  have hm : Dict.mem env.signals n = true := by
    obtain ⟨d, hd, -⟩ := ht
    unfold Dict.mem Dict.get?
    rw [hd]
    rfl
  have h0 : signalSet env (.str n) = .ok (.str n) := by
    unfold signalSet
    dsimp only
    split
    · unfold inTable
      dsimp only
      rw [hm]
      rfl
    · rfl
  rcases hv with rfl | ⟨d, rfl, hd⟩
  · exact h0
  · rw [← h0]
    unfold signalSet Dict.getD Dict.get?
    dsimp only
    rw [hd]
    rfl

theorem signalSet_strange {env : Env} {v : Val} {n : String} (hv : SignalNamed v n) (hn : n ≠ "")
    (hl : List.lookup n env.signals = none) : signalSet env v = .error .unknownSignal := by
  have hm : Dict.mem env.signals n = false := by
    unfold Dict.mem Dict.get?
    rw [hl]
    rfl
  have ht : (Val.str n).truthy = true := by
    simp [Val.truthy, hn]
  have h0 : signalSet env (.str n) = .error .unknownSignal := by
    unfold signalSet
    dsimp only
    rw [ht]
    unfold inTable
    dsimp only
    rw [hm]
    rfl
  rcases hv with rfl | ⟨d, rfl, hd⟩
  · exact h0
  · rw [← h0]
    unfold signalSet Dict.getD Dict.get?
    dsimp only
    rw [hd]
    rfl

theorem exportDict_icons (p : Bp) (ents icons icons' scheds : List Val) (ic : List (Option Val)) :
    SameExcept "icons" (exportDict p ents icons scheds) (exportDict { p with icons := ic } ents icons' scheds) := by
  intro k hk
  unfold exportDict
  simp only [List.cons_append, List.lookup_cons, List.lookup_append, beq_false_of_ne hk]

theorem exportDict_schedules (p : Bp) (ents icons scheds scheds' : List Val) (s : List (List Ref × Val)) :
    SameExcept "schedules" (exportDict p ents icons scheds) (exportDict { p with schedules := s } ents icons scheds') := by
  intro k hk
  unfold exportDict
  simp only [List.cons_append, List.lookup_cons, List.lookup_append, lookup_layerJson, if_neg hk]

theorem exportDict_item (p : Bp) (ents icons scheds : List Val) (x : Val) :
    SameExcept "item" (exportDict p ents icons scheds) (exportDict { p with item := x } ents icons scheds) := by
  intro k hk
  unfold exportDict
  simp only [List.cons_append, List.lookup_cons, List.lookup_append, beq_false_of_ne hk]

theorem exportDict_version (p : Bp) (ents icons scheds : List Val) (x : Val) :
    SameExcept "version" (exportDict p ents icons scheds) (exportDict { p with version := x } ents icons scheds) := by
  intro k hk
  unfold exportDict
  simp only [List.cons_append, List.lookup_cons, List.lookup_append, beq_false_of_ne hk]

theorem exportDict_label (p : Bp) (ents icons scheds : List Val) (x : Val) :
    SameExcept "label" (exportDict p ents icons scheds) (exportDict { p with label := x } ents icons scheds) := by
  intro k hk
  unfold exportDict
  simp only [List.cons_append, List.lookup_cons, List.lookup_append, lookup_objSet, if_neg hk]

theorem listAt_schedules (p : Bp) (ents icons scheds : List Val) : ListAt (exportDict p ents icons scheds) "schedules" scheds := by
  have h := (export_lookup p ents icons scheds).2.2.2.2.2.2.2.1
  unfold ListAt
  rw [h]
  split
  · rename_i e
    exact .inr ⟨rfl, e⟩
  · exact .inl rfl

end Verif
