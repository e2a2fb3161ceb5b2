import Verif.Model.Blueprint
import Verif.Proofs.Sort
import Verif.Proofs.Entity
import Verif.Proofs.Assign
/-!
# Helper lemmas about worlds: field access, invariants of computations
-/
set_option autoImplicit false

namespace Verif

/-! ## Field access -/

section
variable (w : World) (r s : Ref) (b c : BpId) (e : Entity) (p : Bp)

@[simp] theorem setEnt_heap_self : (w.setEnt r e).heap r = e := by simp [World.setEnt]
theorem setEnt_heap : (w.setEnt r e).heap s = if s = r then e else w.heap s := rfl
@[simp] theorem setEnt_bp : (w.setEnt r e).bp = w.bp := rfl
@[simp] theorem setEnt_next : (w.setEnt r e).next = w.next := rfl
@[simp] theorem setEnt_env : (w.setEnt r e).env = w.env := rfl
@[simp] theorem setBp_bp_self : (w.setBp b p).bp b = p := by simp [World.setBp]
theorem setBp_bp : (w.setBp b p).bp c = if c = b then p else w.bp c := rfl
@[simp] theorem setBp_heap : (w.setBp b p).heap = w.heap := rfl
@[simp] theorem setBp_next : (w.setBp b p).next = w.next := rfl
@[simp] theorem setBp_env : (w.setBp b p).env = w.env := rfl

end

/-! ## The monad -/

theorem M.bind_eq {α β} (x : M α) (f : α → M β) (w : World) :
    (x >>= f) w = match x w with
      | (.error e, w) => (.error e, w)
      | (.ok a, w) => f a w := rfl

theorem M.bind_ok {α β} {x : M α} {f : α → M β} {w w' : World} {a : α} (h : x w = (.ok a, w')) :
    (x >>= f) w = f a w' := by rw [M.bind_eq, h]

theorem M.bind_error {α β} {x : M α} {f : α → M β} {w w' : World} {e : Exc}
    (h : x w = (.error e, w')) : (x >>= f) w = (.error e, w') := by rw [M.bind_eq, h]

@[simp] theorem M.pure_eq {α} (a : α) (w : World) : (pure a : M α) w = (.ok a, w) := rfl
@[simp] theorem M.get_eq (w : World) : M.get w = (.ok w, w) := rfl
@[simp] theorem M.modify_eq (f : World → World) (w : World) : M.modify f w = (.ok (), f w) := rfl
@[simp] theorem M.lift_eq {α} (x : Except Exc α) (w : World) : M.lift x w = (x, w) := rfl
@[simp] theorem M.throw_eq {α} (e : Exc) (w : World) : (M.throw e : M α) w = (.error e, w) := rfl
@[simp] theorem modBp_eq (b : BpId) (f : Bp → Bp) (w : World) :
    modBp b f w = (.ok (), w.setBp b (f (w.bp b))) := rfl

theorem M.bind_eq_ok {α β} {x : M α} {f : α → M β} {w w' : World} {b : β} :
    (x >>= f) w = (.ok b, w') ↔ ∃ a v, x w = (.ok a, v) ∧ f a v = (.ok b, w') := by
  rw [M.bind_eq]
  constructor
  · intro h
    split at h
    · cases h
    · rename_i a v hx
      exact ⟨a, v, hx, h⟩
  · rintro ⟨a, v, hx, hf⟩
    rw [hx]
    exact hf

theorem M.bind_unit_ok {β} {x : M Unit} {f : Unit → M β} {w w' : World} {b : β} :
    (x >>= f) w = (.ok b, w') ↔ ∃ v, x w = (.ok (), v) ∧ f () v = (.ok b, w') := by
  rw [M.bind_eq_ok]
  exact ⟨fun ⟨_, v, h⟩ => ⟨v, h⟩, fun ⟨v, h⟩ => ⟨(), v, h⟩⟩

@[simp] theorem M.bind_get {β} (f : World → M β) (w : World) : (M.get >>= f) w = f w w := rfl
@[simp] theorem M.bind_modify {β} (g : World → World) (f : Unit → M β) (w : World) :
    (M.modify g >>= f) w = f () (g w) := rfl
@[simp] theorem M.bind_modBp {β} (b : BpId) (g : Bp → Bp) (f : Unit → M β) (w : World) :
    (modBp b g >>= f) w = f () (w.setBp b (g (w.bp b))) := rfl
@[simp] theorem M.bind_pure' {α β} (a : α) (f : α → M β) (w : World) :
    ((pure a : M α) >>= f) w = f a w := rfl

/-! ## Invariants of computations -/

/-- Running `x`, whether it succeeds or raises, keeps `I`. -/
structure Keeps (I : World → Prop) {α} (x : M α) : Prop where
  keeps : ∀ w, I w → I (x w).2

section
variable {I : World → Prop}

theorem Keeps.bind {α β} {x : M α} {f : α → M β} (hx : Keeps I x) (hf : ∀ a, Keeps I (f a)) :
    Keeps I (x >>= f) := by
  constructor
  intro w hw
  have h := hx.1 w hw
  rw [M.bind_eq]
  split <;> rename_i h' <;> rw [h'] at h
  · exact h
  · exact (hf _).1 _ h

theorem Keeps.pure {α} (a : α) : Keeps I (Pure.pure a : M α) := ⟨fun _ h => h⟩
theorem Keeps.get : Keeps I M.get := ⟨fun _ h => h⟩
theorem Keeps.lift {α} (x : Except Exc α) : Keeps I (M.lift x) := ⟨fun _ h => h⟩
theorem Keeps.throw {α} (e : Exc) : Keeps I (M.throw e : M α) := ⟨fun _ h => h⟩

theorem Keeps.forEach {α} {f : α → M Unit} (hf : ∀ a, Keeps I (f a)) (l : List α) :
    Keeps I (M.forEach f l) := by
  induction l with
  | nil => exact Keeps.pure ()
  | cons a as ih => exact Keeps.bind (hf a) (fun _ => ih)

theorem Keeps.forEach_mem {α} {f : α → M Unit} {l : List α} (hf : ∀ a ∈ l, Keeps I (f a)) :
    Keeps I (M.forEach f l) := by
  induction l with
  | nil => exact Keeps.pure ()
  | cons a as ih =>
    exact Keeps.bind (hf a (List.mem_cons_self ..))
      (fun _ => ih (fun b hb => hf b (List.mem_cons_of_mem _ hb)))

theorem Keeps.mapL_mem {α β} {f : α → M β} {l : List α} (hf : ∀ a ∈ l, Keeps I (f a)) :
    Keeps I (M.mapL f l) := by
  induction l with
  | nil => exact Keeps.pure []
  | cons a as ih =>
    exact Keeps.bind (hf a (List.mem_cons_self ..))
      (fun b => Keeps.bind (ih (fun b hb => hf b (List.mem_cons_of_mem _ hb)))
        (fun bs => Keeps.pure (b :: bs)))

theorem Keeps.mapL {α β} {f : α → M β} (hf : ∀ a, Keeps I (f a)) (l : List α) :
    Keeps I (M.mapL f l) := by
  induction l with
  | nil => exact Keeps.pure []
  | cons a as ih =>
    exact Keeps.bind (hf a) (fun b => Keeps.bind ih (fun bs => Keeps.pure (b :: bs)))

theorem Keeps.ite {α} {c : Prop} [Decidable c] {x y : M α} (hx : Keeps I x) (hy : Keeps I y) :
    Keeps I (if c then x else y) := by split <;> assumption

end

/-! ## Reindexing -/

theorem reindexFrom_not_mem {heap : Ref → Entity} {i : Nat} {l : List Ref} {s : Ref} (h : s ∉ l) :
    reindexFrom heap i l s = heap s := by
  induction l generalizing heap i with
  | nil => rfl
  | cons r rs ih =>
    simp only [List.mem_cons, not_or] at h
    rw [reindexFrom, ih h.2]
    simp [h.1]

/-- Reindexing changes nothing but the numbers. -/
theorem reindexFrom_eq (heap : Ref → Entity) (i : Nat) (l : List Ref) (s : Ref) :
    ∃ n, reindexFrom heap i l s = { heap s with auto := n } := by
  induction l generalizing heap i with
  | nil => exact ⟨(heap s).auto, rfl⟩
  | cons r rs ih =>
    obtain ⟨n, hn⟩ := ih (fun t => if t = r then { heap r with auto := some ((i : Int) + 1) } else heap t)
      (i + 1)
    refine ⟨n, ?_⟩
    rw [reindexFrom, hn]
    by_cases h : s = r
    · subst h; simp
    · simp [h]

/-- The `k`-th entity of a list without repetitions gets number `i + k + 1`. -/
theorem reindexFrom_getElem {heap : Ref → Entity} {i : Nat} {l : List Ref} (hl : l.Nodup) {k : Nat}
    (hk : k < l.length) :
    reindexFrom heap i l l[k] = { heap l[k] with auto := some ((i + k : Nat) + 1 : Int) } := by
  induction l generalizing heap i k with
  | nil => cases hk
  | cons r rs ih =>
    have hn := List.nodup_cons.1 hl
    cases k with
    | zero =>
      simp only [List.getElem_cons_zero, reindexFrom]
      rw [reindexFrom_not_mem hn.1]
      simp
    | succ k =>
      simp only [List.getElem_cons_succ, reindexFrom]
      have hk' : k < rs.length := by simpa using hk
      rw [ih hn.2 hk']
      have hne : rs[k] ≠ r := fun e => hn.1 (e ▸ List.getElem_mem hk')
      simp only [hne, if_false]
      congr 3
      omega

@[simp] theorem sort_bp_other {w : World} {b c : BpId} (h : c ≠ b) : (w.sort b).bp c = w.bp c := by
  simp [World.sort, setBp_bp, h]

theorem sort_bp_self (w : World) (b : BpId) : (w.sort b).bp b =
    { w.bp b with objs := sortBy (fun r s => posLe (w.heap r).pos (w.heap s).pos) (w.bp b).objs } := by
  simp [World.sort]

@[simp] theorem sort_next (w : World) (b : BpId) : (w.sort b).next = w.next := rfl
@[simp] theorem sort_env (w : World) (b : BpId) : (w.sort b).env = w.env := rfl

theorem sort_heap (w : World) (b : BpId) (s : Ref) :
    ∃ n, (w.sort b).heap s = { w.heap s with auto := n } :=
  reindexFrom_eq _ _ _ _

theorem sort_objs_perm (w : World) (b : BpId) : ((w.sort b).bp b).objs.Perm (w.bp b).objs := by
  rw [sort_bp_self]
  exact sortBy_perm _ _

/-! ## What `Entity(…)` does -/

theorem newEntity_ok {layer : Option BpId} {kw : Dict} {w w' : World} {r : Ref}
    (h : newEntity layer kw w = (.ok r, w')) :
    ∃ e, Entity.new w.env (w.customOf layer) layer kw = .ok e ∧ r = w.next ∧
      w' = { w.setEnt w.next e with next := w.next + 1 } := by
  unfold Verif.newEntity at h
  split at h
  · simp at h
  · rename_i e he
    simp only [alloc, Prod.mk.injEq, Except.ok.injEq] at h
    exact ⟨e, he, h.1.symm, h.2.symm⟩

theorem newEntity_error {layer : Option BpId} {kw : Dict} {w w' : World} {x : Exc}
    (h : newEntity layer kw w = (.error x, w')) :
    Entity.new w.env (w.customOf layer) layer kw = .error x ∧ w' = w := by
  unfold Verif.newEntity at h
  split at h
  · rename_i e he
    simp only [Prod.mk.injEq, Except.error.injEq] at h
    exact ⟨by rw [he, h.1], h.2.symm⟩
  · simp [alloc] at h

/-! ## Every call is a sequence of primitive effects

`Prim k w w'`: one primitive effect.  `k` tells whether recolouring a recorded wire is allowed. -/

/-- A call that changes one entity in place. -/
inductive EntEff (n v : Bool) (env : Env) (e : Entity) : Entity → Prop where
  | rotate (m : Int) (a : Operand) (d : DirArg) : v = true → EntEff n v env e (e.rotate m a d).2
  | setName (custom : Option Custom) (x : Val) : n = true → EntEff n v env e (e.setName env custom x).2
  | setPos (p : Vec) : v = true → EntEff n v env e { e with pos := p }
  | setDir (x : Val) (d : Direction) : Direction.ofVal x = .ok d → EntEff n v env e { e with dir := d }
  | setClass (base : Klass) (ms : List Mx) (k : Klass) (hb : base = e.klass ∨ base = Klass.entity)
      (hk : Klass.extend e.depth base ms = .ok k) : n = true →
      EntEff n v env e { e with klass := k, depth := e.depth + 1 }
  | setNumber (m : Option Int) : EntEff n v env e { e with number := m }
  | setOri (x o : Val) (h : orientationSet x = .ok o) (ht : e.klass.has .Train = true) :
      EntEff n v env e { e with attrs := Dict.set e.attrs "orientation" o }
  | setAttr (k : String) (x : Val) : EntEff n v env e (e.setAttr env k x).2
  | setControl (k : String) (x : Val) : EntEff n v env e (e.setControl env k x).2
  | newControl (x : Val) : EntEff n v env e (e.newControl env x).2

theorem EntEff.layer {n v : Bool} {env : Env} {e e' : Entity} (h : EntEff n v env e e') : e'.layer = e.layer := by
  cases h with
  | rotate n a d => obtain ⟨_, _, _, hf⟩ := Entity.rotate_frame e n a d; rw [hf]
  | setName c v => obtain ⟨_, _, _, hf⟩ := Entity.setName_frame env c e v; rw [hf]
  | setPos p => rfl
  | setDir v d _ => rfl
  | setClass base ms k hb hk => rfl
  | setNumber n => rfl
  | setOri v o h ht => rfl
  | setAttr k v => obtain ⟨_, hf⟩ := Entity.setAttr_frame env e k v; rw [hf]
  | setControl k v => obtain ⟨_, hf⟩ := Entity.setControl_frame env e k v; rw [hf]
  | newControl v => obtain ⟨_, hf⟩ := Entity.newControl_frame env e v; rw [hf]

theorem EntEff.strict {n v : Bool} {env : Env} {e e' : Entity} (h : EntEff n v env e e') : e'.strict = e.strict := by
  cases h with
  | rotate n a d => obtain ⟨_, _, _, hf⟩ := Entity.rotate_frame e n a d; rw [hf]
  | setName c v => obtain ⟨_, _, _, hf⟩ := Entity.setName_frame env c e v; rw [hf]
  | setPos p => rfl
  | setDir v d _ => rfl
  | setClass base ms k hb hk => rfl
  | setNumber n => rfl
  | setOri v o h ht => rfl
  | setAttr k v => obtain ⟨_, hf⟩ := Entity.setAttr_frame env e k v; rw [hf]
  | setControl k v => obtain ⟨_, hf⟩ := Entity.setControl_frame env e k v; rw [hf]
  | newControl v => obtain ⟨_, hf⟩ := Entity.newControl_frame env e v; rw [hf]

/-- `e` is the result of a constructor call. -/
def IsNew (env : Env) (layer : Option BpId) (e : Entity) : Prop :=
  ∃ custom kw, Entity.new env custom layer kw = .ok e

theorem IsNew.layer {env : Env} {l : Option BpId} {e : Entity} (h : IsNew env l e) : e.layer = l := by
  obtain ⟨_, _, h⟩ := h
  exact Entity.new_layer h

/-- `e` is the result of a constructor call in this world. -/
def NewIn (w : World) (layer : Option BpId) (e : Entity) : Prop :=
  ∃ kw, Entity.new w.env (w.customOf layer) layer kw = .ok e

theorem NewIn.isNew {w : World} {l : Option BpId} {e : Entity} (h : NewIn w l e) : IsNew w.env l e := ⟨_, h⟩

/-- Which of the effects that most calls do not have are allowed: recolouring a wire, replacing the
prototype data, renaming an entity, setting the custom mixins, moving entities, listing another entity, removing
one, recording another wire. -/
structure Kind where
  recolors : Bool := false
  data : Bool := false
  names : Bool := false
  customs : Bool := false
  moves : Bool := false
  appends : Bool := false
  removes : Bool := false
  wires : Bool := false

def Kind.all : Kind := ⟨true, true, true, true, true, true, true, true⟩

/-- Schedules and label colour stay, or the new schedules name listed entities, and the new colour is in range. -/
structure SameRest (p p' : Bp) : Prop where
  schedules : p'.schedules = p.schedules ∨ ∀ s ∈ p'.schedules, s ∈ p.schedules ∨ ∀ r ∈ s.1, r ∈ p.objs
  color : p'.labelColor = p.labelColor ∨ ∀ c, p'.labelColor = some c → c.Made

inductive Prim (k : Kind) (w : World) : World → Prop where
  /-- a call on an entity that keeps it in its layer -/
  | ent (r : Ref) (e : Entity) : EntEff k.names k.moves w.env (w.heap r) e → Prim k w (w.setEnt r e)
  | env (env : Env) : k.data = true → Prim k w { w with env := env }
  /-- attribute assignment on a blueprint other than its entities and wires -/
  | bp (b : BpId) (p : Bp) : p.objs = (w.bp b).objs → p.conns = (w.bp b).conns →
      p.tiles.length ≤ (w.bp b).tiles.length ∧ (p.icons.length = (w.bp b).icons.length ∨ p.icons.length = 4) →
      (p.custom = (w.bp b).custom ∨ k.customs = true) → SameRest (w.bp b) p → Prim k w (w.setBp b p)
  | sort (b : BpId) : Prim k w (w.sort b)
  | noConns (b : BpId) : Prim k w (w.setBp b { w.bp b with conns := [] })
  | addConn (b : BpId) (r : Ref) (c : Conn) : c.fromE = some r → k.wires = true →
      Prim k w (w.setBp b { w.bp b with conns := addConn (w.bp b).conns c })
  | orient (b : BpId) (r : Ref) : Prim k w (w.setBp b { w.bp b with
      conns := (w.bp b).conns.map (fun c => if c.attachedTo r then c.orientate r else c) })
  | flip (b : BpId) (i : Nat) :
      Prim k w (w.setBp b { w.bp b with conns := (w.bp b).conns.modify i Conn.flip })
  | flipColor (b : BpId) (i : Nat) : k.recolors = true →
      Prim k w (w.setBp b { w.bp b with conns := (w.bp b).conns.modify i Conn.flipColor })
  | alloc (l : Option BpId) (e : Entity) : NewIn w l e → Prim k w (Verif.alloc e w).2
  /-- a new entity appended to a layer -/
  | load (b : BpId) (e : Entity) : NewIn w (some b) e → k.appends = true →
      Prim k w (let w' := (Verif.alloc e w).2
        w'.setBp b { w'.bp b with objs := (w'.bp b).objs ++ [w.next] })
  /-- an existing free entity appended to a layer -/
  | add (b : BpId) (r : Ref) : r < w.next → ((w.heap r).layer = none ∨ (w.heap r).layer = some b) →
      r ∉ (w.bp b).objs → k.appends = true →
      Prim k w ((w.setBp b { w.bp b with objs := (w.bp b).objs ++ [r] }).setEnt r
        { w.heap r with layer := some b })
  | drop (b : BpId) (r : Ref) : r ∈ (w.bp b).objs → k.removes = true →
      Prim k w ((w.setBp b { w.bp b with objs := (w.bp b).objs.erase r }).setEnt r
        { w.heap r with layer := none })

/-- Sequences of primitive effects. -/
inductive Steps (k : Kind) (w : World) : World → Prop where
  | refl : Steps k w w
  | step {w' w'' : World} : Steps k w w' → Prim k w' w'' → Steps k w w''

theorem Steps.trans {k : Kind} {u v w : World} (h : Steps k u v) (h' : Steps k v w) : Steps k u w := by
  induction h' with
  | refl => exact h
  | step _ hp ih => exact ih.step hp

/-- An invariant of the primitive effects is an invariant of sequences. -/
theorem Steps.induct {k : Kind} {I : World → Prop} (hI : ∀ w w', I w → Prim k w w' → I w')
    {w w' : World} (h : Steps k w w') (hw : I w) : I w' := by
  induction h with
  | refl => exact hw
  | step _ hp ih => exact hI _ _ ih hp

section
variable {k : Kind}

/-- `x` only has primitive effects. -/
abbrev Eff (k : Kind) {α} (x : M α) : Prop := ∀ w₀, Keeps (Steps k w₀) x

theorem Eff.of {α} {x : M α} (h : ∀ w, Steps k w (x w).2) : Eff k x :=
  fun _ => ⟨fun w hw => hw.trans (h w)⟩

theorem Eff.one {α} {x : M α} (h : ∀ w, (x w).2 = w ∨ Prim k w (x w).2) : Eff k x := by
  refine Eff.of (fun w => ?_)
  rcases h w with h | h
  · rw [h]; exact .refl
  · exact Steps.refl.step h

theorem Eff.steps {α} {x : M α} (h : Eff k x) (w : World) : Steps k w (x w).2 :=
  (h w).1 w .refl

theorem Eff.modBp {b : BpId} {f : Bp → Bp} (h1 : ∀ p, (f p).objs = p.objs)
    (h2 : ∀ p, (f p).conns = p.conns) (h3 : ∀ p, (f p).tiles.length = p.tiles.length)
    (h4 : (∀ p, (f p).custom = p.custom) ∨ k.customs = true)
    (h5 : ∀ p, (f p).icons.length = p.icons.length ∨ (f p).icons.length = 4)
    (h6 : ∀ p, SameRest p (f p)) :
    Eff k (modBp b f) :=
  Eff.one (fun w => .inr (.bp b _ (h1 _) (h2 _) ⟨Nat.le_of_eq (h3 _), h5 _⟩ (h4.imp_left (fun h => h _)) (h6 _)))

theorem Eff.newEntity (layer : Option BpId) (kw : Dict) : Eff k (newEntity layer kw) := by
  refine Eff.one (fun w => ?_)
  unfold Verif.newEntity
  split
  · exact .inl rfl
  · rename_i e he
    exact .inr (.alloc layer e ⟨_, he⟩)

theorem Eff.add (ha : k.appends = true) {w : World} (b : BpId) (o : Obj)
    (hr : ∀ r, o = .ent r → r < w.next) : Steps k w (layerAdd b o w).2 := by
  unfold layerAdd
  split
  · rename_i r
    split
    · exact .refl
    · split
      · exact .refl
      · rename_i h1 h2
        refine (Steps.refl.step (.add b r (hr r rfl) ?_ h2 ha)).step (.sort b)
        cases hl : (w.heap r).layer with
        | none => exact .inl rfl
        | some c =>
          right
          rw [hl] at h1
          simp only [ne_eq, reduceCtorEq, not_false_eq_true, true_and] at h1
          exact Classical.not_not.1 h1
  · exact .refl

theorem Eff.drop (hd : k.removes = true) (b : BpId) (r : Ref) : Eff k (layerDrop b r) := by
  refine Eff.one (fun w => ?_)
  unfold layerDrop
  split
  · rename_i hr
    exact .inr (.drop b r hr hd)
  · exact .inl rfl

theorem Eff.make (ha : k.appends = true) (b : BpId) (kw : Dict) : Eff k (layerMake b kw) := by
  refine Eff.of (fun w => ?_)
  unfold layerMake
  have h' := (Eff.newEntity (k := k) (some b) kw).steps w
  cases hn : Verif.newEntity (some b) kw w with
  | mk res w' =>
    rw [hn] at h'
    cases res with
    | error e => rw [M.bind_error hn]; exact h'
    | ok r =>
      rw [M.bind_ok hn]
      obtain ⟨e, he, rfl, rfl⟩ := newEntity_ok hn
      have := Eff.add (k := k) ha (w := { w.setEnt w.next e with next := w.next + 1 }) b (.ent w.next)
        (by rintro r ⟨⟩; exact Nat.lt_succ_self _)
      refine h'.trans ?_
      rw [M.bind_eq]
      split <;> rename_i h2 <;> rw [h2] at this <;> exact this

theorem Eff.layerLoad (ha : k.appends = true) (b : BpId) (v : Val) : Eff k (layerLoad b v) := by
  refine fun w₀ => Keeps.bind (Keeps.lift _) (fun kw => Eff.one (fun w => ?_) w₀)
  cases hn : Verif.newEntity (some b) kw w with
  | mk res w' =>
    cases res with
    | error e =>
      rw [M.bind_error hn]
      exact .inl (newEntity_error hn).2
    | ok r =>
      rw [M.bind_ok hn]
      obtain ⟨e, he, rfl, rfl⟩ := newEntity_ok hn
      exact .inr (.load b e ⟨_, he⟩ ha)

theorem Eff.getConnections (r : Ref) : Eff k (getConnections r) := by
  refine Eff.one (fun w => ?_)
  unfold Verif.getConnections
  split
  · exact .inl rfl
  · rename_i b _
    right
    dsimp only
    split
    · exact .orient b r
    · split <;> exact .orient b r

theorem Eff.entRotate (hm : k.moves = true) (amount : Int) (around : Operand) (dir : DirArg) (r : Ref) :
    Eff k (entRotate amount around dir r) := by
  refine Eff.one (fun w => .inr ?_)
  exact .ent r _ (.rotate amount around dir hm)

theorem Conn.new_fromE {f t : Option Ref} {a b : Val} {col : String} {c : Conn}
    (h : Conn.new f t a b col = .ok c) : c.fromE = f ∧ c.toE = t ∧ c.color = col := by
  unfold Conn.new at h
  simp only [bind_eq_ok, pure_eq_ok, Except.ok.injEq] at h
  obtain ⟨_, _, _, _, rfl⟩ := h
  exact ⟨rfl, rfl, rfl⟩

theorem Eff.connect (hw : k.wires = true) (r : Ref) (t : Option Ref) (f s : Val) (c : String) :
    Eff k (connect r t f s c) := by
  refine Eff.one (fun w => ?_)
  unfold Verif.connect
  split
  · exact .inl rfl
  · rename_i conn hc
    split
    · exact .inl rfl
    · exact .inr (.addConn _ r conn (Conn.new_fromE hc).1 hw)

theorem Eff.sortM (b : BpId) : Eff k (M.modify (·.sort b)) := Eff.one (fun _ => .inr (.sort b))

theorem Eff.layerGet (b : BpId) (p : Operand) : Eff k (layerGet b p) := by
  refine Eff.one (fun w => .inl ?_)
  unfold Verif.layerGet
  split <;> rfl

theorem Eff.entToJson (r : Ref) : Eff k (entToJson r) := by
  intro w₀
  refine Keeps.bind Keeps.get (fun w => ?_)
  refine Keeps.bind ?_ (fun c => ?_)
  · exact Keeps.bind (Eff.getConnections r w₀)
      (fun _ => Keeps.bind Keeps.get (fun _ => Keeps.lift _))
  · exact Keeps.bind (Keeps.lift _) (fun _ => Keeps.pure _)

theorem Eff.toJson (b : BpId) : Eff k (toJson b) := by
  intro w₀
  refine Keeps.bind Keeps.get (fun w => ?_)
  refine Keeps.bind (Keeps.mapL (fun r => Eff.entToJson r w₀) _) (fun _ => ?_)
  exact Keeps.bind (Keeps.lift _) (fun _ => Keeps.pure _)

theorem setPy_length {α} {l l' : List α} {k : Int} {x : α} (h : setPy l k x = .ok l') :
    l'.length = l.length := by
  unfold setPy at h
  split at h
  · cases h; simp
  · split at h
    · cases h; simp
    · cases h

theorem M.lift_bind {α β} (x : Except Exc α) (f : α → M β) (w : World) :
    (M.lift x >>= f) w = match x with | .ok a => f a w | .error e => (.error e, w) := by
  cases x <;> rfl

theorem Eff.loadIcon (b : BpId) (i : Val) : Eff k (loadIcon b i) := by
  refine Eff.one (fun w => ?_)
  unfold Verif.loadIcon
  rw [M.bind_get, M.lift_bind]
  split
  · rw [M.lift_bind]
    split
    · rw [M.lift_bind]
      split
      · rw [M.lift_bind]
        split
        · rw [M.lift_bind]
          split
          · rename_i l hl
            exact .inr (.bp b { w.bp b with icons := l } rfl rfl ⟨Nat.le_refl _, .inl (setPy_length hl)⟩ (.inl rfl) ⟨.inl rfl, .inl rfl⟩)
          · exact .inl rfl
        · exact .inl rfl
      · exact .inl rfl
    · exact .inl rfl
  · exact .inl rfl

theorem Eff.loadRef (hw : k.wires = true) (b : BpId) (r : Ref) (s c : String) (v : Val) : Eff k (loadRef b r s c v) := by
  intro w₀
  refine Keeps.bind Keeps.get (fun w => ?_)
  refine Keeps.bind (Keeps.lift _) (fun id => ?_)
  refine Keeps.bind (Keeps.lift _) (fun d => ?_)
  refine Eff.one (fun w1 => ?_) w₀
  cases hc : Conn.new (some r) (getById w b id) (.str s) (Dict.getD d "circuit_id" (.str "1")) c with
  | error e => exact .inl rfl
  | ok conn => exact .inr (.addConn b r conn (Conn.new_fromE hc).1 hw)

theorem Eff.loadWires (hw : k.wires = true) (b : BpId) (r : Ref) : Eff k (loadWires b r) := by
  intro w₀
  refine Keeps.bind Keeps.get (fun w => ?_)
  split
  · exact Keeps.pure _
  · refine Keeps.bind (Keeps.lift _) (fun _ => Keeps.forEach (fun _ => ?_) _)
    refine Keeps.bind (Keeps.lift _) (fun _ => Keeps.forEach (fun _ => ?_) _)
    exact Keeps.bind (Keeps.lift _) (fun _ => Keeps.forEach (fun _ => Eff.loadRef hw _ _ _ _ _ w₀) _)

theorem Eff.parseConnections (hw : k.wires = true) (b : BpId) : Eff k (parseConnections b) := by
  intro w₀
  refine Keeps.bind (Eff.one (fun w => .inr (.noConns b)) w₀) (fun _ => ?_)
  refine Keeps.bind Keeps.get (fun w => ?_)
  refine Keeps.bind (Keeps.forEach (fun r => Eff.loadWires hw b r w₀) _) (fun _ => ?_)
  exact Keeps.forEach (fun r => Keeps.bind (Eff.getConnections r w₀) (fun _ => Keeps.pure _)) _

/-- Tiles can never be constructed for a layer. -/
theorem tileNew_fails (tiles : List String) (kw : Dict) (h : Dict.mem kw "blueprint_layer" = true) :
    ∃ e, Tile.new tiles kw = .error e := by
  cases ht : Tile.new tiles kw with
  | error e => exact ⟨e, rfl⟩
  | ok t =>
    exfalso
    unfold Tile.new at ht
    simp only [bind_eq_ok] at ht
    obtain ⟨_, _, _, _, _, _, _, _, h'⟩ := ht
    split at h'
    · cases h'
    · rename_i hne
      rw [Bool.not_eq_true', Bool.not_eq_false, List.isEmpty_iff] at hne
      have hk : ("blueprint_layer" : String) ∈ kw.map (·.1) := by
        unfold Dict.mem Dict.get? at h
        rw [Option.isSome_iff_exists] at h
        obtain ⟨v, hv⟩ := h
        have := List.lookup_eq_some_iff.1 hv
        obtain ⟨l1, l2, e, -⟩ := this
        rw [e]; simp
      obtain ⟨p, hp, hk⟩ := List.mem_map.1 hk
      have : p ∈ Dict.erase (Dict.erase kw "name") "position" := by
        unfold Dict.erase
        simp only [List.mem_filter, bne_iff_ne, ne_eq]
        refine ⟨⟨hp, ?_⟩, ?_⟩ <;> rw [hk] <;> decide
      rw [hne] at this
      cases this

theorem Dict.mem_append_single (kw : Dict) (k : String) (v : Val) : Dict.mem (kw ++ [(k, v)]) k = true := by
  unfold Dict.mem Dict.get?
  induction kw with
  | nil => simp
  | cons p kw ih =>
    obtain ⟨l, x⟩ := p
    simp only [List.cons_append, List.lookup_cons]
    split
    · rfl
    · exact ih

/-- `tiles._load` never changes anything. -/
theorem tileLoad_error (b : BpId) (v : Val) (w : World) : ∃ e, tileLoad b v w = (.error e, w) := by
  unfold tileLoad
  cases hv : v.kwargs with
  | error e => exact ⟨e, rfl⟩
  | ok kw =>
    rw [M.bind_ok (a := kw) (w' := w) (by rw [M.lift_eq])]
    split
    · exact ⟨_, rfl⟩
    · obtain ⟨e, he⟩ := tileNew_fails (Dict.keys w.env.tiles) (kw ++ [("blueprint_layer", .none)])
        (Dict.mem_append_single _ _ _)
      refine ⟨e, ?_⟩
      rw [M.bind_get, he]
      rfl

/-- `tiles.make` never changes anything. -/
theorem tilesMake_error (b : BpId) (kw : Dict) (w : World) : ∃ e, tilesMake b kw w = (.error e, w) := by
  unfold tilesMake
  split
  · exact ⟨_, rfl⟩
  · obtain ⟨e, he⟩ := tileNew_fails (Dict.keys w.env.tiles) (kw ++ [("blueprint_layer", .none)])
      (Dict.mem_append_single _ _ _)
    refine ⟨e, ?_⟩
    rw [M.bind_get, he]
    rfl

theorem Eff.tilesMake (b : BpId) (kw : Dict) : Eff k (tilesMake b kw) := by
  refine Eff.one (fun w => .inl ?_)
  obtain ⟨e, h⟩ := tilesMake_error b kw w
  rw [h]

theorem Eff.tileLoad (b : BpId) (v : Val) : Eff k (tileLoad b v) := by
  refine Eff.one (fun w => .inl ?_)
  obtain ⟨e, h⟩ := tileLoad_error b v w
  rw [h]

theorem Eff.tilesSort (b : BpId) : Eff k (tilesSort b) :=
  Eff.modBp (by intro _; rfl) (by intro _; rfl) (by intro _; simp) (.inl (by intro _; rfl)) (by intro _; exact .inl rfl) (by intro _; exact ⟨.inl rfl, .inl rfl⟩)

theorem Color.ofVal_made {v : Val} {c : Color} (h : Color.ofVal v = .ok c) : c.Made := by
  unfold Color.ofVal Color.ofKwargs at h
  simp only [bind_eq_ok] at h
  obtain ⟨d, -, h⟩ := h
  split at h
  · simp only [throw_eq_error, error_bind] at h; cases h
  · simp only [bind_eq_ok, pure_eq_ok, Except.ok.injEq] at h
    obtain ⟨_, _, _, _, _, _, _, _, _, _, rfl⟩ := h
    exact ⟨_, _, _, _, rfl⟩

theorem Keeps.bind_lift {I : World → Prop} {α β} {x : Except Exc α} {f : α → M β}
    (h : ∀ a, x = .ok a → Keeps I (f a)) : Keeps I (M.lift x >>= f) := by
  refine ⟨fun w hw => ?_⟩
  rw [M.lift_bind]
  split
  · exact (h _ rfl).1 w hw
  · exact hw

theorem Eff.loadColor (b : BpId) (v : Val) : Eff k (loadColor b v) := by
  intro w₀
  unfold Verif.loadColor
  split
  · exact Keeps.pure _
  · exact Keeps.bind_lift (fun _ hc =>
      Eff.modBp (by intro _; rfl) (by intro _; rfl) (by intro _; rfl) (.inl (by intro _; rfl)) (by intro _; exact .inl rfl) (by intro _; exact ⟨.inl rfl, .inr (by rintro _ ⟨⟩; exact Color.ofVal_made hc)⟩) w₀)

theorem mem_of_mapM {α β : Type} {f : α → Except Exc β} {l : List α} {l' : List β} (h : l.mapM f = .ok l') :
    ∀ y ∈ l', ∃ x ∈ l, f x = .ok y := by
  induction l generalizing l' with
  | nil => rw [List.mapM_nil, pure_eq_ok] at h; cases h; intro y hy; cases hy
  | cons a l ih =>
    simp only [List.mapM_cons, bind_eq_ok, pure_eq_ok, Except.ok.injEq] at h
    obtain ⟨y0, h0, ys, hys, rfl⟩ := h
    intro y hy
    rcases List.mem_cons.1 hy with rfl | hy
    · exact ⟨a, List.mem_cons_self, h0⟩
    · obtain ⟨x, hx, hfx⟩ := ih hys y hy
      exact ⟨x, List.mem_cons_of_mem _ hx, hfx⟩

/-- A schedule read from data names entities of the blueprint. -/
theorem scheduleNew_listed {w : World} {b : BpId} {v : Val} {s : List Ref × Val} (h : scheduleNew w b v = .ok s) :
    ∀ r ∈ s.1, r ∈ (w.bp b).objs := by
  unfold scheduleNew at h
  simp only [bind_eq_ok] at h
  obtain ⟨kw, -, h⟩ := h
  split at h
  · cases h
  · split at h
    · simp only [bind_eq_ok, pure_eq_ok, Except.ok.injEq] at h
      obtain ⟨ids, -, rfl⟩ := h
      intro r hr
      obtain ⟨i, -, hi⟩ := List.mem_filterMap.1 hr
      unfold getById at hi
      exact List.mem_of_find?_eq_some hi
    · cases h

theorem Eff.load (ha : k.appends = true) (hw : k.wires = true) (b : BpId) (v : Val) : Eff k (load b v) := by
  intro w₀
  refine Keeps.bind (Keeps.lift _) (fun d => ?_)
  refine Keeps.bind (Eff.modBp (by intro _; rfl) (by intro _; rfl) (by intro _; rfl) (.inl (by intro _; rfl)) (by intro _; exact .inl rfl) (by intro _; exact ⟨.inl rfl, .inl rfl⟩) w₀) (fun _ => ?_)
  refine Keeps.bind (Eff.loadColor b _ w₀) (fun _ => ?_)
  refine Keeps.bind (Eff.modBp (by intro _; rfl) (by intro _; rfl) (by intro _; rfl) (.inl (by intro _; rfl))
    (by intro _; exact .inr rfl) (by intro _; exact ⟨.inl rfl, .inl rfl⟩) w₀) (fun _ => ?_)
  refine Keeps.bind (Keeps.lift _) (fun _ => ?_)
  refine Keeps.bind (Keeps.forEach (fun i => Eff.loadIcon b i w₀) _) (fun _ => ?_)
  refine Keeps.bind (Keeps.lift _) (fun _ => ?_)
  refine Keeps.bind (Keeps.forEach (fun v => Eff.layerLoad ha b v w₀) _) (fun _ => ?_)
  refine Keeps.bind (Eff.sortM b w₀) (fun _ => ?_)
  refine Keeps.bind (Eff.parseConnections hw b w₀) (fun _ => ?_)
  refine Keeps.bind (Keeps.lift _) (fun _ => ?_)
  refine Keeps.bind (Keeps.forEach (fun v => Eff.tileLoad b v w₀) _) (fun _ => ?_)
  refine Keeps.bind (Eff.tilesSort b w₀) (fun _ => ?_)
  refine Keeps.bind (Keeps.lift _) (fun _ => ?_)
  refine Eff.one (fun w => ?_) w₀
  rw [M.bind_get, M.lift_bind]
  split
  · rename_i l hl
    refine .inr (.bp b { w.bp b with schedules := l } rfl rfl ⟨Nat.le_refl _, .inl rfl⟩ (.inl rfl)
      ⟨.inr (fun s hs => .inr fun r hr => ?_), .inl rfl⟩)
    obtain ⟨v, -, hv⟩ := mem_of_mapM hl s hs
    exact scheduleNew_listed hv r hr
  · exact .inl rfl

theorem tilesRotateAux_length (n : Int) (a : Option Operand) (d : Option DirArg) (l : List Tile) :
    (tilesRotateAux n a d l).2.length = l.length := by
  induction l with
  | nil => rfl
  | cons t ts ih =>
    unfold tilesRotateAux
    split
    · rfl
    · simp [ih]

theorem Eff.layerRotate (hm : k.moves = true) (b : BpId) (n : Int) (a : Option Operand) (d : Option DirArg) :
    Eff k (layerRotate b n a d) := by
  intro w₀
  refine Keeps.bind Keeps.get (fun w => ?_)
  exact Keeps.bind (Keeps.forEach (fun r => Eff.entRotate hm _ _ _ r w₀) _) (fun _ => Eff.sortM b w₀)

theorem Eff.rotate (hm : k.moves = true) (b : BpId) (n : Int) (a : Option Operand) (d : Option DirArg) :
    Eff k (bpRotate b n a d) := by
  intro w₀
  refine Keeps.bind (Eff.layerRotate hm b n a d w₀) (fun _ => Keeps.bind ?_ (fun _ => Eff.tilesSort b w₀))
  exact Eff.one (fun w => .inr (Prim.bp b { w.bp b with tiles := (tilesRotateAux n a d (w.bp b).tiles).2 }
    rfl rfl ⟨Nat.le_of_eq (tilesRotateAux_length ..), .inl rfl⟩ (.inl rfl) ⟨.inl rfl, .inl rfl⟩)) w₀

theorem Eff.shiftEnt (hm : k.moves = true) (c : Operand) (r : Ref) : Eff k (shiftEnt c r) := by
  refine Eff.one (fun w => ?_)
  unfold Verif.shiftEnt
  split
  · exact .inl rfl
  · exact .inr (.ent r _ (.setPos _ hm))

theorem Eff.recenter (hm : k.moves = true) (b : BpId) (a : Option Operand) : Eff k (recenter b a) := by
  intro w₀
  refine Keeps.bind Keeps.get (fun w => ?_)
  refine Keeps.bind (Keeps.lift _) (fun c => ?_)
  refine Keeps.bind (Keeps.lift _) (fun _ => ?_)
  refine Keeps.ite (Keeps.pure _) ?_
  exact Keeps.bind (Keeps.forEach (fun r => Eff.shiftEnt hm c r w₀) _) (fun _ => Keeps.throw _)

theorem Eff.setProtos (hk : k.data = true) (t : Table) (d : Dict) (a : Bool) : Eff k (setProtos t d a) :=
  Eff.one (fun _ => .inr (.env _ hk))

theorem Eff.importTable (hk : k.data = true) (v : Val) (a : Bool) (key : String) (t : Table) :
    Eff k (importTable v a key t) := by
  intro w₀
  refine Keeps.bind (Keeps.lift _) (fun _ => ?_)
  split
  · exact Eff.setProtos hk _ _ _ w₀
  · exact Keeps.throw _

/-- The special effects of a call. -/
def Op.kind : Op → Kind
  | .flipColor _ _ => { recolors := true }
  | .setProtos _ _ _ => { data := true }
  | .importProtos _ _ => { data := true }
  | .setName _ _ => { names := true }
  | .addMixins _ _ => { names := true }
  | .setMixins _ _ => { names := true }
  | .setCustom _ _ => { customs := true }
  | .rotate _ _ _ _ => { moves := true }
  | .rotateLayer _ _ _ _ => { moves := true }
  | .parse _ => { wires := true }
  | .entRotate _ _ _ _ => { moves := true }
  | .setPos _ _ => { moves := true }
  | .recenter _ _ => { moves := true }
  | .make _ _ => { appends := true }
  | .add _ _ => { appends := true }
  | .load _ _ => { appends := true, wires := true }
  | .connect _ _ _ _ _ => { wires := true }
  | .remove _ _ => { removes := true }
  | .delObj _ _ => { removes := true }
  | .delAt _ _ => { removes := true }
  | _ => {}

/-- Every call, whether it succeeds or raises, is a sequence of primitive effects. -/
theorem Op.steps {w : World} (op : Op) (hr : op.refsOk w) : Steps op.kind w (op.run w).2 := by
  have drop : ∀ {α} (x : M α), Eff op.kind x →
      Steps op.kind w ((do let _ ← x; return () : M Unit) w).2 := by
    intro α x hx
    exact (Keeps.bind (hx w) (fun _ => Keeps.pure _)).1 w .refl
  cases op with
  | newEntity l kw => exact drop _ (Eff.newEntity l kw)
  | make b kw => exact drop _ (Eff.make rfl b kw)
  | add b o => exact Eff.add rfl b o (by rintro r rfl; exact hr)
  | remove b o =>
    cases o with
    | ent r => exact (Eff.drop rfl b r).steps w
    | tile _ => exact .refl
    | other => exact .refl
  | delObj b r => exact (Eff.drop rfl b r).steps w
  | delAt b p =>
    exact (Keeps.bind (Eff.layerGet b p w) (fun _ => Keeps.forEach (fun r => Eff.drop rfl b r w) _)).1 w .refl
  | get b p => exact drop _ (Eff.layerGet b p)
  | rotate b n a d => exact (Eff.rotate rfl b n a d).steps w
  | entRotate r n a d => exact (Eff.entRotate rfl n a d r).steps w
  | connect r t f s c => exact drop _ (Eff.connect rfl r t f s c)
  | flip b i => exact Steps.refl.step (.flip b i)
  | flipColor b i => exact Steps.refl.step (.flipColor b i rfl)
  | getConnections r => exact drop _ (Eff.getConnections r)
  | entToJson r => exact drop _ (Eff.entToJson r)
  | toJson b => exact drop _ (Eff.toJson b)
  | load b d => exact (Eff.load rfl rfl b d).steps w
  | recenter b a => exact (Eff.recenter rfl b a).steps w
  | setPos r v =>
    refine (Eff.one (x := Verif.setPos r v) (fun w => ?_)).steps w
    unfold Verif.setPos
    split
    · exact .inl rfl
    · exact .inl rfl
    · exact .inr (.ent r _ (.setPos _ rfl))
  | setDir r v =>
    refine (Eff.one (x := Verif.setDir r v) (fun w => ?_)).steps w
    unfold Verif.setDir
    split
    · exact .inl rfl
    · rename_i d hd
      exact .inr (.ent r _ (.setDir v d hd))
  | setName r v =>
    refine (Eff.one (x := Verif.entSetName r v) (fun w => .inr ?_)).steps w
    exact .ent r _ (.setName _ v rfl)
  | addMixins r ms =>
    show Steps _ w (w.setEnt r ((w.heap r).addMixins ms).2)
    unfold Entity.addMixins
    split
    · exact Steps.refl.step (.ent r _ (.setNumber (w.heap r).number))
    · rename_i k hk
      exact Steps.refl.step (.ent r _ (.setClass _ ms k (.inl rfl) hk rfl))
  | setMixins r ms =>
    show Steps _ w (w.setEnt r ((w.heap r).setMixins ms).2)
    unfold Entity.setMixins
    split
    · exact Steps.refl.step (.ent r _ (.setNumber (w.heap r).number))
    · rename_i k hk
      exact Steps.refl.step (.ent r _ (.setClass _ ms k (.inr rfl) hk rfl))
  | setNumber r n => exact Steps.refl.step (.ent r _ (.setNumber n))
  | setOrientation r v =>
    show Steps _ w (Verif.setOrientation r v w).2
    unfold Verif.setOrientation
    split
    · rename_i ht
      split
      · exact Steps.refl
      · rename_i o ho
        exact Steps.refl.step (.ent r _ (.setOri v o ho ht))
    · exact Steps.refl
  | setAttr r k v => exact Steps.refl.step (.ent r _ (.setAttr k v))
  | setControl r k v => exact Steps.refl.step (.ent r _ (.setControl k v))
  | newControl r v => exact Steps.refl.step (.ent r _ (.newControl v))
  | setLabel b l c =>
    refine (Keeps.bind (Eff.modBp (by intro _; rfl) (by intro _; rfl) (by intro _; rfl) (.inl (by intro _; rfl)) (by intro _; exact .inl rfl) (by intro _; exact ⟨.inl rfl, .inl rfl⟩) w)
      (fun _ => ?_)).1 w .refl
    split
    · exact Eff.modBp (by intro _; rfl) (by intro _; rfl) (by intro _; rfl) (.inl (by intro _; rfl)) (by intro _; exact .inl rfl) (by intro _; exact ⟨.inl rfl, .inr (by rintro _ ⟨⟩; exact hr)⟩) w
    · exact Keeps.pure _
    · exact Keeps.bind_lift (fun _ hc =>
        Eff.modBp (by intro _; rfl) (by intro _; rfl) (by intro _; rfl) (.inl (by intro _; rfl)) (by intro _; exact .inl rfl) (by intro _; exact ⟨.inl rfl, .inr (by rintro _ ⟨⟩; exact Color.ofVal_made hc)⟩) w)
  | setProtos t d a => exact (Eff.setProtos rfl t d a).steps w
  | importProtos d a =>
    refine (Keeps.bind (Eff.importTable rfl d a _ _ w) (fun _ => ?_)).1 w .refl
    refine Keeps.bind (Eff.importTable rfl d a _ _ w) (fun _ => ?_)
    refine Keeps.bind (Eff.importTable rfl d a _ _ w) (fun _ => ?_)
    refine Keeps.bind (Eff.importTable rfl d a _ _ w) (fun _ => ?_)
    exact Eff.importTable rfl d a _ _ w
  | setCustom b c =>
    exact (Eff.modBp (f := fun p => { p with custom := c }) (by intro _; rfl) (by intro _; rfl)
      (by intro _; rfl) (.inr rfl) (by intro _; exact .inl rfl) (by intro _; exact ⟨.inl rfl, .inl rfl⟩)).steps w
  | tilesMake b kw => exact drop _ (Eff.tilesMake b kw)
  | tilesAdd b o => cases o <;> exact .refl
  | tilesRemove b o =>
    refine (Eff.one (x := Verif.tilesRemove b o) (fun w => ?_)).steps w
    unfold Verif.tilesRemove
    split
    · split
      · exact .inr (.bp b _ rfl rfl ⟨List.erase_sublist.length_le, .inl rfl⟩ (.inl rfl) ⟨.inl rfl, .inl rfl⟩)
      · exact .inl rfl
    · exact .inl rfl
  | tilesGet b p => exact drop _ (Eff.one (fun w => .inl rfl))
  | sort b => exact (Eff.sortM b).steps w
  | parse b => exact (Eff.parseConnections rfl b).steps w
  | rotateLayer b n a d => exact (Eff.layerRotate rfl b n a d).steps w
  | setItem b v =>
    exact (Eff.modBp (f := fun p => { p with item := v }) (by intro _; rfl) (by intro _; rfl)
      (by intro _; rfl) (.inl (by intro _; rfl)) (by intro _; exact .inl rfl) (by intro _; exact ⟨.inl rfl, .inl rfl⟩)).steps w
  | setVersion b v =>
    exact (Eff.modBp (f := fun p => { p with version := v }) (by intro _; rfl) (by intro _; rfl)
      (by intro _; rfl) (.inl (by intro _; rfl)) (by intro _; exact .inl rfl) (by intro _; exact ⟨.inl rfl, .inl rfl⟩)).steps w
  | setStrict b s =>
    exact (Eff.modBp (f := fun p => { p with strict := s }) (by intro _; rfl) (by intro _; rfl)
      (by intro _; rfl) (.inl (by intro _; rfl)) (by intro _; exact .inl rfl) (by intro _; exact ⟨.inl rfl, .inl rfl⟩)).steps w
  | setIcon b i v =>
    refine (Keeps.bind Keeps.get (fun v => ?_)).1 w .refl
    split
    · exact Keeps.throw _
    · exact Keeps.throw _
    · exact Keeps.bind (Keeps.lift _) (fun s => Eff.modBp (by intro _; rfl) (by intro _; rfl)
        (by intro _; rfl) (.inl (by intro _; rfl)) (by intro _; exact .inl (List.length_set ..)) (by intro _; exact ⟨.inl rfl, .inl rfl⟩) w)
  | dropIcon b i =>
    refine (Keeps.bind Keeps.get (fun v => Keeps.ite ?_ (Keeps.throw _))).1 w .refl
    exact Eff.modBp (by intro _; rfl) (by intro _; rfl)
      (by intro _; rfl) (.inl (by intro _; rfl)) (by intro _; exact .inl (List.length_set ..)) (by intro _; exact ⟨.inl rfl, .inl rfl⟩) w
  | addSchedule b v =>
    refine (Eff.one (x := Verif.addSchedule b v) (fun w => ?_)).steps w
    unfold Verif.addSchedule
    rw [M.bind_get, M.lift_bind]
    split
    · rename_i s hs
      refine .inr (.bp b { w.bp b with schedules := (w.bp b).schedules ++ [s] } rfl rfl ⟨Nat.le_refl _, .inl rfl⟩ (.inl rfl)
        ⟨.inr (fun t ht => ?_), .inl rfl⟩)
      rcases List.mem_append.1 ht with ht | ht
      · exact .inl ht
      · exact .inr (List.mem_singleton.1 ht ▸ scheduleNew_listed hs)
    · exact .inl rfl

end

theorem EntEff.mono {n n' m m' : Bool} (hn : n = true → n' = true) (hm : m = true → m' = true) {env : Env}
    {e e' : Entity} (h : EntEff n m env e e') : EntEff n' m' env e e' := by
  cases h with
  | rotate m a d h => exact .rotate m a d (hm h)
  | setName c v h => exact .setName c v (hn h)
  | setPos p h => exact .setPos p (hm h)
  | setDir v d h => exact .setDir v d h
  | setClass base ms k hb hk h => exact .setClass base ms k hb hk (hn h)
  | setNumber m => exact .setNumber m
  | setOri v o h ht => exact .setOri v o h ht
  | setAttr k v => exact .setAttr k v
  | setControl k v => exact .setControl k v
  | newControl v => exact .newControl v

/-- Allowing more. -/
def Kind.le (k k' : Kind) : Prop :=
  (k.recolors = true → k'.recolors = true) ∧ (k.data = true → k'.data = true) ∧ (k.names = true → k'.names = true) ∧
    (k.customs = true → k'.customs = true) ∧ (k.moves = true → k'.moves = true) ∧
    (k.appends = true → k'.appends = true) ∧ (k.removes = true → k'.removes = true) ∧
    (k.wires = true → k'.wires = true)

theorem Prim.mono {k k' : Kind} (hk : k.le k') {w w' : World} (h : Prim k w w') : Prim k' w w' := by
  cases h with
  | ent r e h => exact .ent r e (h.mono hk.2.2.1 hk.2.2.2.2.1)
  | env e h => exact .env e (hk.2.1 h)
  | bp b p h1 h2 h3 h4 h5 => exact .bp b p h1 h2 h3 (h4.imp_right hk.2.2.2.1) h5
  | sort b => exact .sort b
  | noConns b => exact .noConns b
  | addConn b r c h h' => exact .addConn b r c h (hk.2.2.2.2.2.2.2 h')
  | orient b r => exact .orient b r
  | flip b i => exact .flip b i
  | flipColor b i h => exact .flipColor b i (hk.1 h)
  | alloc l e h => exact .alloc l e h
  | load b e h h' => exact .load b e h (hk.2.2.2.2.2.1 h')
  | add b r h1 h2 h3 h' => exact .add b r h1 h2 h3 (hk.2.2.2.2.2.1 h')
  | drop b r h h' => exact .drop b r h (hk.2.2.2.2.2.2.1 h')

theorem Steps.mono {k k' : Kind} (hk : k.le k') {w w' : World} (h : Steps k w w') : Steps k' w w' := by
  induction h with
  | refl => exact .refl
  | step _ hp ih => exact ih.step (hp.mono hk)

theorem Kind.le_all (k : Kind) : k.le .all := 
  ⟨fun _ => rfl, fun _ => rfl, fun _ => rfl, fun _ => rfl, fun _ => rfl, fun _ => rfl, fun _ => rfl, fun _ => rfl⟩

/-- An invariant of the primitive effects holds in every reachable world. -/
theorem Reachable.invariant {env : Env} {I : World → Prop} (h0 : I (World.init env))
    (hI : ∀ w w', I w → Prim .all w w' → I w') {w : World} (h : Reachable env w) : I w := by
  induction h with
  | init => exact h0
  | step op _ hr ih => exact Steps.induct hI ((op.steps hr).mono (Kind.le_all _)) ih

/-! ## Ownership -/

/-- No layer lists an entity twice, and a listed entity exists and refers to its layer. -/
structure Owned (w : World) : Prop where
  nodup : ∀ b, (w.bp b).objs.Nodup
  layer : ∀ b r, r ∈ (w.bp b).objs → (w.heap r).layer = some b
  exist : ∀ b r, r ∈ (w.bp b).objs → r < w.next

theorem Owned.init (env : Env) : Owned (World.init env) :=
  ⟨fun _ => List.nodup_nil, fun _ _ h => (List.not_mem_nil h).elim,
    fun _ _ h => (List.not_mem_nil h).elim⟩

/-- Changing a blueprint without changing what it lists, up to order. -/
theorem Owned.setBp {w : World} (h : Owned w) {b : BpId} {p : Bp}
    (hp : p.objs.Perm (w.bp b).objs) : Owned (w.setBp b p) := by
  refine ⟨fun c => ?_, fun c s hs => ?_, fun c s hs => ?_⟩ <;> simp only [setBp_bp] at *
  · split
    · rename_i e; subst e; exact hp.nodup_iff.2 (h.nodup c)
    · exact h.nodup c
  · split at hs
    · rename_i e; subst e; exact h.layer c s (hp.mem_iff.1 hs)
    · exact h.layer c s hs
  · split at hs
    · rename_i e; subst e; exact h.exist c s (hp.mem_iff.1 hs)
    · exact h.exist c s hs

/-- Listing an existing entity that is not listed yet and refers to the layer. -/
theorem Owned.append {w : World} (h : Owned w) {b : BpId} {r : Ref} (hr : r < w.next)
    (hl : (w.heap r).layer = some b) (hn : r ∉ (w.bp b).objs) :
    Owned (w.setBp b { w.bp b with objs := (w.bp b).objs ++ [r] }) := by
  refine ⟨fun c => ?_, fun c s hs => ?_, fun c s hs => ?_⟩ <;> simp only [setBp_bp] at *
  · split
    · rename_i e; subst e
      simp only [List.nodup_append, h.nodup c, true_and]
      refine ⟨by simp, ?_⟩
      intro a ha x hx
      rw [List.mem_singleton.1 hx]
      intro e; subst e; exact hn ha
    · exact h.nodup c
  · split at hs
    · rename_i e; subst e
      simp only [List.mem_append, List.mem_singleton] at hs
      rcases hs with hs | rfl
      · exact h.layer c s hs
      · exact hl
    · exact h.layer c s hs
  · split at hs
    · rename_i e; subst e
      simp only [List.mem_append, List.mem_singleton] at hs
      rcases hs with hs | rfl
      · exact h.exist c s hs
      · exact hr
    · exact h.exist c s hs

theorem Owned.alloc {w : World} (h : Owned w) (e : Entity) : Owned (Verif.alloc e w).2 := by
  refine ⟨h.nodup, fun b s hs => ?_, fun b s hs => Nat.lt_succ_of_lt (h.exist b s hs)⟩
  have : s ≠ w.next := Nat.ne_of_lt (h.exist b s hs)
  show (if s = w.next then e else w.heap s).layer = some b
  rw [if_neg this]
  exact h.layer b s hs

theorem Owned.prim {k : Kind} (w w' : World) (h : Owned w) (hp : Prim k w w') : Owned w' := by
  cases hp with
  | ent r e he =>
    refine ⟨h.nodup, fun b s hs => ?_, h.exist⟩
    rw [setEnt_heap]
    split
    · rename_i e'; subst e'; rw [he.layer]; exact h.layer b s hs
    · exact h.layer b s hs
  | env e => exact ⟨h.nodup, h.layer, h.exist⟩
  | bp b p h1 h2 h3 _ => exact h.setBp (h1 ▸ .refl _)
  | sort b =>
    have h' : Owned (w.setBp b ((w.sort b).bp b)) := h.setBp (sort_objs_perm w b)
    have hm : ∀ c s, s ∈ ((w.sort b).bp c).objs → s ∈ (w.bp c).objs := by
      intro c s hs
      by_cases e : c = b
      · subst e; exact (sort_objs_perm w c).mem_iff.1 hs
      · rwa [sort_bp_other e] at hs
    refine ⟨fun c => ?_, fun c s hs => ?_, fun c s hs => h.exist c s (hm c s hs)⟩
    · have := h'.nodup c
      by_cases e : c = b
      · subst e; simpa using this
      · rw [sort_bp_other e]; exact h.nodup c
    · obtain ⟨n, hn⟩ := sort_heap w b s
      rw [hn]
      exact h.layer c s (hm c s hs)
  | noConns b => exact h.setBp (.refl _)
  | addConn b r c _ => exact h.setBp (.refl _)
  | orient b r => exact h.setBp (.refl _)
  | flip b i => exact h.setBp (.refl _)
  | flipColor b i _ => exact h.setBp (.refl _)
  | alloc l e _ => exact h.alloc e
  | load b e he =>
    refine (h.alloc e).append (b := b) (Nat.lt_succ_self _) ?_ ?_
    · show (if w.next = w.next then e else w.heap w.next).layer = some b
      simpa using he.isNew.layer
    · intro hm
      exact absurd (h.exist b _ hm) (Nat.lt_irrefl _)
  | add b r hr hl hn =>
    have h' : Owned (w.setEnt r { w.heap r with layer := some b }) := by
      refine ⟨h.nodup, fun c s hs => ?_, h.exist⟩
      rw [setEnt_heap]
      split
      · rename_i e
        subst e
        have hl' := h.layer c s hs
        rw [hl'] at hl
        simp only [reduceCtorEq, false_or, Option.some.injEq] at hl
        subst hl
        exact absurd hs hn
      · exact h.layer c s hs
    exact h'.append (b := b) (r := r) hr (by simp) hn
  | drop b r hr =>
    refine ⟨fun c => ?_, fun c s hs => ?_, fun c s hs => ?_⟩ <;>
      simp only [setEnt_bp, setBp_bp, setEnt_heap, setBp_heap, setEnt_next, setBp_next] at *
    · split
      · exact (h.nodup b).erase r
      · exact h.nodup c
    · have hs' : s ∈ (w.bp c).objs ∧ s ≠ r := by
        split at hs
        · rename_i e; subst e
          have := (List.Nodup.mem_erase_iff (h.nodup c)).1 hs
          exact ⟨this.2, this.1⟩
        · rename_i e
          refine ⟨hs, fun e' => e ?_⟩
          subst e'
          have h1 := h.layer c s hs
          rw [h.layer b s hr] at h1
          exact (Option.some.inj h1).symm
      rw [if_neg hs'.2]
      exact h.layer c s hs'.1
    · split at hs
      · rename_i e; subst e; exact h.exist c s (List.mem_of_mem_erase hs)
      · exact h.exist c s hs

theorem Reachable.owned {env : Env} {w : World} (h : Reachable env w) : Owned w :=
  h.invariant (Owned.init env) Owned.prim

/-! ## Tiles: no tile can ever be put into a blueprint -/

theorem Reachable.noTiles {env : Env} {w : World} (h : Reachable env w) (b : BpId) :
    (w.bp b).tiles = [] := by
  refine h.invariant (I := fun w => ∀ b, (w.bp b).tiles = []) (fun _ => rfl) ?_ b
  intro w w' hw hp c
  have key : ∀ (b : BpId) (p : Bp), p.tiles = [] → ((w.setBp b p).bp c).tiles = [] := by
    intro b p hp
    rw [setBp_bp]
    split
    · exact hp
    · exact hw c
  cases hp with
  | ent r e he => exact hw c
  | env e => exact hw c
  | bp b p h1 h2 h3 _ =>
    refine key b p ?_
    rw [hw b] at h3
    exact List.length_eq_zero_iff.1 (Nat.le_zero.mp h3.1)
  | sort b =>
    by_cases e : c = b
    · subst e; rw [sort_bp_self]; exact hw c
    · rw [sort_bp_other e]; exact hw c
  | noConns b => exact key b _ (hw b)
  | addConn b r c' _ => exact key b _ (hw b)
  | orient b r => exact key b _ (hw b)
  | flip b i => exact key b _ (hw b)
  | flipColor b i _ => exact key b _ (hw b)
  | alloc l e _ => exact hw c
  | load b e he => exact key b _ (hw b)
  | add b r hr hl hn => exact key b _ (hw b)
  | drop b r hr => exact key b _ (hw b)

theorem Reachable.fourIcons {env : Env} {w : World} (h : Reachable env w) (b : BpId) :
    (w.bp b).icons.length ≤ 4 := by
  refine h.invariant (I := fun w => ∀ b, (w.bp b).icons.length ≤ 4) (fun _ => Nat.zero_le _) ?_ b
  intro w w' hw hp c
  have key : ∀ (b : BpId) (p : Bp), p.icons.length ≤ 4 → ((w.setBp b p).bp c).icons.length ≤ 4 := by
    intro b p hp
    rw [setBp_bp]
    split
    · exact hp
    · exact hw c
  cases hp with
  | ent r e he => exact hw c
  | env e => exact hw c
  | bp b p h1 h2 h3 _ =>
    refine key b p ?_
    rcases h3.2 with h | h
    · rw [h]; exact hw b
    · exact Nat.le_of_eq h
  | sort b =>
    by_cases e : c = b
    · subst e; rw [sort_bp_self]; exact hw c
    · rw [sort_bp_other e]; exact hw c
  | noConns b => exact key b _ (hw b)
  | addConn b r c' _ => exact key b _ (hw b)
  | orient b r => exact key b _ (hw b)
  | flip b i => exact key b _ (hw b)
  | flipColor b i _ => exact key b _ (hw b)
  | alloc l e _ => exact hw c
  | load b e he => exact key b _ (hw b)
  | add b r hr hl hn => exact key b _ (hw b)
  | drop b r hr => exact key b _ (hw b)

/-! ## Invariants of single entities -/

/-- A property of entities that holds for new ones and survives every call, renumbering and change of
layer holds for all entities of a reachable world. -/
theorem Reachable.entity {env : Env} {P : Entity → Prop} (h0 : P default)
    (hnew : ∀ env l e, IsNew env l e → P e) (heff : ∀ env e e', P e → EntEff true true env e e' → P e')
    (hauto : ∀ e n, P e → P { e with auto := n }) (hlayer : ∀ e l, P e → P { e with layer := l })
    {w : World} (h : Reachable env w) (r : Ref) : P (w.heap r) := by
  refine h.invariant (I := fun w => ∀ r, P (w.heap r)) (fun _ => h0) ?_ r
  intro w w' hw hp s
  have hset : ∀ r e, P e → P ((w.setEnt r e).heap s) := by
    intro r e he
    rw [setEnt_heap]
    split
    · exact he
    · exact hw s
  cases hp with
  | ent r e he => exact hset r e (heff _ _ _ (hw r) he)
  | env e => exact hw s
  | bp b p h1 h2 h3 _ => exact hw s
  | sort b => obtain ⟨n, hn⟩ := sort_heap w b s; rw [hn]; exact hauto _ _ (hw s)
  | noConns b => exact hw s
  | addConn b r c' _ => exact hw s
  | orient b r => exact hw s
  | flip b i => exact hw s
  | flipColor b i _ => exact hw s
  | alloc l e he => exact hset _ e (hnew _ _ _ he.isNew)
  | load b e he => exact hset _ e (hnew _ _ _ he.isNew)
  | add b r hr hl hn => exact hset r _ (hlayer _ _ (hw r))
  | drop b r hr => exact hset r _ (hlayer _ _ (hw r))

end Verif
