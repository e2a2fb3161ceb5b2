import Verif.Proofs.AssignTrip
import Verif.Proofs.Order
/-!
# Helper lemmas: an exported entity is read again
-/
set_option autoImplicit false

namespace Verif

/-! ## The classes of the prototype types -/

/-- What the rows of the table of prototype types have in common. -/
def GoodKlass (k : Klass) : Prop :=
  k.chain.Nodup ∧ ItemsLast k.chain ∧
  (CbPlain k.cbChain ∨
   (k.cbChain = [.Arithmetic, .Combinator] ∧ k.ctx.type = "arithmetic" ∧ k.ctx.operator = "operation" ∧
    k.ctx.options = some arithmeticOps) ∨
   (k.cbChain = [.Decider, .Combinator] ∧ k.ctx.type = "decider" ∧ k.ctx.operator = "comparator" ∧
    k.ctx.options = some deciderOps))

instance (k : Klass) : Decidable (GoodKlass k) := by unfold GoodKlass; infer_instance

theorem rows_good : ∀ p ∈ entityPrototypes, ∀ k, Klass.extend 0 Klass.entity p.2 = .ok k → GoodKlass k := by
  have h : (entityPrototypes.all fun p => match Klass.extend 0 Klass.entity p.2 with
    | .ok k => decide (GoodKlass k) | .error _ => true) = true := by decide +kernel
  intro p hp k hk
  have := List.all_eq_true.1 h p hp
  rw [hk] at this
  exact of_decide_eq_true this

/-- The class of an entity of the prototype type `ty`. -/
def TypeKlass (ty : String) (k : Klass) : Prop :=
  ∃ ms, prototypeMixins ty = some ms ∧ Klass.extend 0 Klass.entity ms = .ok k

theorem TypeKlass.good {ty : String} {k : Klass} (h : TypeKlass ty k) : GoodKlass k := by
  obtain ⟨ms, h1, h2⟩ := h
  exact rows_good (ty, ms) (mem_of_lookup h1) k h2

/-! ## The chain of mixins -/

theorem emitKeys_own (m : Mx) (hm : m ≠ .Rotatable) :
    ∀ k ∈ emitKeys m, k ∉ Entity.ownKeys ++ ["connections", "control_behavior"] := by
  cases m <;> first | exact absurd rfl hm | decide

theorem emitKeys_ne (m : Mx) (hm : m ≠ .Rotatable) : emitKeys m = mxKeys m := by
  cases m <;> first | exact absurd rfl hm | rfl

theorem chain_trip {env : Env} {sh : Bool} {lo : Exc} {ms : List Mx} {a : Kw} {dir : Direction} {obj0 obj kw : Dict}
    (hn : ms.Nodup) (hi : ItemsLast ms) (hmade : ∀ m ∈ ms, Made env sh m a)
    (he : emitChain env dir ms a obj0 = .ok obj)
    (h0 : ∀ k, Dict.get? obj0 k ≠ none → k ∈ Entity.ownKeys ++ ["connections", "control_behavior"])
    (h0' : Dict.get? obj0 "direction" = none)
    (hkw : ∀ k, Dict.get? kw k = if k ∈ Entity.ownKeys ++ ["connections", "control_behavior"] then none else Dict.get? obj k)
    (hf : .FilterInserter ∈ ms → KnownFilters env obj) :
    ∃ a', initChain env true sh lo ms false kw [] = .ok a' ∧
      ∀ m ∈ ms, m ≠ .Rotatable → ∀ dir', mxEmit env m (Dict.get? a') dir' = mxEmit env m a dir := by
  have ho : ∀ m ∈ ms, ∀ k ∈ emitKeys m, Dict.get? obj0 k = none := by
    intro m _ k hk
    cases hx : Dict.get? obj0 k with
    | none => rfl
    | some v =>
      by_cases hm : m = .Rotatable
      · subst hm
        rw [List.mem_singleton.1 hk, h0'] at hx
        cases hx
      · exact absurd (h0 k (by rw [hx]; exact fun h => by cases h)) (emitKeys_own m hm k hk)
  have hget := emitChain_get he hn ho
  have htrip : ∀ m ∈ ms, ∃ w, mxRead env true sh m (Dict.get? kw) = .ok w ∧
      (m ≠ .Rotatable → ∀ a' dir', (∀ k ∈ mxAttrs m, a' k = Dict.get? w k) → mxEmit env m a' dir' = mxEmit env m a dir) := by
    intro m hm
    by_cases hr : m = .Rotatable
    · subst hr
      exact ⟨[], rfl, fun h => absurd rfl h⟩
    · obtain ⟨out, ho, hg⟩ := hget m hm
      obtain ⟨w, hw, hx⟩ := trips hr (hmade m hm) ho (by
        rintro rfl fs hfs
        refine hf hm fs ?_
        rw [hg _ (by decide)]
        exact hfs)
      refine ⟨w, ?_, fun _ a' dir' h => ?_⟩
      · rw [← hw]
        refine mxRead_congr (fun k hk => ?_)
        rw [← emitKeys_ne m hr] at hk
        rw [hkw, if_neg (emitKeys_own m hr k hk), hg k hk]
      · rw [ho]
        exact hx a' dir' h
  obtain ⟨a', e, hx⟩ := initChain_trip (env := env) (sh := sh) (lo := lo) (a := []) (kw := kw)
    (w := fun m => (mxRead env true sh m (Dict.get? kw)).toOption.getD []) hn hi
    (fun m hm => by
      obtain ⟨w, hw, -⟩ := htrip m hm
      rw [hw]
      rfl)
    (fun k hk => by
      rw [hkw] at hk
      split at hk
      · exact absurd rfl hk
      · rename_i hkn
        rcases emitChain_keys he hk with h | ⟨m, hm, hkm⟩
        · exact absurd (h0 k h) hkn
        · refine ⟨m, hm, ?_⟩
          by_cases hr : m = .Rotatable
          · subst hr
            rw [List.mem_singleton.1 hkm] at hkn
            exact absurd (by decide) hkn
          · rwa [← emitKeys_ne m hr])
    (fun _ _ _ _ => rfl)
  refine ⟨a', e, fun m hm hr dir' => ?_⟩
  obtain ⟨w, hw, h⟩ := htrip m hm
  refine h hr _ _ (fun k hk => ?_)
  rw [hx m hm k hk, hw]
  rfl

/-! ## The control behaviour -/

/-- The constant operands that the code cannot read back: the first operand of a circuit condition, and the
second and the output operand of a decider combinator. -/
def ReadableOperands (c : Cb) : Prop :=
  (.CircuitCondition ∈ c.chain → ¬ IsConst ((Dict.get? c.attrs "first").getD .none)) ∧
  (.Decider ∈ c.chain → ¬ IsConst ((Dict.get? c.attrs "second").getD .none) ∧
    ¬ IsConst ((Dict.get? c.attrs "output").getD .none))

theorem noFirstConstant {env : Env} {a : Kw} {out : Dict} (h : cbEmit env .CircuitCondition a = .ok out)
    (hc : ¬ IsConst (a.orNone "first")) : NoFirstConstant out := by
  intro c hx
  unfold cbEmit at h
  dsimp only at h
  simp only [bind_eq_ok, pure_eq_ok, Except.ok.injEq] at h
  obtain ⟨f, hf, s, hs, rfl⟩ := h
  have hf' : Dict.get? f "first_constant" = none := by
    unfold operandJson at hf
    split at hf
    · cases hf; rfl
    · rename_i z hz
      exact absurd ⟨z, hz⟩ hc
    · simp only [bind_eq_ok, pure_eq_ok, Except.ok.injEq] at hf
      obtain ⟨j, -, rfl⟩ := hf
      rfl
  have hs' : Dict.get? s "first_constant" = none := by
    unfold operandJson at hs
    split at hs
    · cases hs; rfl
    · cases hs; rfl
    · simp only [bind_eq_ok, pure_eq_ok, Except.ok.injEq] at hs
      obtain ⟨j, -, rfl⟩ := hs
      rfl
  split at hx
  · cases hx
  · have e : c = objSet "comparator" (a.orNone "comparator") ++ f ++ s := by
      rw [get_single, if_pos rfl] at hx
      injection hx with hx
      injection hx with hx
      exact hx.symm
    rw [e, get_append, get_append, hf', hs', get_objSet]
    rfl

theorem CbPlain.not_mem {ms : List Mx} (h : CbPlain ms) : .Combinator ∉ ms := by
  induction ms with
  | nil => exact List.not_mem_nil
  | cons m ms ih =>
    intro hm
    rcases List.mem_cons.1 hm with rfl | hm
    · exact h.1 rfl
    · exact ih h.2.2.2.2 hm

theorem cb_trip_all {env : Env} {k : Klass} {c : Cb} {lo' : Exc} {obj : Dict} (hg : GoodKlass k)
    (hch : c.chain = k.cbChain) (hctx : c.ctx = k.ctx)
    (h : CbShape env c.ctx c.chain c.attrs)
    (he : cbEmitChain env c.ctx c.chain (Dict.get? c.attrs) [] = .ok obj) (hr : ReadableOperands c) :
    ∃ a', cbInitChain env k.ctx lo' k.cbChain obj [] = .ok a' ∧
      cbEmitChain env k.ctx k.cbChain (Dict.get? a') [] = .ok obj ∧
      (.Combinator ∈ k.cbChain → SameOperands c.attrs a') := by
  rw [hch, hctx] at h he
  unfold ReadableOperands at hr
  rw [hch] at hr
  rcases hg.2.2 with hp | ⟨hk, ht, ho, hos⟩ | ⟨hk, ht, ho, hos⟩
  · obtain ⟨a', h1, h2⟩ := cb_trip (lo' := lo') hp (h.1 hp) he (fun hm => by
      obtain ⟨out, h1, h2⟩ := cbEmitChain_get hp he (fun _ _ _ _ => rfl) _ hm
      intro x hx
      refine noFirstConstant h1 (hr.1 hm) x ?_
      rw [← h2 _ (by decide)]
      exact hx)
    exact ⟨a', h1, h2, fun hm => absurd hm hp.not_mem⟩
  · rw [hk] at h he ⊢
    obtain ⟨a', h1, h2, h3⟩ := arithmetic_trip ht ho hos (h.2.1 rfl _ hos) he (lo' := lo')
    exact ⟨a', h1, h2, fun _ => h3⟩
  · rw [hk] at h he hr ⊢
    obtain ⟨a', h1, h2, h3⟩ := decider_trip ht ho hos (h.2.2 rfl _ hos) he (hr.2 (by decide)).1 (hr.2 (by decide)).2 (lo' := lo')
    exact ⟨a', h1, h2, fun _ => h3⟩

/-- A combinator always exports its conditions. -/
theorem combinator_nonempty {env : Env} {ctx : CbCtx} {ms : List Mx} {a : Kw} {obj obj' : Dict}
    (h : cbEmitChain env ctx ms a obj = .ok obj') (hm : .Combinator ∈ ms) (hl : ∀ m ∈ ms, m = .Arithmetic ∨ m = .Decider ∨ m = .Combinator)
    (hnd : ms.getLast? = some .Combinator) : obj'.isEmpty = false := by
  induction ms generalizing obj with
  | nil => cases hnd
  | cons m ms ih =>
    unfold cbEmitChain at h
    split at h
    · cases h
    · rename_i o ho
      cases ms with
      | nil =>
        cases hnd
        cases h
        change combinatorEmit env ctx a obj = _ at ho
        unfold combinatorEmit at ho
        have : ∃ v, obj' = Dict.set obj ctx.field v := by
          simp only [bind_eq_ok, pure_eq_ok, Except.ok.injEq] at ho
          obtain ⟨_, -, _, -, _, -, _, -, _, -, rfl⟩ := ho
          exact ⟨_, rfl⟩
        obtain ⟨v, rfl⟩ := this
        cases obj with
        | nil => rfl
        | cons p d => show List.isEmpty (if _ then _ else _) = false; split <;> rfl
      | cons n ms =>
        rw [List.getLast?_cons_cons] at hnd
        exact ih h (List.mem_of_getLast? hnd) (fun x hx => hl x (List.mem_cons_of_mem _ hx)) hnd

theorem GoodKlass.nonempty {env : Env} {k : Klass} {a : Kw} {obj : Dict} (hg : GoodKlass k) (hm : .Combinator ∈ k.cbChain)
    (h : cbEmitChain env k.ctx k.cbChain a [] = .ok obj) : obj.isEmpty = false := by
  rcases hg.2.2 with hp | ⟨hk, -⟩ | ⟨hk, -⟩
  · exact absurd hm hp.not_mem
  · exact combinator_nonempty h hm (by rw [hk]; decide) (by rw [hk]; rfl)
  · exact combinator_nonempty h hm (by rw [hk]; decide) (by rw [hk]; rfl)

theorem cbEmit1_get {env : Env} {ctx : CbCtx} {m : Mx} {a : Kw} {obj obj' : Dict} {k : String}
    (h : cbEmit1 env ctx m a obj = .ok obj') (hk : k ∉ cbKeys m) (hf : k ≠ ctx.field) :
    Dict.get? obj' k = Dict.get? obj k := by
  by_cases h1 : m = .Combinator
  · subst h1
    change combinatorEmit env ctx a obj = _ at h
    unfold combinatorEmit at h
    simp only [bind_eq_ok, pure_eq_ok, Except.ok.injEq] at h
    obtain ⟨_, _, _, _, _, _, _, _, _, _, rfl⟩ := h
    exact get_set_ne hf
  by_cases h2 : m = .Decider
  · subst h2
    change deciderEmit ctx a obj = _ at h
    unfold deciderEmit at h
    dsimp only at h
    split at h <;>
    · simp only [bind_eq_ok, pure_eq_ok, Except.ok.injEq] at h
      obtain ⟨_, _, _, _, rfl⟩ := h
      exact get_set_ne hf
  rw [cbEmit1_plain h1 h2] at h
  simp only [bind_eq_ok, pure_eq_ok, Except.ok.injEq] at h
  obtain ⟨out, ho, rfl⟩ := h
  refine get_setAll_not ?_
  exact cbEmit_keys ho hk

theorem cbEmitChain_get' {env : Env} {ctx : CbCtx} {ms : List Mx} {a : Kw} {obj obj' : Dict} {k : String}
    (h : cbEmitChain env ctx ms a obj = .ok obj') (hk : ∀ m, k ∉ cbKeys m) (hf : k ≠ ctx.field) :
    Dict.get? obj' k = Dict.get? obj k := by
  induction ms generalizing obj with
  | nil => cases h; rfl
  | cons m ms ih =>
    unfold cbEmitChain at h
    split at h
    · cases h
    · rename_i o ho
      rw [ih h, cbEmit1_get ho (hk m) hf]

theorem field_ne (ctx : CbCtx) (k : String) (hk : k.toList.getLast? ≠ some 's') : k ≠ ctx.field := by
  rintro rfl
  apply hk
  unfold CbCtx.field
  rw [String.toList_append, List.getLast?_append]
  rfl

/-! ## Entities -/

/-- The class of an entity of the prototype type `ty` with the additional mixins `cs`. -/
def CustomKlass (cs : List Mx) (ty : String) (k : Klass) : Prop :=
  GoodKlass k ∧ ∃ ms, prototypeMixins ty = some ms ∧ Klass.extend 0 Klass.entity (cs ++ ms) = .ok k

theorem CustomKlass.typeKlass {ty : String} {k : Klass} (h : CustomKlass [] ty k) : TypeKlass ty k := h.2

/-- A strict entity whose settings were accepted by its class; `P` says which class. -/
structure SolidP (P : Env → String → Klass → Prop) (env : Env) (e : Entity) : Prop where
  strict : e.strict = true
  typed : P env e.name e.klass
  made : ∀ m ∈ e.klass.chain, Made env e.klass.insFiltersShadowed m (Dict.get? e.attrs)
  cb : ∀ c, e.cb = some c → c.chain = e.klass.cbChain ∧ c.ctx = e.klass.ctx ∧
    CbShape env c.ctx c.chain c.attrs
  dir : 0 ≤ e.dir.n ∧ e.dir.n < 8

/-- The class of the prototype type of this name with the additional mixins `cs`. -/
def NamedKlass (cs : List Mx) (env : Env) (name : String) (k : Klass) : Prop :=
  ∃ data ty, Dict.get? env.entities name = some data ∧ data.subscript "type" = .ok (.str ty) ∧ CustomKlass cs ty k

/-- The entity has the class of its prototype type with the additional mixins `cs`. -/
abbrev SolidIn (cs : List Mx) (env : Env) (e : Entity) : Prop := SolidP (NamedKlass cs) env e

/-- The same without additional mixins. -/
abbrev Solid (env : Env) (e : Entity) : Prop := SolidIn [] env e

theorem SolidP.named {P Q : Env → String → Klass → Prop} {env : Env} {e : Entity} (h : SolidP P env e)
    (hq : Q env e.name e.klass) : SolidP Q env e := ⟨h.strict, hq, h.made, h.cb, h.dir⟩

theorem SolidIn.good {cs : List Mx} {env : Env} {e : Entity} (h : SolidIn cs env e) : GoodKlass e.klass := by
  obtain ⟨_, _, -, -, h⟩ := h.typed
  exact h.1

theorem SolidP.seen {P : Env → String → Klass → Prop} {env : Env} {e : Entity} {b : Cb} (h : SolidP P env e) (hb : e.cb = some b) : b.seenBy e.klass = b := by
  obtain ⟨-, h2, -⟩ := h.cb b hb
  cases b
  dsimp only at h2
  subst h2
  rfl

/-- A new strict entity. -/
theorem SolidP.new {P : Env → String → Klass → Prop} {env : Env} {custom : Option Custom} {layer : Option BpId} {kw : Dict}
    {e : Entity} (h : Entity.new env custom layer kw = .ok e) (hs : e.strict = true) (hn : e.klass.chain.Nodup)
    (hp : P env e.name e.klass) : SolidP P env e := by
  obtain ⟨-, -, name, position, number, e', h1, h2, h3, h4, h5⟩ := Entity.new_ok.1 h
  obtain ⟨pos, dir, cb, a, h6, h7, h8, h9, rfl⟩ := Entity.finish_ok.1 h5
  obtain ⟨s, rfl, ⟨hs', rfl⟩ | ⟨hs', data, t, ms, k, g1, g2, g3, g4, rfl⟩⟩ := Entity.setName_ok h4
  · have hs : (Entity.raw0 layer kw number).strict = true := hs
    rw [hs'] at hs
    cases hs
  have hs'' : (Entity.raw0 layer kw number).strict = true := hs'
  refine ⟨hs'', hp, ?_, ?_, Direction.ofVal_range h7⟩
  · have h9' : initChain env true k.insFiltersShadowed (leftoverExc env s) k.chain false
        (eraseKeys kw (Entity.ownKeys ++ ["connections", "control_behavior"])) [] = .ok a := by
      rw [← hs'']; exact h9
    exact initChain_made h9' hn (fun _ _ _ _ => rfl)
  · rintro c hcb
    have hcb : cb = some c := hcb
    subst hcb
    unfold Entity.cbOf at h8
    split at h8
    · simp only [bind_eq_ok, pure_eq_ok, Except.ok.injEq, Option.some.injEq] at h8
      obtain ⟨c', hnew, rfl⟩ := h8
      exact Cb.new_shape hnew
    · cases h8

/-- A new strict entity of a type with custom mixins `cs`. -/
theorem SolidIn.new {cs : List Mx} {env : Env} {custom : Option Custom} {layer : Option BpId} {kw : Dict} {e : Entity}
    (h : Entity.new env custom layer kw = .ok e) (hs : e.strict = true)
    (hc : ∀ data ty, Dict.get? env.entities e.name = some data → data.subscript "type" = .ok (.str ty) →
      ((custom.getD []).lookup ty).getD [] = cs)
    (hg : ∀ ty ms, prototypeMixins ty = some ms → Klass.extend 0 Klass.entity (cs ++ ms) = .ok e.klass → GoodKlass e.klass) :
    SolidIn cs env e := by
  have hk : NamedKlass cs env e.name e.klass := by
    obtain ⟨-, -, name, position, number, e', h1, h2, h3, h4, h5⟩ := Entity.new_ok.1 h
    obtain ⟨pos, dir, cb, a, h6, h7, h8, h9, rfl⟩ := Entity.finish_ok.1 h5
    obtain ⟨s, rfl, ⟨hs', rfl⟩ | ⟨hs', data, t, ms, k, g1, g2, g3, g4, rfl⟩⟩ := Entity.setName_ok h4
    · have hs : (Entity.raw0 layer kw number).strict = true := hs
      rw [hs'] at hs
      cases hs
    unfold mixinsFor at g3
    split at g3
    · rename_i ty
      split at g3
      · cases g3
      · rename_i ms' hm
        have : ((custom.getD []).lookup ty).getD [] = cs := hc data ty g1 g2
        rw [this] at g3
        cases g3
        exact ⟨data, ty, g1, g2, hg ty ms' hm g4, ms', hm, g4⟩
    · split at g3 <;> cases g3
  obtain ⟨_, _, -, -, hg, -⟩ := id hk
  exact SolidP.new h hs hg.1 hk

theorem Solid.new {env : Env} {custom : Option Custom} {layer : Option BpId} {kw : Dict} {e : Entity}
    (h : Entity.new env custom layer kw = .ok e) (hs : e.strict = true)
    (hc : ∀ data ty, Dict.get? env.entities e.name = some data → data.subscript "type" = .ok (.str ty) →
      ((custom.getD []).lookup ty).getD [] = []) : Solid env e :=
  SolidIn.new h hs hc (fun ty ms h1 h2 => rows_good (ty, ms) (mem_of_lookup h1) _ h2)

theorem Made.ori {env : Env} {sh : Bool} {m : Mx} {a : Attrs} {v o : Val} (h : Made env sh m (Dict.get? a))
    (ho : orientationSet v = .ok o) : Made env sh m (Dict.get? (Dict.set a "orientation" o)) := by
  by_cases hm : "orientation" ∈ mxAttrs m
  · have : m = .Train := mxAttrs_disjoint hm (by decide)
    subst this
    refine ⟨fun _ => some v, [("orientation", o)], ?_, ?_⟩
    · show (do return [("orientation", ← orientationSet v)]) = _
      rw [ho]
      rfl
    · intro k hk
      rw [List.mem_singleton.1 hk, get_set_self]
      rfl
  · obtain ⟨g, w, h1, h2⟩ := h
    refine ⟨g, w, h1, fun k hk => ?_⟩
    rw [get_set_ne (by rintro rfl; exact hm hk), h2 k hk]

/-- The settings of an entity relevant here. -/
def SolidP.core (e : Entity) : Bool × String × Klass × Option Cb := (e.strict, e.name, e.klass, e.cb)

theorem SolidP.update {P : Env → String → Klass → Prop} {env : Env} {e e' : Entity} (h : SolidP P env e) (hc : SolidP.core e' = SolidP.core e)
    (hd : 0 ≤ e'.dir.n ∧ e'.dir.n < 8)
    (ha : e'.attrs = e.attrs ∨ ∃ v o, orientationSet v = .ok o ∧ e'.attrs = Dict.set e.attrs "orientation" o) :
    SolidP P env e' := by
  unfold SolidP.core at hc
  simp only [Prod.mk.injEq] at hc
  obtain ⟨h1, h2, h3, h4⟩ := hc
  refine ⟨h1.trans h.strict, by rw [h2, h3]; exact h.typed, ?_, by rw [h3, h4]; exact h.cb, hd⟩
  rw [h3]
  intro m hm
  rcases ha with ha | ⟨v, o, ho, ha⟩
  · rw [ha]; exact h.made m hm
  · rw [ha]; exact (h.made m hm).ori ho

theorem SolidP.rotateChain {P : Env → String → Klass → Prop} {env : Env} {e : Entity} (n : Int) (ms : List Mx) (h : SolidP P env e) :
    SolidP P env (Entity.rotateChain n ms e).2 := by
  fun_induction Entity.rotateChain n ms e with
  | case1 e => exact h
  | case2 e ms ih => exact ih (h.update rfl (Direction.new_range _) (.inl rfl))
  | case3 ms e x hx => exact h
  | case4 ms e e' hx ih =>
    refine ih ?_
    unfold Entity.rotateOrientation at hx
    split at hx
    · cases hx
    · split at hx
      · cases hx
      · simp only [bind_eq_ok, pure_eq_ok, Except.ok.injEq] at hx
        obtain ⟨_, _, o, ho, rfl⟩ := hx
        exact h.update rfl h.dir (.inr ⟨_, o, ho, rfl⟩)
  | case5 _ _ _ _ _ ih => exact ih h

/-- Calls other than renaming keep this. -/
theorem SolidP.eff {P : Env → String → Klass → Prop} {env : Env} {e e' : Entity} (h : SolidP P env e) (he : EntEff false true env e e') : SolidP P env e' := by
  cases he with
  | rotate n a d =>
    unfold Entity.rotate
    split
    · exact h
    · dsimp only
      split
      · exact h
      · exact SolidP.rotateChain _ _ (h.update rfl h.dir (.inl rfl))
  | setName c v hn => cases hn
  | setPos p => exact h.update rfl h.dir (.inl rfl)
  | setDir v d hd => exact h.update rfl (Direction.ofVal_range hd) (.inl rfl)
  | setClass base ms k hb hk hn => cases hn
  | setNumber n => exact h.update rfl h.dir (.inl rfl)
  | setOri v o ho ht => exact h.update rfl h.dir (.inr ⟨v, o, ho, rfl⟩)
  | setAttr k v =>
    unfold Entity.setAttr
    split
    · exact h
    · rename_i m hm
      split
      · refine ⟨h.strict, h.typed, fun m' hm' => ?_, h.cb, h.dir⟩
        show Made env _ m' (Dict.get? (setAll e.attrs (mxAssign env e.strict e.klass.insFiltersShadowed k v).2))
        rw [h.strict]
        exact made_assign v hm (h.made m' hm')
      · exact h
  | setControl k v =>
    unfold Entity.setControl
    split
    · exact h
    · rename_i c hc
      refine ⟨h.strict, h.typed, h.made, ?_, h.dir⟩
      rintro c' hc'
      have hc' : some (c.setAttr env k v).2 = some c' := hc'
      injection hc' with hc'
      subst hc'
      obtain ⟨h1, h2, h3⟩ := h.cb c hc
      exact ⟨(Cb.setAttr_frame env c k v).1.trans h1, (Cb.setAttr_frame env c k v).2.trans h2, h3.setAttr⟩
  | newControl v =>
    unfold Entity.newControl
    split
    · exact h
    · rename_i c hc
      refine ⟨h.strict, h.typed, h.made, ?_, h.dir⟩
      rintro c' hc'
      have hc' : some c = some c' := hc'
      injection hc' with hc'
      subst hc'
      exact Cb.new_shape hc

/-- The names of the filters exported by a filter inserter are in the table. -/
def ReadableFilters (env : Env) (out : Dict) (e : Entity) : Prop := .FilterInserter ∈ e.klass.chain → KnownFilters env out

theorem emitRest_ok {env : Env} {e : Entity} {obj out : Dict} :
    e.emitRest env obj = .ok out ↔ ∃ obj1, emitChain env e.dir e.klass.chain (Dict.get? e.attrs) obj = .ok obj1 ∧
      ((e.cb = none ∧ out = obj1) ∨
       ∃ c d, e.cb = some c ∧ cbEmitChain env (c.seenBy e.klass).ctx c.chain (Dict.get? c.attrs) [] = .ok d ∧
         out = if d.isEmpty then obj1 else Dict.set obj1 "control_behavior" (.dict d)) := by
  unfold Entity.emitRest Cb.toJson
  simp only [bind_eq_ok]
  constructor
  · rintro ⟨o, h1, h2⟩
    refine ⟨o, h1, ?_⟩
    split at h2
    · rename_i hc
      cases h2
      exact .inl ⟨hc, rfl⟩
    · rename_i c hc
      simp only [bind_eq_ok, pure_eq_ok, Except.ok.injEq] at h2
      obtain ⟨x, ⟨d, hd, rfl⟩, h2⟩ := h2
      refine .inr ⟨c, d, hc, hd, ?_⟩
      split at h2
      · rename_i hx
        cases h2
        split at hx
        · rename_i hy; rw [if_pos hy]
        · cases hx
      · rename_i hx
        cases h2
        split at hx
        · cases hx
        · rename_i hy
          cases hx
          rw [if_neg hy]
  · rintro ⟨o, h1, ⟨hc, rfl⟩ | ⟨c, d, hc, hd, rfl⟩⟩
    · exact ⟨_, h1, by rw [hc]; rfl⟩
    · refine ⟨o, h1, ?_⟩
      rw [hc]
      dsimp only [Cb.seenBy] at hd ⊢
      rw [hd]
      show (do let x ← Except.ok (if List.isEmpty d then none else some d); _) = _
      split <;> rfl

theorem emitRest_congr {env : Env} {e e' : Entity} {obj : Dict}
    (h1 : emitChain env e'.dir e'.klass.chain (Dict.get? e'.attrs) obj = emitChain env e.dir e.klass.chain (Dict.get? e.attrs) obj)
    (h2 : (e'.cb.elim (.ok none) (fun c => (c.seenBy e'.klass).toJson env)) = (e.cb.elim (.ok none) (fun c => (c.seenBy e.klass).toJson env))) :
    e'.emitRest env obj = e.emitRest env obj := by
  unfold Entity.emitRest
  rw [h1]
  cases emitChain env e.dir e.klass.chain (Dict.get? e.attrs) obj with
  | error x => rfl
  | ok o =>
    have key : ∀ (k : Klass) (x : Option Cb), (match x with
      | none => Except.ok o
      | some c => do match ← (c.seenBy k).toJson env with
        | none => return o
        | some d => return Dict.set o "control_behavior" (.dict d)) =
        (do match ← x.elim (.ok none) (fun c => (c.seenBy k).toJson env) with
        | none => return o
        | some d => return Dict.set o "control_behavior" (.dict d)) := by
      intro k x
      cases x <;> rfl
    refine (key e'.klass e'.cb).trans (Eq.trans ?_ (key e.klass e.cb).symm)
    rw [h2]

/-- The part of an exported entity before the settings. -/
def baseObj (e : Entity) (c : Option Val) : Dict :=
  [("entity_number", autoVal e.auto), ("name", .str e.name), ("position", e.pos.toJson)] ++
    (match c with | none => [] | some v => [("connections", v)])

theorem numberOf_auto (n : Option Int) : Entity.numberOf (autoVal n) = .ok n := by
  cases n <;> rfl

theorem baseObj_get (e : Entity) (c : Option Val) (k : String) : Dict.get? (baseObj e c) k =
    if k = "entity_number" then some (autoVal e.auto) else if k = "name" then some (.str e.name)
    else if k = "position" then some e.pos.toJson else if k = "connections" then c else none := by
  unfold baseObj Dict.get?
  cases c <;> simp only [List.cons_append, List.nil_append, lookup_cons_if, List.lookup_nil, ite_self]

theorem Cb.new_of {env : Env} {lo : Exc} {k : Klass} {d : Dict} {a : Attrs} (h1 : Dict.mem d "self" = false)
    (h2 : Dict.mem d "_entity" = false) (ha : cbInitChain env k.ctx lo k.cbChain d [] = .ok a) :
    Cb.new env lo k (.dict d) = .ok ⟨k.cbChain, k.ctx, a⟩ := by
  unfold Cb.new
  simp only [Val.kwargs, ok_bind, h1, h2, Bool.or_self, Bool.false_eq_true, if_false, ha]
  rfl

/-- Importing the exported settings of an entity succeeds, and they are exported again. -/
theorem SolidIn.trip {cs : List Mx} {env : Env} {e : Entity} {c : Option Val} {out : Dict} {custom : Option Custom} (layer : Option BpId)
    (h : SolidIn cs env e) (he : e.emitRest env (baseObj e c) = .ok out)
    (hr : ∀ b, e.cb = some b → ReadableOperands b) (hf : ReadableFilters env out e)
    (hc : ∀ data ty, Dict.get? env.entities e.name = some data → data.subscript "type" = .ok (.str ty) →
      ((custom.getD []).lookup ty).getD [] = cs) :
    ∃ e', Entity.new env custom layer out = .ok e' ∧ e'.layer = layer ∧ e'.name = e.name ∧ e'.pos = e.pos ∧
      e'.number = e.auto ∧ e'.auto = e.auto ∧ e'.strict = true ∧ e'.klass = e.klass ∧ e'.raw = c.getD .none ∧
      (.Rotatable ∈ e.klass.chain → e'.dir = e.dir) ∧ (∀ obj, e'.emitRest env obj = e.emitRest env obj) ∧
      (.Combinator ∈ e.klass.cbChain → ∀ b, e.cb = some b → ∃ b', e'.cb = some b' ∧ SameOperands b.attrs b'.attrs) := by
  obtain ⟨data, ty, hd, hty, hk⟩ := h.typed
  obtain ⟨-, ms, hms, hext⟩ := hk
  obtain ⟨obj1, h1, h2⟩ := emitRest_ok.1 he
  replace h2 : (e.cb = none ∧ out = obj1) ∨
      ∃ c d, e.cb = some c ∧ cbEmitChain env c.ctx c.chain (Dict.get? c.attrs) [] = .ok d ∧
        out = if d.isEmpty then obj1 else Dict.set obj1 "control_behavior" (.dict d) := by
    rcases h2 with h2 | ⟨b, d, hb, hd, ho⟩
    · exact .inl h2
    · rw [h.seen hb] at hd
      exact .inr ⟨b, d, hb, hd, ho⟩
  -- lookups in the exported object
  have hcbk : ∀ m : Mx, "control_behavior" ∉ emitKeys m := by intro m; cases m <;> decide
  have hout : ∀ k, k ≠ "control_behavior" → Dict.get? out k = Dict.get? obj1 k := by
    intro k hk
    rcases h2 with ⟨-, rfl⟩ | ⟨b, d, -, -, rfl⟩
    · rfl
    · split
      · rfl
      · exact get_set_ne hk
  have hobj : ∀ k, (∀ m ∈ e.klass.chain, k ∉ emitKeys m) → Dict.get? obj1 k = Dict.get? (baseObj e c) k :=
    fun k hk => emitChain_lookup h1 hk
  have own : ∀ k ∈ ["entity_number", "name", "position", "connections", "strict", "self", "blueprint_layer"],
      Dict.get? out k = Dict.get? (baseObj e c) k := by
    intro k hk
    rw [hout k (by rintro rfl; exact absurd hk (by decide))]
    refine hobj k (fun m _ hm => ?_)
    have : ∀ k ∈ emitKeys m, k ∉ ["entity_number", "name", "position", "connections", "strict", "self", "blueprint_layer"] := by
      cases m <;> decide
    exact this k hm hk
  have hname : Dict.get? out "name" = some (.str e.name) := by rw [own _ (by decide), baseObj_get]; rfl
  have hpos : Dict.get? out "position" = some e.pos.toJson := by rw [own _ (by decide), baseObj_get]; rfl
  have hnum : Dict.getD out "entity_number" .none = autoVal e.auto := by
    unfold Dict.getD; rw [own _ (by decide), baseObj_get]; rfl
  have hconn : Dict.getD out "connections" .none = c.getD .none := by
    unfold Dict.getD; rw [own _ (by decide), baseObj_get]; rfl
  have hstrict : Dict.getD out "strict" (.bool true) = .bool true := by
    unfold Dict.getD; rw [own _ (by decide), baseObj_get]; rfl
  have hself : Dict.mem out "self" = false := by
    unfold Dict.mem; rw [own _ (by decide), baseObj_get]; rfl
  have hbl : Dict.mem out "blueprint_layer" = false := by
    unfold Dict.mem; rw [own _ (by decide), baseObj_get]; rfl
  -- the direction
  have hdir : ∃ dir', Direction.ofVal (Dict.getD out "direction" (.int 0)) = .ok dir' ∧
      (.Rotatable ∈ e.klass.chain → dir' = e.dir) := by
    by_cases hrot : .Rotatable ∈ e.klass.chain
    · obtain ⟨o, ho, hg⟩ := emitChain_get h1 h.good.1 (fun m hm k hk => by
        rw [baseObj_get]
        have : ∀ k ∈ emitKeys m, k ∉ ["entity_number", "name", "position", "connections"] := by cases m <;> decide
        have := this k hk
        simp only [List.mem_cons, List.not_mem_nil, or_false, not_or] at this
        obtain ⟨n1, n2, n3, n4⟩ := this
        rw [if_neg n1, if_neg n2, if_neg n3, if_neg n4]) _ hrot
      have e1 : Dict.get? out "direction" = Dict.get? o "direction" := by
        rw [hout _ (by decide), hg _ (by decide)]
      unfold Dict.getD
      rw [e1]
      cases ho
      by_cases hu : e.dir.isUp = true
      · rw [if_pos hu]
        refine ⟨⟨0⟩, rfl, fun _ => ?_⟩
        have : e.dir.n = 0 := by simpa [Direction.isUp] using hu
        cases hdd : e.dir
        rw [hdd] at this
        cases this
        rfl
      · rw [if_neg hu]
        refine ⟨e.dir, ?_, fun _ => rfl⟩
        show Except.ok (Direction.new e.dir.n) = _
        unfold Direction.new
        have := Int.emod_eq_of_lt h.dir.1 h.dir.2
        rw [this]
    · refine ⟨⟨0⟩, ?_, fun hh => absurd hh hrot⟩
      have e1 : Dict.get? out "direction" = none := by
        rw [hout _ (by decide), hobj, baseObj_get]
        · rfl
        · intro m hm hk
          have : ∀ m : Mx, "direction" ∈ emitKeys m → m = .Rotatable := by intro m; cases m <;> decide
          exact hrot (this m hk ▸ hm)
      unfold Dict.getD
      rw [e1]
      rfl
  obtain ⟨dir', hdir1, hdir2⟩ := hdir
  -- the class
  have hset : Entity.setName env custom (Entity.raw0 layer out e.auto) (.str e.name) =
      (.ok (), { Entity.raw0 layer out e.auto with name := e.name, klass := e.klass, depth := 1 }) := by
    have hs : (Entity.raw0 layer out e.auto).strict = true := by
      unfold Entity.raw0
      rw [hstrict]
      rfl
    have hmix : mixinsFor custom (.str ty) = .ok (cs ++ ms) := by
      unfold mixinsFor
      dsimp only
      rw [hms, hc data ty hd hty]
    unfold Entity.setName
    rw [hs]
    simp only [Bool.not_true, Bool.false_eq_true, if_false]
    rw [hd]
    dsimp only
    rw [hty]
    dsimp only
    rw [hmix]
    dsimp only
    have hx : Klass.extend (Entity.raw0 layer out e.auto).depth (Entity.raw0 layer out e.auto).klass (cs ++ ms) = .ok e.klass := hext
    rw [hx, hs]
    rfl
  -- the control behaviour
  have hcb : ∃ cb', Entity.cbOf env { Entity.raw0 layer out e.auto with name := e.name, klass := e.klass, depth := 1 } out = .ok cb' ∧
      (cb'.elim (.ok none) (fun c => (c.seenBy e.klass).toJson env)) =
        (e.cb.elim (.ok none) (fun c => (c.seenBy e.klass).toJson env)) ∧
      (.Combinator ∈ e.klass.cbChain → ∀ b, e.cb = some b → ∃ b', cb' = some b' ∧ SameOperands b.attrs b'.attrs) := by
    have hno : Dict.get? obj1 "control_behavior" = none := by
      rw [hobj _ (fun m _ => hcbk m), baseObj_get]; rfl
    unfold Entity.cbOf
    rcases h2 with ⟨hn, rfl⟩ | ⟨b, d, hb, hd', rfl⟩
    · rw [hno, hn]
      exact ⟨none, rfl, rfl, fun _ _ h => by cases h⟩
    · have hjson : (b.seenBy e.klass).toJson env = .ok (if d.isEmpty then none else some d) := by
        rw [h.seen hb]
        unfold Cb.toJson
        rw [hd']
        rfl
      rw [hb]
      dsimp only [Option.elim]
      rw [hjson]
      by_cases hemp : d.isEmpty = true
      · rw [if_pos hemp, if_pos hemp, hno]
        refine ⟨none, rfl, rfl, fun hm => ?_⟩
        obtain ⟨b1, b2, -⟩ := h.cb b hb
        rw [b1, b2] at hd'
        rw [h.good.nonempty hm hd'] at hemp
        cases hemp
      · rw [if_neg hemp, if_neg hemp, get_set_self]
        obtain ⟨b1, b2, b3⟩ := h.cb b hb
        obtain ⟨a', ha1, ha2, ha3⟩ := cb_trip_all (lo' := leftoverExc env e.name) h.good b1 b2 b3 hd' (hr b hb)
        have hks : ∀ k, k ∈ ["self", "_entity"] → Dict.mem d k = false := by
          intro k hk
          unfold Dict.mem
          rw [cbEmitChain_get' hd' (k := k)]
          · rfl
          · intro m hm
            have : ∀ k ∈ cbKeys m, k ∉ ["self", "_entity"] := by cases m <;> decide
            exact this k hm hk
          · refine field_ne _ _ ?_
            simp only [List.mem_cons, List.not_mem_nil, or_false] at hk
            rcases hk with rfl | rfl <;> decide
        refine ⟨some ⟨e.klass.cbChain, e.klass.ctx, a'⟩, ?_, ?_, fun hm c hc => ?_⟩
        · dsimp only
          rw [Cb.new_of (hks _ (by decide)) (hks _ (by decide)) ha1]
          rfl
        · dsimp only [Option.elim]
          unfold Cb.toJson
          dsimp only [Cb.seenBy]
          rw [ha2]
          show Except.ok (if d.isEmpty then none else some d) = _
          rw [if_neg hemp]
        · cases hc
          exact ⟨_, rfl, ha3 hm⟩
  obtain ⟨cb', hcb1, hcb2, hcb3⟩ := hcb
  -- the chain
  obtain ⟨a', ha1, ha2⟩ := chain_trip (lo := leftoverExc env e.name)
    (kw := eraseKeys out (Entity.ownKeys ++ ["connections", "control_behavior"]))
    h.good.1 h.good.2.1 h.made h1 (fun k hk => by
      rw [baseObj_get] at hk
      by_cases k1 : k = "entity_number"
      · rw [k1]; decide
      by_cases k2 : k = "name"
      · rw [k2]; decide
      by_cases k3 : k = "position"
      · rw [k3]; decide
      by_cases k4 : k = "connections"
      · rw [k4]; decide
      rw [if_neg k1, if_neg k2, if_neg k3, if_neg k4] at hk
      exact absurd rfl hk) (by rw [baseObj_get]; rfl)
    (fun k => by
      unfold Dict.get?
      rw [lookup_eraseKeys]
      split
      · rfl
      · rename_i hk
        exact hout k (by rintro rfl; exact hk (by decide)))
    (fun hm fs hfs => hf hm fs (by rw [hout _ (by decide)]; exact hfs))
  refine ⟨{ Entity.raw0 layer out e.auto with
      name := e.name, klass := e.klass, depth := 1, pos := e.pos, dir := dir', raw := Dict.getD out "connections" .none,
      cb := cb', attrs := a' }, ?_, rfl, rfl, rfl, rfl, rfl, ?_, rfl, hconn, hdir2, ?_, hcb3⟩
  · rw [Entity.new_ok]
    refine ⟨hself, hbl, _, _, _, _, hname, hpos, by rw [hnum]; exact numberOf_auto _, hset, ?_⟩
    rw [Entity.finish_ok]
    refine ⟨e.pos, dir', cb', a', rfl, hdir1, hcb1, ?_, rfl⟩
    have hs : (Entity.raw0 layer out e.auto).strict = true := by
      unfold Entity.raw0
      rw [hstrict]
      rfl
    dsimp only
    rw [hs]
    exact ha1
  · unfold Entity.raw0
    rw [hstrict]
    rfl
  · intro obj
    refine emitRest_congr ?_ hcb2
    refine emitChain_congr (fun m hm => ?_)
    by_cases hrot : m = .Rotatable
    · subst hrot
      dsimp only at hm ⊢
      rw [hdir2 hm]
      rfl
    · exact ha2 m hm hrot _

end Verif
