import Verif.Spec.Assign
import Verif.Proofs.AssignOps
import Verif.Proofs.CbPut
import Verif.Proofs.CondPut
import Verif.Proofs.Custom
import Verif.Props.Sample
/-!
# Property C52: assigning a setting is like constructing with it

`entity.recipe = v` accepts the values that the constructor accepts, raises what the constructor raises, and leaves
the same entity as the constructor.  A rejected value changes nothing, except in the four settings that are stored
part by part (`inventory`, `infinity_settings`, its filters, and `request_filters`), where a rejected value leaves the
parts before the faulty one.
-/
set_option autoImplicit false

namespace Verif
open Spec

/-- C52: for every setting of an entity made with any other settings, assigning `v` either succeeds and leaves the
world in which the entity was made with `v` in the first place, or raises the exception that `make` raises for `v`. -/
theorem C52_like_make {b : BpId} {kw : Dict} {w w₀ : World} {r : Ref} {m : Mx} {k : String} (v : Val)
    (h : layerMake b kw w = (.ok r, w₀)) (hs : (w₀.heap r).strict = true)
    (hc : NoCustom w.env (w.bp b) (w₀.heap r).name) (hm : m ∈ (w₀.heap r).klass.chain) (hk : k ∈ settings m) :
    (∃ w₁, (Op.setAttr r k v).run w₀ = (.ok (), w₁) ∧ layerMake b (Dict.set kw k v) w = (.ok r, w₁)) ∨
    (∃ x w₁, (Op.setAttr r k v).run w₀ = (.error x, w₁) ∧ layerMake b (Dict.set kw k v) w = (.error x, w)) :=
  like_make v h hm hk (Solid.layerMake h hs hc).2.2.good.2.1.not_pair

/-- C52: the same for the control behaviour as a whole. -/
theorem C52_control_like_make {b : BpId} {kw : Dict} {w w₀ : World} {r : Ref} (v : Val)
    (h : layerMake b kw w = (.ok r, w₀)) :
    (∃ w₁, (Op.newControl r v).run w₀ = (.ok (), w₁) ∧
      layerMake b (Dict.set kw "control_behavior" v) w = (.ok r, w₁)) ∨
    (∃ x, (Op.newControl r v).run w₀ = (.error x, w₀) ∧
      layerMake b (Dict.set kw "control_behavior" v) w = (.error x, w)) := by
  obtain ⟨e, n, he, hh⟩ := layerMake_new h
  have henv : w₀.env = w.env := by
    have h' := h
    unfold layerMake at h'
    obtain ⟨s, v, hn, h'⟩ := M.bind_eq_ok.1 h'
    obtain ⟨e2, he2, rfl, rfl⟩ := newEntity_ok hn
    obtain ⟨_, u, ha, h'⟩ := M.bind_eq_ok.1 h'
    cases h'
    unfold layerAdd at ha
    dsimp only at ha
    split at ha
    · cases ha
    · split at ha <;> (cases ha; rfl)
  have hnew := Entity.new_control (v := v) he
  have hrun : (Op.newControl r v).run w₀ = (((w₀.heap r).newControl w.env v).1,
      w₀.setEnt r ((w₀.heap r).newControl w.env v).2) := by
    rw [run_newControl, henv]
  rw [hrun]
  unfold Entity.newControl at hnew ⊢
  have hkl : Cb.new w.env (leftoverExc w.env (w₀.heap r).name) (w₀.heap r).klass v =
      Cb.new w.env (leftoverExc w.env e.name) e.klass v := by rw [hh]
  rw [hkl]
  cases hx : Cb.new w.env (leftoverExc w.env e.name) e.klass v with
  | error x =>
    rw [hx] at hnew
    refine .inr ⟨x, ?_, layerMake_of_error hnew⟩
    show (Except.error x, w₀.setEnt r (w₀.heap r)) = _
    rw [setEnt_same]
  | ok c =>
    rw [hx] at hnew
    exact .inl ⟨_, rfl, layerMake_upd (mild_cb (some c)) h he hnew⟩

/-- C52: the same for a single setting of the control behaviour: assigning `control_behavior.k` leaves the world in
which the entity was made with `k` in its control behaviour in the first place, or raises what `make` raises. -/
theorem C52_control_setting {b : BpId} {kw d : Dict} {w w₀ : World} {r : Ref} {m : Mx} {k : String} (v : Val)
    (h : layerMake b kw w = (.ok r, w₀)) (hs : (w₀.heap r).strict = true)
    (hc : NoCustom w.env (w.bp b) (w₀.heap r).name) (hcb : List.lookup "control_behavior" kw = some (.dict d))
    (hm : m ∈ (w₀.heap r).klass.cbChain) (hk : k ∈ controlSettings m) (hcond : k ≠ "circuit_condition") :
    (∃ w₁, (Op.setControl r k v).run w₀ = (.ok (), w₁) ∧
      layerMake b (Dict.set kw "control_behavior" (.dict (Dict.set d k v))) w = (.ok r, w₁)) ∨
    (∃ x, (Op.setControl r k v).run w₀ = (.error x, w₀) ∧
      layerMake b (Dict.set kw "control_behavior" (.dict (Dict.set d k v))) w = (.error x, w)) := by
  obtain ⟨-, henv, hsolid⟩ := Solid.layerMake h hs hc
  obtain ⟨e, n, he, hh⟩ := layerMake_new h
  have hg := hsolid.good
  rw [controlSettings_eq] at hk
  rw [hh] at hm hg
  have hmc : m ≠ .CircuitCondition := by
    rintro rfl
    exact hcond (List.mem_singleton.1 hk)
  have hnew := Entity.new_control (v := .dict (Dict.set d k v)) he
  obtain ⟨a, hecb, hself, hent, hchain⟩ := Entity.new_cb_chain he hcb
  have hcbnew : Cb.new w.env (leftoverExc w.env e.name) e.klass (.dict d) = .ok ⟨e.klass.cbChain, e.klass.ctx, a⟩ := by
    unfold Cb.new
    simp only [Val.kwargs, ok_bind, hself, hent, Bool.or_false, Bool.false_eq_true, if_false, hchain, pure_eq_ok]
  have hput := Cb.new_put v (hg.plain hm hk) hm hk hmc hcbnew
  have hrun : (Op.setControl r k v).run w₀ = (((w₀.heap r).setControl w.env k v).1,
      w₀.setEnt r ((w₀.heap r).setControl w.env k v).2) := by
    rw [run_setControl, henv]
  have hcb' : (w₀.heap r).cb = some ⟨e.klass.cbChain, e.klass.ctx, a⟩ := by rw [hh]; exact hecb
  rw [hrun]
  unfold Entity.newControl at hnew
  rw [hput] at hnew
  unfold Entity.setControl
  rw [hcb']
  dsimp only
  cases hx : Cb.setAttr w.env ⟨e.klass.cbChain, e.klass.ctx, a⟩ k v with
  | mk y c =>
    rw [hx] at hnew
    cases y with
    | error x =>
      refine .inr ⟨x, ?_, layerMake_of_error hnew⟩
      have hcc : c = ⟨e.klass.cbChain, e.klass.ctx, a⟩ := by
        unfold Cb.setAttr at hx
        split at hx
        · split at hx <;> cases hx
          rfl
        · cases hx; rfl
      subst hcc
      dsimp only
      rw [← hcb']
      show (Except.error x, w₀.setEnt r (w₀.heap r)) = _
      rw [setEnt_same]
    | ok u => exact .inl ⟨_, rfl, layerMake_upd (mild_cb (some c)) h he hnew⟩

/-- C52: the same for the parts of a circuit condition, which are attributes of their own. -/
theorem C52_condition_part {b : BpId} {kw d cd : Dict} {w w₀ : World} {r : Ref} {y : String} (v : Val)
    (h : layerMake b kw w = (.ok r, w₀)) (hs : (w₀.heap r).strict = true)
    (hc : NoCustom w.env (w.bp b) (w₀.heap r).name) (hcb : List.lookup "control_behavior" kw = some (.dict d))
    (hm : Mx.CircuitCondition ∈ (w₀.heap r).klass.cbChain) (hcd : List.lookup "circuit_condition" d = some (.dict cd))
    (hy : y ∈ ["first", "second", "comparator"]) :
    (∃ w₁, (Op.setControl r y v).run w₀ = (.ok (), w₁) ∧
      layerMake b (Dict.set kw "control_behavior"
        (.dict (Dict.set d "circuit_condition" (.dict (Dict.set cd (conditionKey y) v))))) w = (.ok r, w₁)) ∨
    (∃ x, (Op.setControl r y v).run w₀ = (.error x, w₀) ∧
      layerMake b (Dict.set kw "control_behavior"
        (.dict (Dict.set d "circuit_condition" (.dict (Dict.set cd (conditionKey y) v))))) w = (.error x, w)) := by
  obtain ⟨-, -, hsolid⟩ := Solid.layerMake h hs hc
  refine like_make_control h hs hc hcb fun c hnew => ?_
  exact Cb.new_chain hm hy (mem_put (by decide) (by decide))
    (fun a ha => cbInitChain_condition (hsolid.good.plain hm (List.mem_singleton.2 rfl)) hm hy hcd ha) hnew

/-- C52: the same for the operator and the signals of an arithmetic combinator. -/
theorem C52_arithmetic_part {b : BpId} {kw d cond cond' : Dict} {w w₀ : World} {r : Ref} {y : String} (v : Val)
    (h : layerMake b kw w = (.ok r, w₀)) (hs : (w₀.heap r).strict = true)
    (hc : NoCustom w.env (w.bp b) (w₀.heap r).name) (hcb : List.lookup "control_behavior" kw = some (.dict d))
    (hm : (w₀.heap r).klass.cbChain = [.Arithmetic, .Combinator])
    (hcond : List.lookup "arithmetic_conditions" d = some (.dict cond)) (hp : PartGiven "operation" cond v y cond') :
    (∃ w₁, (Op.setControl r y v).run w₀ = (.ok (), w₁) ∧
      layerMake b (Dict.set kw "control_behavior"
        (.dict (Dict.set d "arithmetic_conditions" (.dict cond')))) w = (.ok r, w₁)) ∨
    (∃ x, (Op.setControl r y v).run w₀ = (.error x, w₀) ∧
      layerMake b (Dict.set kw "control_behavior"
        (.dict (Dict.set d "arithmetic_conditions" (.dict cond')))) w = (.error x, w)) := by
  obtain ⟨-, -, hsolid⟩ := Solid.layerMake h hs hc
  obtain ⟨ht, ho, hos⟩ := hsolid.good.arithmetic hm
  have hf : (w₀.heap r).klass.ctx.field = "arithmetic_conditions" := by unfold CbCtx.field; rw [ht]; rfl
  rw [← ho] at hp
  refine like_make_control h hs hc hcb fun c hnew => ?_
  refine Cb.new_chain (m := .Combinator) (by rw [hm]; simp) ?_ (mem_put (by decide) (by decide)) (fun a ha => ?_) hnew
  · cases hp with
    | operator => decide
    | operand hy _ => exact List.mem_cons_of_mem _ hy
  · rw [hm, arithmetic_chain] at ha ⊢
    rw [← hf]
    exact combinator_put hos (condKeys_arithmetic ht ho) (by rw [hf]; exact hcond) (get_set_self ..)
      (erase_put_self ..) hp ha

/-- C52: the same for the operator, the signals and `copy_count_from_input` of a decider. -/
theorem C52_decider_part {b : BpId} {kw d cond cond' : Dict} {w w₀ : World} {r : Ref} {y : String} (v : Val)
    (h : layerMake b kw w = (.ok r, w₀)) (hs : (w₀.heap r).strict = true)
    (hc : NoCustom w.env (w.bp b) (w₀.heap r).name) (hcb : List.lookup "control_behavior" kw = some (.dict d))
    (hm : (w₀.heap r).klass.cbChain = [.Decider, .Combinator])
    (hcond : List.lookup "decider_conditions" d = some (.dict cond))
    (hp : PartGiven "comparator" cond v y cond' ∨
      (y = "copy_count_from_input" ∧ cond' = Dict.set cond "copy_count_from_input" v)) :
    (∃ w₁, (Op.setControl r y v).run w₀ = (.ok (), w₁) ∧
      layerMake b (Dict.set kw "control_behavior"
        (.dict (Dict.set d "decider_conditions" (.dict cond')))) w = (.ok r, w₁)) ∨
    (∃ x, (Op.setControl r y v).run w₀ = (.error x, w₀) ∧
      layerMake b (Dict.set kw "control_behavior"
        (.dict (Dict.set d "decider_conditions" (.dict cond')))) w = (.error x, w)) := by
  obtain ⟨-, -, hsolid⟩ := Solid.layerMake h hs hc
  obtain ⟨ht, ho, hos⟩ := hsolid.good.decider hm
  have hf : (w₀.heap r).klass.ctx.field = "decider_conditions" := by unfold CbCtx.field; rw [ht]; rfl
  have hn := condKeys_decider ht ho
  refine like_make_control h hs hc hcb fun c hnew => ?_
  rcases hp with hp | ⟨rfl, rfl⟩
  · rw [← ho] at hp
    refine Cb.new_chain (m := .Combinator) (by rw [hm]; simp) ?_ (mem_put (by decide) (by decide)) (fun a ha => ?_) hnew
    · cases hp with
      | operator => decide
      | operand hy _ => exact List.mem_cons_of_mem _ hy
    · rw [hm] at ha ⊢
      rw [← hf]
      exact decider_put hos hn.1 hn.2 (by rw [hf]; exact hcond) hp ha
  · refine Cb.new_chain (m := .Decider) (by rw [hm]; simp) (by decide) (mem_put (by decide) (by decide)) (fun a ha => ?_)
      hnew
    rw [hm] at ha ⊢
    rw [← hf]
    exact decider_copy hos hn.1 (by rw [hf]; exact hcond) ha

/-- C52 (partial: not the four settings stored part by part): a rejected assignment changes nothing. -/
theorem C52_rejected_partial {w w' : World} {r : Ref} {k : String} {v : Val} {x : Exc} (hk : k ∉ compoundSettings)
    (h : (Op.setAttr r k v).run w = (.error x, w')) : w' = w := by
  rw [run_setAttr] at h
  injection h with h1 h2
  rw [← h2, setAttr_atomic hk h1, setEnt_same]

/-- C52: an assignment that does not raise changes nothing but the attributes in which the setting is kept: not the
blueprints, not the other entities, not the rest of the entity.  Neither does one that raises. -/
theorem C52_only {w w' : World} {r : Ref} {k : String} {v : Val} {x : Except Exc Unit}
    (h : (Op.setAttr r k v).run w = (x, w')) :
    w'.env = w.env ∧ w'.next = w.next ∧ w'.bp = w.bp ∧ (∀ s, s ≠ r → w'.heap s = w.heap s) ∧
    ∃ a, w'.heap r = { w.heap r with attrs := a } ∧ ∀ k', k' ∉ keptIn k → List.lookup k' a = List.lookup k' (w.heap r).attrs := by
  rw [run_setAttr] at h
  injection h with h1 h2
  subst h2
  obtain ⟨s, hs, he⟩ := setAttr_attrs (env := w.env) (e := w.heap r) (k := k) (v := v)
  refine ⟨rfl, rfl, rfl, ?_, setAll (w.heap r).attrs s, ?_, ?_⟩
  · intro t ht
    rw [setEnt_heap, if_neg ht]
  · rw [setEnt_heap, if_pos rfl, he]
  · intro k' hk'
    exact lookup_setAll_ne (fun p hp hpk => hk' (by rw [← hpk]; exact hs p hp))

/-- C52: exactly the allowed values are accepted. -/
theorem C52_accepts {w : World} {r : Ref} {m : Mx} {k : String} (v : Val) (hs : (w.heap r).strict = true)
    (hm : m ∈ (w.heap r).klass.chain) (hk : k ∈ settings m) (hr : k ∈ rangedSettings) :
    ((Op.setAttr r k v).run w).1 = .ok () ↔ Allowed w.env k v := by
  have hown := attrOwner_settings hk
  obtain ⟨x, hx, hiff, -⟩ := mxAssign_ranged (env := w.env) (sh := (w.heap r).klass.insFiltersShadowed) (v := v) hr
  have hhas : (w.heap r).klass.has m = true := by
    unfold Klass.has
    simpa using Klass.mem_chain.1 hm
  rw [run_setAttr, ← hiff]
  unfold Entity.setAttr
  rw [hown]
  dsimp only
  rw [if_pos hhas, hs, hx]
  cases x with
  | error e => exact ⟨fun h => (by cases h), fun ⟨_, h⟩ => (by cases h)⟩
  | ok y => exact ⟨fun _ => ⟨y, rfl⟩, fun _ => rfl⟩

/-- C52: … and read back. -/
theorem C52_reads_back {w w' : World} {r : Ref} {k : String} {v : Val} (hs : (w.heap r).strict = true)
    (hr : k ∈ rangedSettings) (h : (Op.setAttr r k v).run w = (.ok (), w')) :
    List.lookup k (w'.heap r).attrs = some v := by
  obtain ⟨x, hx, -, hsame⟩ := mxAssign_ranged (env := w.env) (sh := (w.heap r).klass.insFiltersShadowed) (v := v) hr
  rw [run_setAttr] at h
  injection h with h1 h2
  rw [← h2, setEnt_heap, if_pos rfl]
  unfold Entity.setAttr at h1 ⊢
  cases hown : attrOwner k with
  | none => rw [hown] at h1; cases h1
  | some m =>
    rw [hown] at h1
    dsimp only at h1 ⊢
    by_cases hh : (w.heap r).klass.has m
    · rw [if_pos hh] at h1 ⊢
      dsimp only at h1 ⊢
      rw [hs, hx] at h1 ⊢
      cases x with
      | error e => cases h1
      | ok y =>
        have := hsame y rfl
        subst this
        show List.lookup k (Dict.set _ k y) = _
        rw [lookup_set, if_pos rfl]
    · rw [if_neg hh] at h1
      cases h1

/-! ### Control behaviours -/

/-- C52: a rejected assignment to an attribute of a control behaviour, or of a whole control behaviour, changes
nothing. -/
theorem C52_control_rejected {w w' : World} {r : Ref} {k : String} {v : Val} {x : Exc}
    (h : (Op.setControl r k v).run w = (.error x, w') ∨ (Op.newControl r v).run w = (.error x, w')) : w' = w := by
  rcases h with h | h
  · rw [run_setControl] at h
    injection h with h1 h2
    rw [← h2]
    have : ((w.heap r).setControl w.env k v).2 = w.heap r := by
      unfold Entity.setControl at h1 ⊢
      cases hc : (w.heap r).cb with
      | none => rfl
      | some c =>
        rw [hc] at h1
        dsimp only at h1 ⊢
        rw [cbSetAttr_atomic h1, ← hc]
    rw [this, setEnt_same]
  · rw [run_newControl] at h
    injection h with h1 h2
    rw [← h2]
    have : ((w.heap r).newControl w.env v).2 = w.heap r := by
      unfold Entity.newControl at h1 ⊢
      cases hc : Cb.new w.env (leftoverExc w.env (w.heap r).name) (w.heap r).klass v with
      | error e => rfl
      | ok c => rw [hc] at h1; cases h1
    rw [this, setEnt_same]

/-- C52: a setting of a control behaviour that the entity does not have is refused. -/
theorem C52_control_missing {w : World} {r : Ref} (k : String) (v : Val) (hc : (w.heap r).cb = none) :
    (Op.setControl r k v).run w = (.error .attributeError, w) := by
  have h : ((Op.setControl r k v).run w).1 = .error .attributeError := by
    rw [run_setControl]
    unfold Entity.setControl
    rw [hc]
  exact Prod.ext h (C52_control_rejected (.inl (Prod.ext h rfl)))

/-- C52: an assignment to an attribute of a control behaviour changes nothing else. -/
theorem C52_control_only {w w' : World} {r : Ref} {k : String} {v : Val} {c : Cb} {x : Except Exc Unit}
    (hc : (w.heap r).cb = some c) (h : (Op.setControl r k v).run w = (x, w')) :
    w'.env = w.env ∧ w'.next = w.next ∧ w'.bp = w.bp ∧ (∀ s, s ≠ r → w'.heap s = w.heap s) ∧
    ∃ a, w'.heap r = { w.heap r with cb := some { c with attrs := a } } ∧
      ∀ k', k' ≠ k → List.lookup k' a = List.lookup k' c.attrs := by
  rw [run_setControl] at h
  injection h with h1 h2
  subst h2
  refine ⟨rfl, rfl, rfl, fun t ht => by rw [setEnt_heap, if_neg ht], ?_⟩
  rw [setEnt_heap, if_pos rfl]
  unfold Entity.setControl
  rw [hc]
  dsimp only
  unfold Cb.setAttr
  split
  · split
    · exact ⟨c.attrs, rfl, fun _ _ => rfl⟩
    · exact ⟨_, rfl, fun k' hk' => lookup_set_ne hk'⟩
  · exact ⟨c.attrs, rfl, fun _ _ => rfl⟩

/-- C52: in an attribute that holds a signal, `None` and numbers are accepted, and a name exactly if it is known. -/
theorem C52_control_signal {w : World} {r : Ref} {m : Mx} {k : String} {c : Cb} (hc : (w.heap r).cb = some c)
    (hm : m ∈ c.chain) (hk : k ∈ controlAttrs m) (hsig : k ∈ Spec.signalAttrs) :
    ((Op.setControl r k .none).run w).1 = .ok () ∧ (∀ z : Int, ((Op.setControl r k (.int z)).run w).1 = .ok ()) ∧
    ∀ s v, s ≠ "" → NamesSignal s v →
      (Unknown w.env.signals s → (Op.setControl r k v).run w = (.error .unknownSignal, w)) ∧
      (¬ Unknown w.env.signals s → ((Op.setControl r k v).run w).1 = .ok ()) := by
  have hval : ∀ v, ((Op.setControl r k v).run w).1 = (do let _ ← signalSet w.env v; return ()) := by
    intro v
    rw [run_setControl]
    unfold Entity.setControl
    rw [hc]
    dsimp only
    rw [cbSetAttr_signal hm hk hsig]
  refine ⟨hval _, fun z => hval _, fun s v hs hn => ⟨fun hu => ?_, fun hu => ?_⟩⟩
  · have h1 : ((Op.setControl r k v).run w).1 = .error .unknownSignal := by
      rw [hval, signalSet_unknown hn hs hu]
      rfl
    have := C52_control_rejected (x := .unknownSignal) (w' := ((Op.setControl r k v).run w).2) (.inl (Prod.ext h1 rfl))
    exact Prod.ext h1 this
  · rw [hval]
    obtain ⟨x, hx⟩ := signalSet_accepts hn hu
    rw [hx]
    rfl

/-- C52: in the operator of a combinator or the comparator of a condition, `None` and the listed words are accepted,
in every entity made by `make`, whatever happened to it later (other than renaming it or replacing the data). -/
theorem C52_control_operator {b : BpId} {kw : Dict} {w w₀ w₁ : World} {r : Ref} {c : Cb} {ty k : String}
    {ops : List String} (v : Val) (h : layerMake b kw w = (.ok r, w₀)) (hs : (w₀.heap r).strict = true)
    (hn : NoCustom w.env (w.bp b) (w₀.heap r).name) (hl : Later r w₀ w₁) (hc : (w₁.heap r).cb = some c)
    (hty : TypeOf w.env (w₁.heap r).name ty)
    (hk : (ty, k, ops) ∈ [("arithmetic-combinator", "operator", operations), ("decider-combinator", "operator", comparators),
      ("inserter", "comparator", comparators), ("lamp", "comparator", comparators),
      ("train-stop", "comparator", comparators), ("transport-belt", "comparator", comparators)]) :
    ((Op.setControl r k v).run w₁).1 = .ok () ↔ OneOf ops v := by
  obtain ⟨h1, h2, h3⟩ := Solid.layerMake h hs hn
  obtain ⟨-, h5, h6⟩ := SolidP.later h1 h3 hl
  rw [h2] at h5
  have hkl := Solid.klass_of h6 (ty := ty) (by rw [h5]; exact hty)
  obtain ⟨g1, g2, -⟩ := h6.cb c hc
  rw [run_setControl]
  unfold Entity.setControl
  rw [hc]
  dsimp only
  rw [← operatorSet_iff]
  have key : (c.setAttr w₁.env k v).1 = (do let _ ← operatorSet ops v; return ()) := by
    have hd := operator_rows ty k ops hk _ hkl
    rw [← g1, ← g2] at hd
    unfold Cb.setAttr
    rw [if_pos hd.1]
    have : cbAssign w₁.env c.ctx k v = operatorSet ops v := cbAssign_ops hd.2
    rw [this]
    cases operatorSet ops v <;> rfl
  rw [key]
  cases operatorSet ops v with
  | error e => exact ⟨fun h => (by cases h), fun ⟨_, h⟩ => (by cases h)⟩
  | ok y => exact ⟨fun _ => ⟨y, rfl⟩, fun _ => rfl⟩

/-! ### The four settings stored part by part -/

/-- A rejected assignment changes nothing, in any world. -/
def RejectedUnchanged (k : String) : Prop :=
  ∀ (env : Env) (w w' : World) (r : Ref) (v : Val) (x : Exc), Reachable env w → r < w.next →
    (Op.setAttr r k v).run w = (.error x, w') → w' = w

namespace Sample

/-- Data with the three kinds of entities that have such settings. -/
def chests : Env :=
  { entities :=
      [("wagon", proto "cargo-wagon" (box (-1) (-3) 1 3)),
       ("requester", proto "logistic-container" (box (-1/2) (-1/2) (1/2) (1/2))),
       ("infinity", proto "infinity-container" (box (-1/2) (-1/2) (1/2) (1/2)))],
    recipes := [], items := [], tiles := [], signals := [],
    defaults := [("plate", .dict [("type", .str "item")])] }

def filter (i : Int) (name : String) : Val := .dict [("index", .int i), ("name", .str name), ("count", .int 5), ("mode", .str "exactly")]

def chest (kw : Dict) : World := ((Op.make 0 kw).run (World.init chests)).2

theorem chest_reachable (kw : Dict) : Reachable chests (chest kw) := Reachable.step (.make 0 kw) .init trivial

/-- A witness. -/
theorem partly {k : String} {v : Val} {x : Exc} {kw : Dict} (hn : 0 < (chest kw).next)
    (h : ((Op.setAttr 0 k v).run (chest kw)).1 = .error x)
    (hd : (((Op.setAttr 0 k v).run (chest kw)).2.heap 0).attrs ≠ ((chest kw).heap 0).attrs) : ¬ RejectedUnchanged k := by
  intro hall
  refine hd ?_
  rw [hall chests (chest kw) _ 0 v x (chest_reachable kw) hn (run_eq h)]

end Sample

/-- C52 does not hold for the four settings stored part by part: a list whose second entry is faulty is rejected, but
the old entries are gone and the first new one is there. -/
theorem C52_false : ∀ k ∈ compoundSettings, ¬ RejectedUnchanged k := by
  intro k hk
  simp only [compoundSettings, List.mem_cons, List.not_mem_nil, or_false] at hk
  rcases hk with rfl | rfl | rfl | rfl
  · exact Sample.partly (kw := Sample.ent "wagon" 0 0 ++ [("orientation", .flt 0), ("inventory", .dict [("bar", .int 7)])])
      (v := .dict [("filters", .list [Sample.filter 1 "plate", Sample.filter 2 "no such"])]) (x := .unknownEntity)
      (by decide +kernel) (by decide +kernel) (by decide +kernel)
  · exact Sample.partly (kw := Sample.ent "infinity" 0 0 ++ [("infinity_settings", .dict [("remove_unfiltered_items", .bool false), ("filters", .list [Sample.filter 1 "plate"])])])
      (v := .dict [("remove_unfiltered_items", .bool true)]) (x := .keyError)
      (by decide +kernel) (by decide +kernel) (by decide +kernel)
  · exact Sample.partly (kw := Sample.ent "infinity" 0 0 ++ [("infinity_settings", .dict [("remove_unfiltered_items", .bool false), ("filters", .list [Sample.filter 1 "plate"])])])
      (v := .list [Sample.filter 2 "no such"]) (x := .unknownEntity)
      (by decide +kernel) (by decide +kernel) (by decide +kernel)
  · exact Sample.partly (kw := Sample.ent "requester" 0 0 ++ [("request_filters", .list [Sample.filter 1 "plate"])])
      (v := .list [Sample.filter 2 "plate", Sample.filter 3 "no such"]) (x := .unknownEntity)
      (by decide +kernel) (by decide +kernel) (by decide +kernel)

/-! ### Examples -/

/-- An assembling machine made without recipe. -/
def Sample.asm : World := (layerMake 0 (Sample.ent "asm" 1 1) Sample.belts).2

example : ∃ w₁, (Op.setAttr 3 "recipe" (.str "gear")).run Sample.asm = (.ok (), w₁) ∧
    layerMake 0 (Sample.ent "asm" 1 1 ++ [("recipe", .str "gear")]) Sample.belts = (.ok 3, w₁) := by
  rcases C52_like_make (b := 0) (kw := Sample.ent "asm" 1 1) (w := Sample.belts) (w₀ := Sample.asm) (r := 3) (m := .Recipe)
    (k := "recipe") (.str "gear") (Sample.run_eq (by decide +kernel)) (by decide +kernel)
    (by intro ty _; rfl) (by decide +kernel) (by decide) with h | ⟨x, w₁, h, -⟩
  · exact h
  · exfalso
    have : ((Op.setAttr 3 "recipe" (.str "gear")).run Sample.asm).1 = .ok () := by decide +kernel
    rw [h] at this
    cases this

example : (Op.setAttr 3 "recipe" (.str "no such")).run Sample.asm = (.error .unknownRecipe, Sample.asm) := by
  have h := Sample.run_eq (x := (Op.setAttr 3 "recipe" (.str "no such")).run) (w := Sample.asm)
    (a := .error .unknownRecipe) (by decide +kernel)
  rw [h, C52_rejected_partial (by decide) h]

example : ((Op.setAttr 3 "recipe" (.str "gear")).run Sample.asm).1 = .ok () :=
  (C52_accepts (m := .Recipe) (k := "recipe") (.str "gear") (by decide +kernel) (by decide +kernel) (by decide)
    (by decide)).2 (.inr (.inr (.inr (.inr (.inl ⟨rfl, .inr ⟨"gear", by decide +kernel, rfl⟩⟩)))))

/-- A decider combinator with a control behaviour. -/
def Sample.decKw : Dict :=
  Sample.ent "dec" 1 1 ++ [("control_behavior", .dict [("decider_conditions", .dict [("comparator", .str ">")])])]
def Sample.decMade : World := (layerMake 0 Sample.decKw Sample.belts).2

theorem Sample.decMade_run : layerMake 0 Sample.decKw Sample.belts = (.ok 3, Sample.decMade) :=
  Sample.run_eq (by decide +kernel)

theorem Sample.decMade_type : TypeOf Sample.belts.env (Sample.decMade.heap 3).name "decider-combinator" := by
  refine ⟨[("type", .str "decider-combinator"), ("selection_box", Sample.box (-1/2) (-1) (1/2) 1)], ?_, rfl⟩
  decide +kernel

theorem Sample.decMade_operator (v : Val) :
    ((Op.setControl 3 "operator" v).run Sample.decMade).1 = .ok () ↔ OneOf comparators v := by
  have hcb : (Sample.decMade.heap 3).cb.isSome = true := by decide +kernel
  obtain ⟨c, hc⟩ := Option.isSome_iff_exists.1 hcb
  exact C52_control_operator v Sample.decMade_run (by decide +kernel) (by intro ty _; rfl) .refl hc
    Sample.decMade_type (by simp)

example : ((Op.setControl 3 "operator" (.str "≥")).run Sample.decMade).1 = .ok () ∧
    ((Op.setControl 3 "operator" (.str "≠")).run Sample.decMade).1 ≠ .ok () := by
  refine ⟨(Sample.decMade_operator _).2 (.inr ⟨"≥", by decide, rfl⟩), fun hh => ?_⟩
  rcases (Sample.decMade_operator _).1 hh with h | ⟨s, hs, h⟩
  · cases h
  · cases h
    revert hs
    decide

/-- An accumulator with a control behaviour. -/
def Sample.accMade : World := (layerMake 0 (Sample.ent "acc" 1 1 ++ [("control_behavior", .dict [])]) Sample.belts).2

example : (Op.setControl 3 "output_signal" (.str "no such")).run Sample.accMade = (.error .unknownSignal, Sample.accMade) ∧
    ((Op.setControl 3 "output_signal" (.str "iron")).run Sample.accMade).1 = .ok () := by
  have hcb : (Sample.accMade.heap 3).cb = some ⟨[.Accumulator], (Sample.accMade.heap 3).klass.ctx, [("output_signal", .none)]⟩ := by
    decide +kernel
  have h := (C52_control_signal (w := Sample.accMade) (r := 3) (m := .Accumulator) (k := "output_signal") hcb (by decide) (by decide) (by decide)).2.2
  have he : Sample.accMade.env.signals = Sample.env.signals := by decide +kernel
  refine ⟨(h "no such" _ (by decide) .str).1 ?_, (h "iron" _ (by decide) .str).2 ?_⟩
  · unfold Unknown; rw [he]; decide +kernel
  · unfold Unknown; rw [he]; decide +kernel

example : ∃ w₁, (Op.newControl 3 (.dict [("output_signal", Sample.sig "iron" "item")])).run Sample.accMade = (.ok (), w₁) ∧
    (w₁.heap 3).cb.map (·.attrs) = some [("output_signal", .str "iron")] :=
  ⟨_, Sample.run_eq (by decide +kernel), by decide +kernel⟩

/-- An entity without a control behaviour: the belt of the sample world. -/
example : ((Sample.belts.heap 0).cb).isNone = true ∧
    ((Op.setControl 0 "comparator" (.str ">")).run Sample.belts).1 = .error .attributeError := by decide +kernel

/-- A world with one kind of entity, called `it`, of the given type. -/
def Sample.only (t : String) : World :=
  World.init { Sample.env with
    entities := [("it", Sample.proto t (Sample.box (-1/2) (-1/2) (1/2) (1/2)))] }

/-- One of it, with the given settings. -/
def Sample.onlyKw (kw : Dict) : Dict := Sample.ent "it" 1 1 ++ kw
def Sample.onlyMade (t : String) (kw : Dict) : World := (layerMake 0 (Sample.onlyKw kw) (Sample.only t)).2

/-- Lists of objects: the modules of a beacon and the filters of an inserter. -/
example : ∃ w₁, (Op.setAttr 0 "items" (.dict [("iron", .int 2)])).run (Sample.onlyMade "beacon" []) = (.ok (), w₁) ∧
    layerMake 0 (Dict.set (Sample.onlyKw []) "items" (.dict [("iron", .int 2)])) (Sample.only "beacon") = (.ok 0, w₁) := by
  rcases C52_like_make (b := 0) (kw := Sample.onlyKw []) (w := Sample.only "beacon")
    (w₀ := Sample.onlyMade "beacon" []) (r := 0) (m := .Items) (k := "items") (.dict [("iron", .int 2)])
    (Sample.run_eq (by decide +kernel)) (by decide +kernel) (by intro ty _; rfl) (by decide +kernel) (by decide) with h | ⟨x, w₁, h, -⟩
  · exact h
  · exfalso
    have : ((Op.setAttr 0 "items" (.dict [("iron", .int 2)])).run (Sample.onlyMade "beacon" [])).1 = .ok () := by
      decide +kernel
    rw [h] at this
    cases this

example : ∃ w₁, (Op.setAttr 0 "filters" (.list [.dict [("index", .int 1), ("name", .str "iron")]])).run
      (Sample.onlyMade "inserter" []) = (.ok (), w₁) ∧
    List.lookup "filters" (w₁.heap 0).attrs =
      some (.list [.dict [("index", .int 1), ("name", .str "iron")]]) := ⟨_, Sample.run_eq (by decide +kernel), by decide +kernel⟩

/-- A constant combinator and a speaker. -/
example : ∃ w₁, (Op.setControl 0 "filters" (.list [.dict [("signal", Sample.sig "iron" "item"), ("count", .int 3), ("index", .int 1)]])).run
      (Sample.onlyMade "constant-combinator" [("control_behavior", .dict [("is_on", .bool false)])]) = (.ok (), w₁) ∧
    layerMake 0 (Sample.onlyKw [("control_behavior", .dict [("is_on", .bool false), ("filters",
      .list [.dict [("signal", Sample.sig "iron" "item"), ("count", .int 3), ("index", .int 1)]])])])
      (Sample.only "constant-combinator") = (.ok 0, w₁) := by
  rcases C52_control_setting (b := 0) (kw := Sample.onlyKw [("control_behavior", .dict [("is_on", .bool false)])])
    (d := [("is_on", .bool false)]) (w := Sample.only "constant-combinator")
    (w₀ := Sample.onlyMade "constant-combinator" [("control_behavior", .dict [("is_on", .bool false)])]) (r := 0)
    (m := .Filters) (k := "filters") (.list [.dict [("signal", Sample.sig "iron" "item"), ("count", .int 3), ("index", .int 1)]])
    (Sample.run_eq (by decide +kernel)) (by decide +kernel) (by intro ty _; rfl) (by decide +kernel) (by decide +kernel)
    (by decide) (by decide) with h | ⟨x, h, -⟩
  · exact h
  · exfalso
    have : ((Op.setControl 0 "filters" (.list [.dict [("signal", Sample.sig "iron" "item"), ("count", .int 3), ("index", .int 1)]])).run
      (Sample.onlyMade "constant-combinator" [("control_behavior", .dict [("is_on", .bool false)])])).1 = .ok () := by decide +kernel
    rw [h] at this
    cases this

example : ((Op.setControl 0 "circuit_parameters" (.dict [("note_id", .int 3)])).run
      (Sample.onlyMade "programmable-speaker" [("control_behavior", .dict [])])).1 = .ok () ∧
    ((Op.setControl 0 "circuit_parameters" (.dict [("note", .int 3)])).run
      (Sample.onlyMade "programmable-speaker" [("control_behavior", .dict [])])).1 = .error .typeError := by
  decide +kernel

/-- A decider with a first signal: assigning another signal, the operator and `copy_count_from_input`. -/
def Sample.decCond : Dict := [("comparator", .str ">"), ("first_signal", Sample.sig "iron" "item")]
def Sample.decCondKw : Dict :=
  Sample.ent "dec" 1 1 ++ [("control_behavior", .dict [("decider_conditions", .dict Sample.decCond)])]
def Sample.decCondMade : World := (layerMake 0 Sample.decCondKw Sample.belts).2

example : layerMake 0 Sample.decCondKw Sample.belts = (.ok 3, Sample.decCondMade) ∧
    (Sample.decCondMade.heap 3).strict = true ∧
    (Sample.decCondMade.heap 3).klass.cbChain = [.Decider, .Combinator] ∧
    PartGiven "comparator" Sample.decCond (.str "copper") "first"
      (Dict.set Sample.decCond "first_signal" (.dict [("name", .str "copper")])) ∧
    ((Op.setControl 3 "first" (.str "no such")).run Sample.decCondMade).1 = .error .unknownSignal ∧
    ((Op.setControl 3 "second" (.str "iron")).run Sample.decCondMade).1 = .ok () :=
  ⟨Sample.run_eq (by decide +kernel), by decide +kernel, by decide +kernel, .operand (by decide) (by decide),
    by decide +kernel, by decide +kernel⟩

/-- A belt with a circuit condition. -/
def Sample.beltCondKw : Dict :=
  Sample.ent "belt" 7 7 ++ [("control_behavior", .dict [("circuit_condition", .dict [("comparator", .str ">")])])]
def Sample.beltCondMade : World := (layerMake 0 Sample.beltCondKw Sample.belts).2

example : layerMake 0 Sample.beltCondKw Sample.belts = (.ok 3, Sample.beltCondMade) ∧
    (Sample.beltCondMade.heap 3).strict = true ∧
    .CircuitCondition ∈ (Sample.beltCondMade.heap 3).klass.cbChain ∧
    ((Op.setControl 3 "first" (.str "iron")).run Sample.beltCondMade).1 = .ok () ∧
    ((Op.setControl 3 "comparator" (.str "!")).run Sample.beltCondMade).1 ≠ .ok () :=
  ⟨Sample.run_eq (by decide +kernel), by decide +kernel, by decide +kernel, by decide +kernel, by decide +kernel⟩

end Verif
