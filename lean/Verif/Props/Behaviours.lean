import Verif.Proofs.Behaviours
import Verif.Props.Sample
import Verif.Props.Assign
/-!
# Property C77: behaviours given to an entity by hand

`Entity.set_mixins` and `Entity.add_mixins` (`entity.py:116-122`) give an entity a new class.  Whether Python can make
that class, and what it then does, depends on the order of the behaviours.
-/
set_option autoImplicit false

namespace Verif
open Spec

/-- C77: behaviours can be set exactly if none is listed twice and none before one that derives from it; what the
entity was before does not matter. -/
theorem C77_set_iff {w : World} {r : Ref} (ms : List Mx) : ((Op.setMixins r ms).run w).1 = .ok () ↔ DerivedFirst ms := by
  constructor
  · intro h
    obtain ⟨k, hk, -⟩ := setMixins_ok (w := w) (r := r) (ms := ms) (Prod.ext h rfl)
    exact Klass.extend_orderly hk (Klass.entity_fresh _)
  · intro h
    obtain ⟨k, hk⟩ := Klass.extend_new (n := (w.heap r).depth) Klass.entity_full (by decide) (by decide) h (by
      intro m _ hm
      rw [show Klass.entity.chain = [] from rfl] at hm
      cases hm)
    rw [setMixins_of hk]

/-- C77: if it fails, it fails with `TypeError`, and nothing has changed. -/
theorem C77_fails {w w' : World} {r : Ref} {ms : List Mx} {op : Op} (hop : op = .setMixins r ms ∨ op = .addMixins r ms)
    {x : Exc} (h : op.run w = (.error x, w')) : x = .typeError ∧ w' = w := by
  rcases hop with rfl | rfl
  · rw [run_setMixins] at h
    unfold Entity.setMixins at h
    cases hk : Klass.extend (w.heap r).depth Klass.entity ms with
    | error y =>
      rw [hk] at h
      cases h
      exact ⟨Klass.extend_error hk, setEnt_same ..⟩
    | ok k => rw [hk] at h; cases h
  · rw [run_addMixins] at h
    unfold Entity.addMixins at h
    cases hk : Klass.extend (w.heap r).depth (w.heap r).klass ms with
    | error y =>
      rw [hk] at h
      cases h
      exact ⟨Klass.extend_error hk, setEnt_same ..⟩
    | ok k => rw [hk] at h; cases h

/-- C77: nothing but the class of the entity changes. -/
theorem C77_only {w w' : World} {r : Ref} {ms : List Mx} {op : Op} (hop : op = .setMixins r ms ∨ op = .addMixins r ms)
    (h : op.run w = (.ok (), w')) : OnlyClass w w' r := by
  rcases hop with rfl | rfl
  · obtain ⟨k, -, rfl⟩ := setMixins_ok h
    exact onlyClass_setEnt ..
  · obtain ⟨k, -, rfl⟩ := addMixins_ok h
    exact onlyClass_setEnt ..

/-- C77: after `set_mixins` the entity has the behaviours listed and those they derive from, no other, each once, each
before what it derives from, and in the order listed. -/
theorem C77_set {w w' : World} {r : Ref} {ms : List Mx} (h : (Op.setMixins r ms).run w = (.ok (), w')) :
    (behaviours w' r).Nodup ∧ ms.Sublist (behaviours w' r) ∧ (∀ m ∈ ms, (lineage m).Sublist (behaviours w' r)) ∧
    ∀ x, x ∈ behaviours w' r ↔ ∃ m ∈ ms, x ∈ lineage m := by
  obtain ⟨k, hk, rfl⟩ := setMixins_ok h
  unfold behaviours
  rw [setEnt_heap, if_pos rfl]
  obtain ⟨h1, h2, h3, -⟩ := Klass.made_of hk (Klass.entity_fresh _)
  refine ⟨h1, h2, h3, fun x => ?_⟩
  rw [Klass.extend_members hk, show Klass.entity.chain = [] from rfl]
  simp

/-- C77: after `add_mixins` the entity has in addition the behaviours listed and those they derive from; those that it
had are in the same order as before. -/
theorem C77_add {env : Env} {w w' : World} {r : Ref} {ms : List Mx} (hw : Reachable env w)
    (h : (Op.addMixins r ms).run w = (.ok (), w')) :
    DerivedFirst ms ∧ (behaviours w' r).Nodup ∧ (behaviours w r).Sublist (behaviours w' r) ∧ ms.Sublist (behaviours w' r) ∧
    (∀ m ∈ ms, (lineage m).Sublist (behaviours w' r)) ∧
    ∀ x, x ∈ behaviours w' r ↔ x ∈ behaviours w r ∨ ∃ m ∈ ms, x ∈ lineage m := by
  obtain ⟨k, hk, rfl⟩ := addMixins_ok h
  unfold behaviours
  rw [setEnt_heap, if_pos rfl]
  obtain ⟨h1, h2, h3, h4⟩ := Klass.made_of hk (hw.fresh r)
  exact ⟨Klass.extend_orderly hk (hw.fresh r), h1, h4, h2, h3, Klass.extend_members hk⟩

/-- C77: behaviours that the entity does not have yet can be added in any such order, whatever it has. -/
theorem C77_add_new {env : Env} {w : World} {r : Ref} {ms : List Mx} (hw : Reachable env w) (ho : DerivedFirst ms)
    (hn : ∀ m ∈ ms, m ∉ behaviours w r) : ((Op.addMixins r ms).run w).1 = .ok () := by
  obtain ⟨k, hk⟩ := Klass.extend_new (n := (w.heap r).depth) (hw.full r) (hw.fresh r).mro (hw.fresh r).cb ho hn
  rw [addMixins_of hk]

/-- C77: a single behaviour can always be added. -/
theorem C77_add_one {env : Env} {w : World} {r : Ref} (m : Mx) (hw : Reachable env w) :
    ((Op.addMixins r [m]).run w).1 = .ok () := by
  by_cases hm : m ∈ behaviours w r
  · rw [addMixins_of ((hw.full r).fits (hw.fresh r) hm).extend]
  · exact C77_add_new hw (List.pairwise_singleton ..) (fun x hx => by rw [List.mem_singleton.1 hx]; exact hm)

/-- C77: adding a behaviour that the entity has already changes no behaviour and no export. -/
theorem C77_add_again {env : Env} {w w' : World} {r : Ref} {m : Mx} (hw : Reachable env w) (hm : m ∈ behaviours w r)
    (h : (Op.addMixins r [m]).run w = (.ok (), w')) :
    behaviours w' r = behaviours w r ∧ ∀ s, (entToJson s w').1 = (entToJson s w).1 := by
  rw [addMixins_of ((hw.full r).fits (hw.fresh r) hm).extend] at h
  cases h
  constructor
  · unfold behaviours
    rw [setEnt_heap, if_pos rfl]
    rfl
  · intro s
    have hr : Renamed w (w.setEnt r { w.heap r with
        klass := ⟨.dyn (w.heap r).depth :: (w.heap r).klass.mro, .made (.dyn (w.heap r).depth) :: (w.heap r).klass.cb⟩,
        depth := (w.heap r).depth + 1 }) := by
      refine ⟨rfl, rfl, fun q => ?_, fun q => ?_⟩
      · rw [setEnt_heap]
        split
        · rename_i hq; subst hq; rfl
        · rfl
      · rw [setEnt_heap]
        split
        · rename_i hq; subst hq; exact Klass.alike_cons _ _
        · exact .refl _
    refine hr.entToJson_same ?_
    rw [setEnt_heap]
    split
    · rename_i hq; subst hq; rfl
    · rfl

/-- C77: the behaviours that no prototype has can be given to any entity that can be exported.  Until the setting is
assigned the entity cannot be exported; then the export has the setting, and everything else as before. -/
theorem C77_usable {env : Env} {w : World} {r : Ref} {m : Mx} {k : String} {d : Dict} (hw : Reachable env w)
    (hmk : (m, k) ∈ unlisted) (hm : m ∉ behaviours w r)
    (hk : List.lookup k (w.heap r).attrs = none) (hd : (entToJson r w).1 = .ok (.dict d)) :
    ∃ w₁, (Op.addMixins r [m]).run w = (.ok (), w₁) ∧ (entToJson r w₁).1 = .error .attributeError ∧
      ∀ n : Int, (m = .Variation → 0 ≤ n ∧ n ≤ 255) →
        ∃ w₂ d', (Op.setAttr r k (.int n)).run w₁ = (.ok (), w₂) ∧ (entToJson r w₂).1 = .ok (.dict d') ∧
          List.lookup k d' = some (.int n) ∧ ∀ k', k' ≠ k → List.lookup k' d' = List.lookup k' d := by
  obtain ⟨K, hK⟩ := Klass.extend_new (n := (w.heap r).depth) (ms := [m]) (hw.full r) (hw.fresh r).mro (hw.fresh r).cb
    (List.pairwise_singleton ..) (fun x hx => by rw [List.mem_singleton.1 hx]; exact hm)
  have hrun := addMixins_of hK
  have hlin : lineage m = [m] := by
    simp only [unlisted, List.mem_cons, List.not_mem_nil, or_false, Prod.mk.injEq] at hmk
    rcases hmk with ⟨rfl, -⟩ | ⟨rfl, -⟩ <;> rfl
  have hmem : ∀ x, x ∈ K.chain ↔ x ∈ (w.heap r).klass.chain ∨ x = m := by
    intro x
    rw [Klass.extend_members hK]
    simp [hlin]
  obtain ⟨hnd, -, -, hsub⟩ := Klass.made_of hK (hw.fresh r)
  have hKok : K.Ok := Klass.extend_ok hK (hw.klass r)
  have hopr : m ≠ .Arithmetic ∧ m ≠ .Decider ∧ m ≠ .Combinator := by
    simp only [unlisted, List.mem_cons, List.not_mem_nil, or_false, Prod.mk.injEq] at hmk
    rcases hmk with ⟨rfl, -⟩ | ⟨rfl, -⟩ <;> decide
  have hseen : ∀ c : Cb, c.seenBy K = c.seenBy (w.heap r).klass := fun c => seenBy_of hsub hnd (by
    intro x hx hx'
    rcases (hmem x).1 hx with h | rfl
    · exact absurd h hx'
    · exact hopr) c
  have hnr : K.nrConnections = (w.heap r).klass.nrConnections := Klass.nrConnections_eq (by
    rw [hmem]
    exact ⟨fun h => h.elim id (fun e => absurd e.symm hopr.2.2), .inl⟩)
  -- the export as it was
  rw [entToJson_fst] at hd
  cases hc : (connectionsToJson r w).1 with
  | error x => rw [hc] at hd; cases hd
  | ok o =>
    rw [hc] at hd
    dsimp only at hd
    cases he : (w.heap r).emitRest w.env (baseObj (w.heap r) (if o.isEmpty then none else some (wireJson o))) with
    | error x => rw [he] at hd; cases hd
    | ok d0 =>
      rw [he] at hd
      cases hd
      have hw1 : ∀ a, (entToJson r (w.setEnt r ((w.heap r).given K a))).1 =
          match ((w.heap r).given K a).emitRest w.env
            (baseObj ((w.heap r).given K a) (if o.isEmpty then none else some (wireJson o))) with
          | .error x => .error x
          | .ok d => .ok (.dict d) := by
        intro a
        rw [entToJson_fst, connections_given hnr, hc, setEnt_heap, if_pos rfl]
        rfl
      refine ⟨_, hrun, ?_, fun n hn => ?_⟩
      · have hx : mxEmit w.env m (Dict.get? (w.heap r).attrs) (w.heap r).dir = .error .attributeError := by
          simp only [unlisted, List.mem_cons, List.not_mem_nil, or_false, Prod.mk.injEq] at hmk
          rcases hmk with ⟨rfl, rfl⟩ | ⟨rfl, rfl⟩ <;>
          · unfold mxEmit attr Dict.get?
            rw [hk]
            rfl
        refine (hw1 (w.heap r).attrs).trans ?_
        rw [given_error he hmem hx]
      · have hhas : K.has m = true := by
          unfold Klass.has
          simpa using Klass.mem_chain.1 ((hmem m).2 (.inr rfl))
        have hset : (Op.setAttr r k (.int n)).run (w.setEnt r ((w.heap r).given K (w.heap r).attrs)) =
            (.ok (), w.setEnt r ((w.heap r).given K (Dict.set (w.heap r).attrs k (.int n)))) := by
          rw [run_setAttr, setEnt_heap, if_pos rfl]
          unfold Entity.setAttr
          simp only [unlisted, List.mem_cons, List.not_mem_nil, or_false, Prod.mk.injEq] at hmk
          rcases hmk with ⟨rfl, rfl⟩ | ⟨rfl, rfl⟩
          · have e : readIntOrNone (.int n) = .ok (.int n) := rfl
            simp only [attrOwner, Entity.given, hhas, if_true, mxAssign, e, setOne]
            rw [setEnt_setEnt]
            rfl
          · have e : readVariation (.int n) = .ok (.int n) := by
              obtain ⟨h1, h2⟩ := hn rfl
              have hb : Between 0 255 (.int n) := by
                refine ⟨.int n, .inl rfl, ?_, ?_⟩
                · show (0 : Rat) ≤ (n : Rat)
                  exact_mod_cast h1
                · show (n : Rat) ≤ 255
                  exact_mod_cast h2
              obtain ⟨x, hx⟩ := readVariation_iff.2 hb
              rw [hx, readVariation_same hx]
            simp only [attrOwner, Entity.given, hhas, if_true, mxAssign, e, setOne]
            rw [setEnt_setEnt]
            rfl
        have hfacts : emitKeys m = [k] ∧ (∀ q, k ∈ mxAttrs q → q = m) ∧ k ≠ "control_behavior" := by
          simp only [unlisted, List.mem_cons, List.not_mem_nil, or_false, Prod.mk.injEq] at hmk
          rcases hmk with ⟨rfl, rfl⟩ | ⟨rfl, rfl⟩
          · exact ⟨rfl, by intro q; cases q <;> decide, by decide⟩
          · exact ⟨rfl, by intro q; cases q <;> decide, by decide⟩
        have hget : Dict.get? (Dict.set (w.heap r).attrs k (.int n)) k = some (.int n) := by
          unfold Dict.get?
          rw [lookup_set, if_pos rfl]
        have hemit : mxEmit w.env m (Dict.get? (Dict.set (w.heap r).attrs k (.int n))) (w.heap r).dir = .ok [(k, .int n)] := by
          simp only [unlisted, List.mem_cons, List.not_mem_nil, or_false, Prod.mk.injEq] at hmk
          rcases hmk with ⟨rfl, rfl⟩ | ⟨rfl, rfl⟩ <;>
          · unfold mxEmit attr
            rw [hget]
            rfl
        obtain ⟨d', h1, h2, h3⟩ := given_ok (a := Dict.set (w.heap r).attrs k (.int n)) (hw.klass r) hKok he hmem hm hseen
          hfacts.1 hfacts.2.1 hfacts.2.2 (fun k' hk' => by unfold Dict.get?; rw [lookup_set, if_neg hk']) hemit
        exact ⟨_, d', hset, by rw [hw1, h1], h2, h3⟩

/-- C77: without behaviours only number, name, position, wires and control behaviour are exported. -/
theorem C77_bare {w w' : World} {r : Ref} {d : Dict} {k : String} (h : (Op.setMixins r []).run w = (.ok (), w'))
    (hd : (entToJson r w').1 = .ok (.dict d)) (hk : List.lookup k d ≠ none) :
    behaviours w' r = [] ∧ k ∈ ["entity_number", "name", "position", "connections", "control_behavior"] := by
  have hb : behaviours w' r = [] := by
    refine List.eq_nil_iff_forall_not_mem.2 fun x hx => ?_
    obtain ⟨m, hm, -⟩ := ((C77_set h).2.2.2 x).1 hx
    cases hm
  refine ⟨hb, ?_⟩
  rw [entToJson_fst] at hd
  cases hc : (connectionsToJson r w').1 with
  | error x => rw [hc] at hd; cases hd
  | ok o =>
    rw [hc] at hd
    dsimp only at hd
    cases he : (w'.heap r).emitRest w'.env (baseObj (w'.heap r) (if o.isEmpty then none else some (wireJson o))) with
    | error x => rw [he] at hd; cases hd
    | ok d0 =>
      rw [he] at hd
      cases hd
      by_cases hcb : k = "control_behavior"
      · simp [hcb]
      · rw [emitRest_foreign he (fun m hm => by rw [show (w'.heap r).klass.chain = [] from hb] at hm; cases hm) hcb] at hk
        have := baseObj_get (w'.heap r) (if o.isEmpty then none else some (wireJson o)) k
        unfold Dict.get? at this
        rw [this] at hk
        by_cases h1 : k = "entity_number"
        · simp [h1]
        by_cases h2 : k = "name"
        · simp [h2]
        by_cases h3 : k = "position"
        · simp [h3]
        by_cases h4 : k = "connections"
        · simp [h4]
        rw [if_neg h1, if_neg h2, if_neg h3, if_neg h4] at hk
        exact absurd rfl hk

/-- C77: an entity that has the control behaviour of a combinator but is no combinator any more cannot be exported. -/
theorem C77_orphaned {env : Env} {w : World} {r : Ref} {c : Cb} (hw : Reachable env w) (hc : (w.heap r).cb = some c)
    (hcc : .Combinator ∈ c.chain) (hb : .Combinator ∉ behaviours w r) (v : Val) : (entToJson r w).1 ≠ .ok v := by
  intro hd
  rw [entToJson_fst] at hd
  cases hcn : (connectionsToJson r w).1 with
  | error x => rw [hcn] at hd; cases hd
  | ok o =>
    rw [hcn] at hd
    dsimp only at hd
    cases he : (w.heap r).emitRest w.env (baseObj (w.heap r) (if o.isEmpty then none else some (wireJson o))) with
    | error x => rw [he] at hd; cases hd
    | ok d0 =>
      obtain ⟨o1, -, ⟨h1, -⟩ | ⟨c', dd, h1, h2, -⟩⟩ := emitRest_ok.1 he
      · rw [hc] at h1; cases h1
      · rw [hc] at h1
        cases h1
        have hno : (c.seenBy (w.heap r).klass).ctx.noOperator = true := by
          show (w.heap r).klass.ctx.noOperator = true
          show Option.isNone ((w.heap r).klass.first _) = true
          unfold Klass.first
          rw [List.find?_eq_none.2]
          · rfl
          · intro x hx hp
            have hpar : ∀ y, y.parent = some .Combinator → y ∉ (w.heap r).klass.chain := fun y hy hm =>
              hb (((hw.klass r).parent hm hy).subset (by simp))
            simp only [Bool.or_eq_true, decide_eq_true_eq] at hp
            rcases hp with (rfl | rfl) | rfl
            · exact hpar _ rfl hx
            · exact hpar _ rfl hx
            · exact hb hx
        exact cbEmit_orphan hno hcc h2

/-! ### The hypotheses can be met -/

/-- A world with a belt that has been made a train stop as well. -/
def Sample.stopBelt : World := ((Op.addMixins 0 [.Station, .Color]).run Sample.belts).2

theorem Sample.stopBelt_run : (Op.addMixins 0 [.Station, .Color]).run Sample.belts = (.ok (), Sample.stopBelt) :=
  Sample.run_eq (by decide +kernel)

theorem Sample.stopBelt_reachable : Reachable Sample.env Sample.stopBelt :=
  .step (.addMixins 0 [.Station, .Color]) Sample.belts_reachable (by show 0 < Sample.belts.next; decide +kernel)

/-- A decider combinator without its behaviours. -/
def Sample.bareDec : World := ((Op.setMixins 3 []).run Sample.decMade).2

theorem Sample.bareDec_run : (Op.setMixins 3 []).run Sample.decMade = (.ok (), Sample.bareDec) :=
  Sample.run_eq (by decide +kernel)

example : DerivedFirst [.Station, .CircuitCondition, .Rotatable] := by unfold DerivedFirst; decide
example : ¬ DerivedFirst [.CircuitCondition, .Station] := by unfold DerivedFirst; decide
example : ¬ DerivedFirst [.Rotatable, .Items, .Rotatable] := by unfold DerivedFirst; decide

example : ((Op.setMixins 0 [.CircuitCondition, .Station]).run Sample.belts).1 ≠ .ok () := by
  rw [Ne, C77_set_iff]
  unfold DerivedFirst
  decide

-- a conflict with the order that the entity has already
example : behaviours Sample.belts 0 = [.Rotatable, .TransportBelt, .CircuitCondition] ∧ DerivedFirst [.TransportBelt, .Rotatable] ∧
    ((Op.addMixins 0 [.TransportBelt, .Rotatable]).run Sample.belts).1 = .error .typeError := by
  refine ⟨by decide +kernel, by unfold DerivedFirst; decide, by decide +kernel⟩

example : behaviours Sample.stopBelt 0 = [.Rotatable, .TransportBelt, .Station, .CircuitCondition, .Color] := by decide +kernel

example : OnlyClass Sample.belts Sample.stopBelt 0 := C77_only (.inr rfl) Sample.stopBelt_run

example : (behaviours Sample.belts 0).Sublist (behaviours Sample.stopBelt 0) := (C77_add Sample.belts_reachable Sample.stopBelt_run).2.2.1

example : ((Op.addMixins 0 [.Loader, .Container]).run Sample.belts).1 = .ok () :=
  C77_add_new Sample.belts_reachable (by unfold DerivedFirst; decide) (by decide +kernel)

example : ((Op.addMixins 0 [.Filters]).run Sample.stopBelt).1 = .ok () := C77_add_one _ Sample.stopBelt_reachable

example : (entToJson 1 ((Op.addMixins 0 [.Rotatable]).run Sample.belts).2).1 = (entToJson 1 Sample.belts).1 :=
  (C77_add_again (m := .Rotatable) Sample.belts_reachable (by decide +kernel) (Sample.run_eq (by decide +kernel))).2 1

example : ∃ d, (entToJson 0 Sample.belts).1 = .ok (.dict d) ∧
    ∃ w₁, (Op.addMixins 0 [.Container]).run Sample.belts = (.ok (), w₁) ∧ (entToJson 0 w₁).1 = .error .attributeError ∧
      ∃ w₂ d', (Op.setAttr 0 "bar" (.int 7)).run w₁ = (.ok (), w₂) ∧ (entToJson 0 w₂).1 = .ok (.dict d') ∧
        List.lookup "bar" d' = some (.int 7) ∧ ∀ k', k' ≠ "bar" → List.lookup k' d' = List.lookup k' d := by
  have hd : ∃ d, (entToJson 0 Sample.belts).1 = .ok (.dict d) := by
    have : ((entToJson 0 Sample.belts).1.toOption.any fun v => match v with | .dict _ => true | _ => false) = true := by
      decide +kernel
    cases h : (entToJson 0 Sample.belts).1 with
    | error x => rw [h] at this; cases this
    | ok v =>
      rw [h] at this
      cases v with
      | dict d => exact ⟨d, rfl⟩
      | _ => cases this
  obtain ⟨d, hd⟩ := hd
  obtain ⟨w₁, h1, h2, h3⟩ := C77_usable (m := .Container) (k := "bar") Sample.belts_reachable (by decide) (by decide +kernel)
    (by decide +kernel) hd
  exact ⟨d, hd, w₁, h1, h2, h3 7 (by intro h; cases h)⟩

example : behaviours ((Op.setMixins 0 []).run Sample.belts).2 0 = [] ∧
    (entToJson 0 ((Op.setMixins 0 []).run Sample.belts).2).1.toOption.isSome = true := by decide +kernel

example (v : Val) : (entToJson 3 Sample.bareDec).1 ≠ .ok v := by
  have hr : Reachable Sample.env Sample.decMade := by
    have := Reachable.step (.make 0 Sample.decKw) Sample.belts_reachable trivial
    have e : (Op.make 0 Sample.decKw).run Sample.belts = (.ok (), Sample.decMade) := Sample.run_eq (by decide +kernel)
    rw [e] at this
    exact this
  have hr' : Reachable Sample.env Sample.bareDec :=
    .step (.setMixins 3 []) hr (by show 3 < Sample.decMade.next; decide +kernel)
  have hc : ((Sample.bareDec.heap 3).cb.any fun c => decide (Mx.Combinator ∈ c.chain)) = true := by decide +kernel
  cases h : (Sample.bareDec.heap 3).cb with
  | none => rw [h] at hc; cases hc
  | some c =>
    rw [h] at hc
    exact C77_orphaned hr' h (of_decide_eq_true hc) (by decide +kernel) v

end Verif
