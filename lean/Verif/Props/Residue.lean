import Verif.Proofs.ResidueExact
import Verif.Props.Sample
/-!
# C36: the caller's data after an import

`loadLeft b data w` (`Verif/Model/Residue.lean`) is the caller's own data object after `load b data` ran in the
world `w`.
-/
set_option autoImplicit false

namespace Verif
open Spec

/-- C36 as stated: a successful import leaves the data as they were, and importing them again into a blueprint of a
world with the same prototype data, where the original data could be imported, gives the same blueprint. -/
def DataKept : Prop :=
  ∀ (env : Env) (w w' w2 w2' : World) (b b2 : BpId) (data : Val), Reachable env w → Reachable env w2 →
    (w.bp b).custom = [] → (w2.bp b2).custom = [] → w2.env = w.env →
    load b data w = (.ok (), w') → load b2 data w2 = (.ok (), w2') →
    loadLeft b data w = data ∧
    ∃ w3, load b2 (loadLeft b data w) w2 = (.ok (), w3) ∧ view w3 b2 = view w2' b2

/-- After a successful import the data are unchanged exactly if they contain no schedules and no combinator with a
control behaviour. -/
theorem C36_unchanged_iff {b : BpId} {data : Val} {d : Dict} {w w' : World} (hb : (w.bp b).custom = [])
    (hd : Content data d) (h : load b data w = (.ok (), w')) :
    loadLeft b data w = data ↔ List.lookup "schedules" d = none ∧
      ∀ l, List.lookup "entities" d = some (.list l) → ∀ v ∈ l, ¬ CombinatorData w.env v := by
  have hu := content_iff.2 hd
  rw [(unwrapData_left h hu).2]
  exact dictLeft_same h hu hb

/-- Data without combinators: importing what is left gives the same blueprint without its schedules. -/
theorem C36_again_partial {b b2 : BpId} {data : Val} {d : Dict} {w w' w2 w2' : World} {env2 : Env}
    (hb : (w.bp b).custom = []) (hd : Content data d) (h : load b data w = (.ok (), w'))
    (hc : ∀ l, List.lookup "entities" d = some (.list l) → ∀ v ∈ l, ¬ CombinatorData w.env v)
    (hr : Reachable env2 w2) (h2 : load b2 data w2 = (.ok (), w2')) :
    ∃ w3, load b2 (loadLeft b data w) w2 = (.ok (), w3) ∧ view w3 b2 = { view w2' b2 with schedules := [] } := by
  have hu := content_iff.2 hd
  refine load_erase hr.owned h2 hu ?_
  rw [(unwrapData_left h hu).1, dictLeft_plain h hu hb hc]

/-- Data with a combinator that has a control behaviour cannot be imported a second time. -/
theorem C36_again_raises {b b2 : BpId} {data : Val} {d : Dict} {w w' w2 : World} {l : List Val} {v : Val}
    (hb : (w.bp b).custom = []) (hb2 : (w2.bp b2).custom = []) (henv : w2.env = w.env)
    (hd : Content data d) (h : load b data w = (.ok (), w'))
    (hl : List.lookup "entities" d = some (.list l)) (hv : v ∈ l) (hc : CombinatorData w.env v) :
    (load b2 (loadLeft b data w) w2).1 = .error .keyError :=
  load_left_error h (content_iff.2 hd) hb hb2 henv hl ⟨v, hv, hc⟩

/-- What is left after a successful import: the schedules are gone, in the entities the conditions of the combinators
are emptied, and everything else is as before. -/
theorem C36_left {b : BpId} {data : Val} {d : Dict} {w w' : World} (hb : (w.bp b).custom = [])
    (hd : Content data d) (h : load b data w = (.ok (), w')) :
    ∃ d', Content (loadLeft b data w) d' ∧ List.lookup "schedules" d' = none ∧
      (∀ k, k ≠ "schedules" → k ≠ "entities" → List.lookup k d' = List.lookup k d) ∧
      ∀ l, List.lookup "entities" d = some (.list l) →
        ∃ l', List.lookup "entities" d' = some (.list l') ∧ List.Forall₂ (Emptied w.env) l l' := by
  have hu := content_iff.2 hd
  obtain ⟨h1, -, h5⟩ := dictLeft_ok h hu
  rw [customOf_some, hb] at h1 h5
  refine ⟨dictLeft b d w, content_iff.1 (unwrapData_left h hu).1, ?_, fun k k1 k2 => ?_, fun l hl => ?_⟩
  · rw [h1]
    exact (lookup_erase ..).trans (if_pos rfl)
  · rw [h1]
    exact (get_erase_ne k1).trans (withEntities_get k2)
  · obtain ⟨es, hes⟩ := h5 l hl
    have hl' : Dict.get? d "entities" = some (.list l) := hl
    refine ⟨_, ?_, entsLeft_emptied hes⟩
    rw [h1]
    refine (get_erase_ne (by decide)).trans ?_
    unfold withEntities
    rw [hl']
    exact get_set_self ..

/-- What is left when an entity is rejected: the entities before it as after a successful import, the entities after it
and everything else outside the entities as before. -/
theorem C36_failed_rest {b : BpId} {data : Val} {d : Dict} {w w1 : World} {pre post : List Val} {kw : Dict} {x : Exc}
    (hb : (w.bp b).custom = []) (hd : Content data d) (hhead : loadHead b d w = (.ok (), w1))
    (hl : List.lookup "entities" d = some (.list (pre ++ .dict kw :: post)))
    (hpre : ∀ v ∈ pre, ∃ k e, v = .dict k ∧ Entity.new w.env (some []) (some b) k = .ok e)
    (hx : Entity.new w.env (some []) (some b) kw = .error x) :
    (load b data w).1 = .error x ∧ ∃ pre' d', List.Forall₂ (Emptied w.env) pre pre' ∧
      Content (loadLeft b data w) d' ∧
      d' = Dict.set d "entities" (.list (pre' ++ .dict (entLeft w.env (some []) (some b) kw) :: post)) := by
  have hu := content_iff.2 hd
  obtain ⟨col, iv, ic, -, -, -, rfl⟩ := loadHead_ok.1 hhead
  have hbuild : ∃ es, buildAll w.env (some []) b pre = .ok es := by
    clear hl
    induction pre with
    | nil => exact ⟨[], rfl⟩
    | cons v pre ih =>
      obtain ⟨es, he⟩ := ih (fun u hu => hpre u (List.mem_cons_of_mem _ hu))
      obtain ⟨k, e, rfl, hk⟩ := hpre v (List.mem_cons_self ..)
      refine ⟨e :: es, ?_⟩
      unfold buildAll at he ⊢
      rw [List.mapM_cons, he]
      show ((Entity.new w.env (some []) (some b) k) >>= _) = _
      rw [hk]
      rfl
  obtain ⟨es, hes⟩ := hbuild
  have hfail : buildAll w.env (some []) b (pre ++ .dict kw :: post) = .error x := by
    clear hl
    induction pre generalizing es with
    | nil => exact buildAll_head hx
    | cons v pre ih =>
      obtain ⟨k, e, es', rfl, h1, h2⟩ := buildAll_cons hes
      exact buildAll_tail h1 (ih (fun u hu => hpre u (List.mem_cons_of_mem _ hu)) es' h2)
  have hl' : Dict.get? d "entities" = some (.list (pre ++ .dict kw :: post)) := hl
  have hcust : (w.setBp b ((w.bp b).withHead d col ic)).customOf (some b) = some [] := by
    rw [customOf_setBp]
    exact congrArg some hb
  have hbody : (loadBody b d (w.setBp b ((w.bp b).withHead d col ic))).1 = .error x := by
    unfold loadBody
    rw [M.bind_eq, M.lift_eq]
    have : Dict.getD d "entities" (.list []) = .list (pre ++ .dict kw :: post) := by
      unfold Dict.getD
      rw [hl']
      rfl
    rw [this]
    dsimp only [Val.iter]
    rw [M.bind_eq]
    have hf := forEach_layerLoad_error (b := b) (l := pre ++ .dict kw :: post) (x := x)
      (w := w.setBp b ((w.bp b).withHead d col ic)) (by rw [hcust, setBp_env]; exact hfail)
    cases hy : M.forEach (layerLoad b) (pre ++ .dict kw :: post) (w.setBp b ((w.bp b).withHead d col ic)) with
    | mk r w3 =>
      rw [hy] at hf
      change r = _ at hf
      subst hf
      rfl
  obtain ⟨pre', hp1, hp2⟩ := entsLeft_rejected (post := post) hes hx
  have hleft : dictLeft b d w =
      Dict.set d "entities" (.list (pre' ++ .dict (entLeft w.env (some []) (some b) kw) :: post)) := by
    unfold dictLeft
    rw [hhead]
    dsimp only
    rw [hl', hcust, setBp_env]
    dsimp only
    rw [hp2]
    cases hy : loadBody b d (w.setBp b ((w.bp b).withHead d col ic)) with
    | mk r w3 =>
      rw [hy] at hbody
      change r = _ at hbody
      subst hbody
      rfl
  constructor
  · rw [load_parts, M.bind_eq, M.lift_eq, hu]
    dsimp only
    rw [M.bind_ok hhead, M.bind_eq]
    cases hy : loadBody b d (w.setBp b ((w.bp b).withHead d col ic)) with
    | mk r w3 =>
      rw [hy] at hbody
      change r = _ at hbody
      subst hbody
      rfl
  · refine ⟨pre', _, hp1, ?_, hleft⟩
    cases hd with
    | wrapped o _ ho =>
      unfold loadLeft
      have ho' : Dict.get? o "blueprint" = some (.dict d) := ho
      dsimp only
      rw [ho']
      exact .wrapped _ _ (get_set_self ..)
    | bare _ ho =>
      unfold loadLeft
      have ho' : Dict.get? d "blueprint" = none := ho
      dsimp only
      rw [ho']
      refine .bare _ ?_
      rw [hleft]
      exact (get_set_ne (by decide)).trans ho'

/-- The rejected entity itself: only the conditions of a combinator can change, and of these only the keys that are
read are removed; the operator and the copy flag always are. -/
theorem C36_failed_conditions {env : Env} {layer : Option BpId} {kw c cond : Dict} {e : Entity} {n ty : String}
    (h : Entity.new env (some []) layer (Dict.erase kw "control_behavior") = .ok e)
    (hn : List.lookup "name" kw = some (.str n)) (ht : TypeOf env n ty)
    (hty : ty = "arithmetic-combinator" ∨ ty = "decider-combinator")
    (hst : ∀ s, List.lookup "strict" kw = some s → s.truthy = true)
    (hc : List.lookup "control_behavior" kw = some (.dict c)) (hs : Dict.mem c "self" = false)
    (he : Dict.mem c "_entity" = false) (hf : List.lookup (conditionsKey ty) c = some (.dict cond)) :
    ∃ cond', entLeft env (some []) layer kw =
        Dict.set kw "control_behavior" (.dict (Dict.set c (conditionsKey ty) (.dict cond'))) ∧
      cond'.Sublist cond ∧ (∀ k, k ∉ conditionKeys ty → List.lookup k cond' = List.lookup k cond) ∧
      List.lookup (if ty = "decider-combinator" then "comparator" else "operation") cond' = none ∧
      (ty = "decider-combinator" → List.lookup "copy_count_from_input" cond' = none) :=
  entLeft_conditions h hn ht hty hst hc hs he hf

namespace Sample

/-- A combinator without schedules. -/
def oneAri : Dict := [("item", .str "blueprint"), ("entities", .list [ariData])]

/-- A locomotive with a schedule. -/
def oneLoco : Dict := [("entities", .list [locoData]),
  ("schedules", .list [.dict [("locomotives", .list [.int 12]), ("schedule", .list [])]])]

/-- A belt. -/
def oneBelt : Dict := [("entities", .list [.dict (ent "belt" 1 2)]), ("version", .int 3)]

theorem ari_combinator : CombinatorData env ariData :=
  ⟨_, "ari", "arithmetic-combinator", rfl, by decide +kernel, ⟨_, rfl, rfl⟩, .inl rfl,
    by decide +kernel, fun s hs => by change none = some s at hs; cases hs⟩

theorem name_type {kw : Dict} {n ty : String} (hn : List.lookup "name" kw = some (.str n))
    (ht : ∃ d, List.lookup n env.entities = some (.dict d) ∧ List.lookup "type" d = some (.str ty))
    (h1 : ty ≠ "arithmetic-combinator") (h2 : ty ≠ "decider-combinator") : ¬ CombinatorData env (.dict kw) := by
  rintro ⟨_, m, ty', hk, hm, ⟨d', k1, k2⟩, hty, -⟩
  cases hk
  rw [hn] at hm
  cases hm
  obtain ⟨d, h3, h4⟩ := ht
  rw [h3] at k1
  cases k1
  rw [h4] at k2
  cases k2
  exact hty.elim h1 h2

end Sample

example : load 0 (.dict Sample.oneBelt) (World.init Sample.env) =
      (.ok (), (load 0 (.dict Sample.oneBelt) (World.init Sample.env)).2) ∧
    Content (.dict Sample.oneBelt) Sample.oneBelt ∧
    (∀ l, List.lookup "entities" Sample.oneBelt = some (.list l) → ∀ v ∈ l, ¬ CombinatorData Sample.env v) ∧
    loadLeft 0 (.dict Sample.oneBelt) (World.init Sample.env) = .dict Sample.oneBelt := by
  refine ⟨Sample.run_eq (by decide +kernel), .bare _ rfl, ?_, by decide +kernel⟩
  intro l hl v hv
  cases hl
  cases List.mem_singleton.1 hv
  exact Sample.name_type (n := "belt") (ty := "transport-belt") (by decide +kernel)
    ⟨_, rfl, rfl⟩ (by decide) (by decide)

example : (∃ w', load 0 (.dict Sample.oneLoco) (World.init Sample.env) = (.ok (), w')) ∧
    (∀ l, List.lookup "entities" Sample.oneLoco = some (.list l) → ∀ v ∈ l, ¬ CombinatorData Sample.env v) ∧
    loadLeft 0 (.dict Sample.oneLoco) (World.init Sample.env) = .dict [("entities", .list [Sample.locoData])] := by
  refine ⟨⟨_, Sample.run_eq (by decide +kernel)⟩, ?_, by decide +kernel⟩
  intro l hl v hv
  cases hl
  cases List.mem_singleton.1 hv
  exact Sample.name_type (n := "loco") (ty := "locomotive") (by decide +kernel)
    ⟨_, rfl, rfl⟩ (by decide) (by decide)

example : (∃ w', load 0 (.dict Sample.oneAri) (World.init Sample.env) = (.ok (), w')) ∧
    CombinatorData (World.init Sample.env).env Sample.ariData ∧
    (load 1 (loadLeft 0 (.dict Sample.oneAri) (World.init Sample.env)) (World.init Sample.env)).1 = .error .keyError :=
  ⟨⟨_, Sample.run_eq (by decide +kernel)⟩, Sample.ari_combinator, by decide +kernel⟩

namespace Sample

/-- A decider whose control behaviour is rejected. -/
def badDec : Dict := ent "dec" 4 4 ++
  [("control_behavior", .dict [("decider_conditions", .dict [("copy_count_from_input", .bool true), ("odd", .int 1)])])]

/-- It stands between a combinator and a belt. -/
def badData : Dict := [("entities", .list [ariData, .dict badDec, .dict (ent "belt" 1 2)]), ("schedules", .list [])]

end Sample

example : (∃ w1, loadHead 0 Sample.badData (World.init Sample.env) = (.ok (), w1)) ∧
    Content (.dict Sample.badData) Sample.badData ∧
    (∀ v ∈ [Sample.ariData], ∃ k e, v = .dict k ∧ Entity.new Sample.env (some []) (some 0) k = .ok e) ∧
    Entity.new Sample.env (some []) (some 0) Sample.badDec = .error .keyError := by
  refine ⟨⟨_, Sample.run_eq (by decide +kernel)⟩, .bare _ rfl, ?_, by decide +kernel⟩
  intro v hv
  cases List.mem_singleton.1 hv
  exact ⟨_, _, rfl, rfl⟩

example : (∃ e, Entity.new Sample.env (some []) (some 0) (Dict.erase Sample.badDec "control_behavior") = .ok e) ∧
    List.lookup "name" Sample.badDec = some (.str "dec") ∧ TypeOf Sample.env "dec" "decider-combinator" ∧
    entLeft Sample.env (some []) (some 0) Sample.badDec =
      Sample.ent "dec" 4 4 ++ [("control_behavior", .dict [("decider_conditions", .dict [("odd", .int 1)])])] :=
  ⟨⟨_, rfl⟩, by decide +kernel, ⟨_, rfl, rfl⟩, by decide +kernel⟩

/-- C36 does not hold: the conditions of a combinator are emptied. -/
theorem C36_false_combinator : ¬ DataKept := by
  intro h
  have := (h Sample.env (World.init Sample.env) _ (World.init Sample.env) _ 0 0 (.dict Sample.oneAri) .init .init rfl rfl
    rfl (Sample.run_eq (by decide +kernel)) (Sample.run_eq (by decide +kernel))).1
  exact absurd this (by decide +kernel)

/-- C36 does not hold: the schedules are removed, and the second blueprint has none. -/
theorem C36_false_schedules : ¬ DataKept := by
  intro h
  obtain ⟨-, w3, h3, hv⟩ := h Sample.env (World.init Sample.env) _ (World.init Sample.env) _ 0 0 (.dict Sample.oneLoco)
    .init .init rfl rfl rfl (Sample.run_eq (by decide +kernel)) (Sample.run_eq (by decide +kernel))
  have hv := congrArg (fun v => v.schedules.length) hv
  have e : w3 = (load 0 (loadLeft 0 (.dict Sample.oneLoco) (World.init Sample.env)) (World.init Sample.env)).2 := by
    rw [h3]
  rw [e] at hv
  exact absurd hv (by decide +kernel)

/-- A failing import changes the data too: after an import that fails because a later entity is unknown, the data
cannot be imported any more, also not with the missing prototype. -/
theorem C36_failed_import :
    let data := Val.dict [("entities", .list [Sample.ariData, .dict (Sample.ent "new" 0 0)])]
    let w := World.init Sample.env
    let w2 := World.init { Sample.env with
      entities := Sample.env.entities ++ [("new", Sample.proto "lamp" (Sample.box 0 0 1 1))] }
    (load 0 data w).1 = .error .unknownEntity ∧ (load 0 data w2).1 = .ok () ∧
    (load 0 (loadLeft 0 data w) w2).1 = .error .keyError := by
  dsimp only
  refine ⟨by decide +kernel, by decide +kernel, by decide +kernel⟩

end Verif
