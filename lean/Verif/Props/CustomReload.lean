import Verif.Proofs.CustomRun
import Verif.Props.Custom
import Verif.Props.Reload
import Verif.Props.Tidy
/-!
# Importing an exported blueprint with custom behaviours (C80, C35)

In full C80 asks that the export of every blueprint with custom behaviours is taken by a blueprint with the same
custom behaviours and gives the same content.  The code fails to do so where a behaviour comes after `Items`
(`C80_reload_false` in `Props/Custom.lean`); what is proved here covers the blueprints whose entities meet `FitsIn`,
which extends `C35_reload_partial` to blueprints with custom behaviours.
-/
set_option autoImplicit false

namespace Verif
open Spec

/-- C80 and C35 for data.  After any calls that do not replace prototype data and do not change the name or the
behaviours of an entity, the export of a reloadable blueprint whose entities fit to the custom behaviours `c` is
accepted by every empty blueprint with these custom behaviours over the same prototype data, in any reachable world,
and gives a blueprint with the same content. -/
theorem C80_reload_partial {c : Custom} {env env2 : Env} {w w1 w2 : World} {b b2 : BpId} {v : Val}
    (hrun : SettledRun env w) (hr : Reloadable w b) (hf : ∀ r ∈ (w.bp b).objs, FitsIn c w r)
    (he : toJson b w = (.ok v, w1))
    (hw2 : Reachable env2 w2) (henv : w2.env = w.env) (hb : BlankWith c (w2.bp b2)) :
    ∃ w3, load b2 v w2 = (.ok (), w3) ∧ SameBlueprint w b w3 b2 := by
  obtain ⟨w3, h1, h2⟩ := reload_in hrun.reachable (hrun.fitting hrun.reachable.owned hr.strict hf) hr he hw2.owned henv hb
  refine ⟨w3, h1, h2 ?_⟩
  have h := Reachable.step (.load b2 v) hw2 trivial
  have e : ((Op.load b2 v).run w2).2 = w3 := by
    show (load b2 v w2).2 = w3
    rw [h1]
  rw [e] at h
  exact h.owned

/-- C80 and C35 for exchange strings, given to the constructor of a further blueprint together with the custom
behaviours. -/
theorem C80_reload_string_partial {c : Custom} {env env2 : Env} {w w1 w2 : World} {b b2 : BpId} {rt : Runtime} {v : Val}
    {s : String} (hz : Lossless rt.zlib) (hrun : SettledRun env w) (hr : Reloadable w b)
    (hf : ∀ r ∈ (w.bp b).objs, FitsIn c w r)
    (hs : toStringBp rt b w = (.ok s, w1)) (hv : (toJson b w).1 = .ok v) (hp : Plain rt.float v)
    (hw2 : Reachable env2 w2) (henv : w2.env = w.env) (hb : w2.bp b2 = {}) (data : Val) (strict : Bool) :
    ∃ w3, construct rt b2 (some s) data (some c) strict w2 = (.ok (), w3) ∧ SameBlueprint w b w3 b2 := by
  unfold toStringBp at hs
  simp only [M.bind_eq_ok] at hs
  obtain ⟨v', w', h1, h2⟩ := hs
  rw [h1] at hv
  cases hv
  cases h2
  have hw3 : Reachable env2 (w2.setBp b2 { custom := c, strict := strict }) := by
    have h := Reachable.step (.setCustom b2 c) (Reachable.step (.setStrict b2 strict) hw2 trivial) trivial
    have e : ((Op.setCustom b2 c).run ((Op.setStrict b2 strict).run w2).2).2 =
        (w2.setBp b2 { w2.bp b2 with strict := strict }).setBp b2
          { (w2.setBp b2 { w2.bp b2 with strict := strict }).bp b2 with custom := c } := rfl
    rw [e, setBp_bp_self, hb, setBp_setBp] at h
    exact h
  obtain ⟨w3, h3, h4⟩ := C80_reload_partial hrun hr hf h1 hw3 henv
    (b2 := b2) (by rw [setBp_bp_self]; exact ⟨rfl, rfl, rfl, rfl⟩)
  refine ⟨w3, ?_, h4⟩
  obtain ⟨ents, icons, -, -, rfl⟩ := toJson_ok.1 h1
  unfold construct ctorData
  dsimp only
  rw [decode_encode hz hp]
  exact h3

/-- C80: a strict entity fits when it is made, if nothing comes after `Items` and the custom behaviours leave the control
behaviour as it is; it fits as long as nothing renames it or changes its behaviours. -/
theorem C80_fits {b : BpId} {kw : Dict} {w w1 w' : World} {r : Ref} (hm : layerMake b kw w = (.ok r, w1))
    (hs : (w1.heap r).strict = true) (hi : ∀ m, ¬ [Mx.Items, m].Sublist (behaviours w1 r))
    (hk : ∀ t, TypeOf w.env (w1.heap r).name t → TableControls (w1.heap r).klass t) (hl : Later r w1 w') :
    FitsIn (w.bp b).custom w' r := by
  obtain ⟨e, n, hnew, hh⟩ := layerMake_new hm
  obtain ⟨h1, h2⟩ := layerMake_placed hm
  have h3 : SolidP (fun env name k => ∃ t rs, TypeOf env name t ∧ List.lookup t entityPrototypes = some rs ∧
      Klass.extend 0 Klass.entity ((List.lookup t (w.bp b).custom).getD [] ++ rs) = .ok k ∧
      (∀ m, ¬ [Mx.Items, m].Sublist k.chain) ∧ TableControls k t) w1.env (w1.heap r) := by
    unfold behaviours at hi
    rw [h2]
    rw [hh] at hs hi hk ⊢
    have h4 := SolidP.new (P := fun env name k => ∃ t rs, TypeOf env name t ∧ List.lookup t entityPrototypes = some rs ∧
      Klass.extend 0 Klass.entity ((List.lookup t (w.bp b).custom).getD [] ++ rs) = .ok k ∧
      (∀ m, ¬ [Mx.Items, m].Sublist k.chain) ∧ TableControls k t) hnew hs (Entity.new_nodup hnew) (by
        rcases Entity.new_made hnew with ⟨h, -⟩ | ⟨-, data, t, rs, g1, -, g2, g3, g4⟩
        · rw [show e.strict = true from hs] at h; cases h
        · exact ⟨t, rs, typeOf_of g1 g2, g3, g4, hi, hk t (typeOf_of g1 g2)⟩)
    exact h4.update rfl h4.dir (.inl rfl)
  exact (SolidP.later h1 h3 hl).2.2.typed

/-- C80 and C33 for every entity of such a world that fits, however it was made. -/
theorem C80_fitting_exports_again_partial {c : Custom} {env : Env} {w w' w2 : World} {r : Ref} {b2 : BpId} {d : Dict}
    (hrun : SettledRun env w) (hr : r < w.next) (hs : (w.heap r).strict = true) (hf : FitsIn c w r)
    (he : entToJson r w = (.ok (.dict d), w'))
    (hc : ∀ c, (w.heap r).cb = some c → ReadableConstants c) (hn : ReadableNames env (w.heap r) d)
    (henv : w2.env = env) (hw2 : (w2.bp b2).conns = []) (hcs : (w2.bp b2).custom = c) :
    ∃ r2 w3 d' w4, layerMake b2 d w2 = (.ok r2, w3) ∧ entToJson r2 w3 = (.ok (.dict d'), w4) ∧
      entitySettings d' = entitySettings d ∧ behaviours w3 r2 = behaviours w r := by
  obtain ⟨h1, h2⟩ := hrun.inv
  obtain ⟨cs, h3, h4⟩ := FitsIn.solid hf (h2 r hr hs)
  obtain ⟨r2, w3, d', w4, k1, k2, k3, k4, -⟩ := SolidIn.again h3 he hc (h1.symm ▸ hn) (henv.trans h1.symm) hw2
    (fun data ty e1 e2 => by rw [hcs]; exact h4 data ty e1 e2)
  exact ⟨r2, w3, d', w4, k1, k2, k3, by unfold behaviours; rw [k4]⟩

/-- C80 and C35 for data, with conditions on the calls made instead of conditions on order, numbers, schedules and the
ends of wires (as in `C35_history_partial`, where custom behaviours are not allowed). -/
theorem C80_history_partial {c : Custom} {env env2 : Env} {w w1 w2 : World} {b b2 : BpId} {v : Val}
    (hrun : RunOf (fun w op => Orderly w op ∧ KeepsScheduled w op ∧ KeepsWired w op ∧ WiresInside w op ∧ Settled op) env w)
    (hr : ReadableSettings w b) (hf : ∀ r ∈ (w.bp b).objs, FitsIn c w r) (he : toJson b w = (.ok v, w1))
    (hw2 : Reachable env2 w2) (henv : w2.env = w.env) (hb : BlankWith c (w2.bp b2)) :
    ∃ w3, load b2 v w2 = (.ok (), w3) ∧ SameBlueprint w b w3 b2 := by
  have hs : SettledRun env w := by
    clear hr he henv hf
    induction hrun with
    | init => exact .init
    | step op _ hok hp ih => exact .step op ih hok hp.2.2.2.2
  have hn := run_numbered (hrun.mono (fun _ _ hp => completes_of_orderly hp.1)) b
  exact C80_reload_partial hs
    { toReadableContent := hr.content hrun.reachable.owned
        (run_wires (hrun.mono (fun _ _ hp => ⟨hp.2.2.1, hp.2.2.2.1⟩)) b) he
      sorted := run_sorted (hrun.mono (fun _ _ hp => hp.1)) b
      numbered := hn.present
      distinct := hn.distinct
      schedules := run_schedules (hrun.mono (fun _ _ hp => hp.2.1)) b } hf he hw2 henv hb

/-! ### The hypotheses can be met -/

namespace Sample

theorem redLoco_settled : SettledRun env redLoco :=
  .step (.make 0 locoKw) (.step (.setCustom 0 [("locomotive", [.Color])]) .init trivial trivial) trivial trivial

theorem redLoco_objs : (redLoco.bp 0).objs = [0] := by decide +kernel

theorem redLoco_conns : (redLoco.bp 0).conns = [] := by decide +kernel

theorem redLoco_schedules : (redLoco.bp 0).schedules = [] := by decide +kernel

theorem redLoco_reloadable : Reloadable redLoco 0 where
  strict := by rw [redLoco_objs]; decide +kernel
  constants := by
    rw [redLoco_objs]
    intro r hr c hc
    rw [List.mem_singleton.1 hr] at hc
    have : (redLoco.heap 0).cb.isNone = true := by decide +kernel
    rw [hc] at this
    cases this
  names := by
    rw [redLoco_objs]
    intro r hr d w' _ h
    rw [List.mem_singleton.1 hr] at h
    exact absurd h (by decide +kernel)
  wires := by rw [redLoco_conns]; intro c hc; cases hc
  sorted := by rw [redLoco_objs]; exact List.pairwise_singleton _ _
  numbered := by
    rw [redLoco_objs]
    intro r hr
    rw [List.mem_singleton.1 hr]
    exact Option.isSome_iff_exists.1 (by decide +kernel)
  distinct := by rw [redLoco_objs]; decide +kernel
  schedules := by rw [redLoco_schedules]; intro s hs; cases hs

theorem redLoco_fits : ∀ r ∈ (redLoco.bp 0).objs, FitsIn [("locomotive", [.Color])] redLoco r := by
  rw [redLoco_objs]
  intro r hr
  rw [List.mem_singleton.1 hr]
  exact C80_fits (b := 0) redLoco_run (by decide +kernel) (fun m => by cases m <;> decide +kernel)
    (fun t ht => by
      rw [TypeOf.inj ht (ty' := "locomotive") ⟨_, rfl, rfl⟩]
      exact ⟨_, _, rfl, rfl, by decide +kernel, by decide +kernel⟩) .refl

def redOut : Val := .dict [("blueprint", .dict [("item", .str "blueprint"), ("label", .str ""),
  ("entities", .list [.dict (("entity_number", .int 1) :: locoKw)]), ("icons", .list []), ("version", .int 0)])]

theorem redLoco_out : (toJson 0 redLoco).1 = .ok redOut := by decide +kernel

theorem redOut_plain : Plain rt.float redOut := by
  simp only [redOut, Plain, PlainDict, PlainList, locoKw, ent, pos, List.cons_append, List.nil_append, Val.int, and_true, true_and]
  decide +kernel

end Sample

-- a red locomotive
example : ∃ w3, load 4 Sample.redOut ((Op.setCustom 4 [("locomotive", [.Color])]).run (World.init Sample.env)).2 = (.ok (), w3) ∧
    SameBlueprint Sample.redLoco 0 w3 4 :=
  C80_reload_partial Sample.redLoco_settled Sample.redLoco_reloadable Sample.redLoco_fits (Sample.run_eq Sample.redLoco_out)
    (.step (.setCustom 4 [("locomotive", [.Color])]) .init trivial) Sample.redLoco_settled.inv.1.symm ⟨rfl, rfl, rfl, rfl⟩

example : ∃ w3, construct Sample.rt 4 (some (encode Sample.rt Sample.redOut)) .none (some [("locomotive", [.Color])]) true
      (World.init Sample.env) = (.ok (), w3) ∧
    SameBlueprint Sample.redLoco 0 w3 4 :=
  C80_reload_string_partial (w1 := (toJson 0 Sample.redLoco).2) Sample.rt_lossless Sample.redLoco_settled
    Sample.redLoco_reloadable Sample.redLoco_fits
    (by
      unfold toStringBp
      rw [M.bind_ok (Sample.run_eq Sample.redLoco_out)]
      rfl)
    Sample.redLoco_out Sample.redOut_plain .init Sample.redLoco_settled.inv.1.symm rfl .none true

example : ∃ r2 w3 d' w4, layerMake 0 (("entity_number", .int 1) :: Sample.locoKw) Sample.colourful = (.ok r2, w3) ∧
    entToJson r2 w3 = (.ok (.dict d'), w4) ∧ entitySettings d' = Sample.locoKw := by
  obtain ⟨r2, w3, d', w4, h1, h2, h3, -⟩ := C80_fitting_exports_again_partial (w2 := Sample.colourful) (b2 := 0) (r := 0)
    Sample.redLoco_settled (by decide +kernel) (by decide +kernel)
    (Sample.redLoco_fits 0 (by rw [Sample.redLoco_objs]; exact List.mem_singleton.2 rfl))
    (Sample.run_eq (a := .ok (Val.dict (("entity_number", .int 1) :: Sample.locoKw))) (by decide +kernel))
    (fun c hc => by cases hc) (fun h => absurd h (by decide +kernel)) rfl rfl rfl
  exact ⟨r2, w3, d', w4, h1, h2, h3.trans (by decide +kernel)⟩

-- the run of `C80_history_partial`
example : RunOf (fun w op => Orderly w op ∧ KeepsScheduled w op ∧ KeepsWired w op ∧ WiresInside w op ∧ Settled op)
    Sample.env Sample.redLoco ∧ ReadableSettings Sample.redLoco 0 := by
  refine ⟨.step (.make 0 Sample.locoKw) (.step (.setCustom 0 [("locomotive", [.Color])]) .init trivial ?_) trivial ?_,
    Sample.redLoco_reloadable.strict, Sample.redLoco_reloadable.constants, Sample.redLoco_reloadable.names, ?_⟩
  · exact ⟨trivial, (fun _ _ h => nomatch h.1), (fun _ _ h => nomatch h.1), trivial, trivial⟩
  · have h0 : ∀ b, (Sample.colourful.bp b).objs = [] := by
      intro b
      show (((World.init Sample.env).setBp 0 _).bp b).objs = []
      rw [setBp_bp]
      split <;> rfl
    refine ⟨trivial, (fun b r h => ?_), (fun b r h => ?_), trivial, trivial⟩ <;>
    · have h1 : r ∈ (Sample.colourful.bp b).objs := h.1
      rw [h0] at h1
      cases h1
  · rw [Sample.redLoco_conns]; intro c hc; cases hc

-- without the custom behaviours the export is refused
example : (load 4 Sample.redOut (World.init Sample.env)).1 = .error .typeError := by decide +kernel

end Verif
