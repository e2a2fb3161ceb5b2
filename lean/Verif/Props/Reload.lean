import Verif.Proofs.ReloadAll
import Verif.Props.RoundTrip
import Verif.Props.Codec
/-!
# Importing an exported blueprint (C35)

In full the property asks that importing the export of every blueprint gives the same blueprint.  The code fails
to do so for some blueprints, shown by the witnesses below; what is proved here covers every blueprint with the
restrictions listed in `Reloadable`, after every history of calls.
-/
set_option autoImplicit false

namespace Verif
open Spec

/-- C35 in full, for data. -/
def ReloadsSame : Prop := ∀ (env : Env) (w w1 : World) (b : BpId) (v : Val), Reachable env w →
  toJson b w = (.ok v, w1) → ∃ w3, load 0 v (World.init w.env) = (.ok (), w3) ∧ SameBlueprint w b w3 0

/-- C35 for data.  After any calls that do not rename entities, replace prototype data or set custom mixins, the
export of a reloadable blueprint is accepted by every blank blueprint over the same prototype data, in any
reachable world, and gives a blueprint with the same content. -/
theorem C35_reload_partial {env env2 : Env} {w w1 w2 : World} {b b2 : BpId} {v : Val}
    (hrun : SteadyRun env w) (hr : Reloadable w b) (he : toJson b w = (.ok v, w1))
    (hw2 : Reachable env2 w2) (henv : w2.env = w.env) (hb : Blank (w2.bp b2)) :
    ∃ w3, load b2 v w2 = (.ok (), w3) ∧ SameBlueprint w b w3 b2 := by
  obtain ⟨w3, h1, h2⟩ := reload hrun hr he hw2.owned henv hb
  refine ⟨w3, h1, h2 ?_⟩
  have h := Reachable.step (.load b2 v) hw2 trivial
  have e : ((Op.load b2 v).run w2).2 = w3 := by
    show (load b2 v w2).2 = w3
    rw [h1]
  rw [e] at h
  exact h.owned

/-- C35 for exchange strings, given to the constructor of a further blueprint; the argument `data` is not looked at. -/
theorem C35_reload_string_partial {env env2 : Env} {w w1 w2 : World} {b b2 : BpId} {rt : Runtime} {v : Val}
    {s : String} (hz : Lossless rt.zlib) (hrun : SteadyRun env w) (hr : Reloadable w b)
    (hs : toStringBp rt b w = (.ok s, w1)) (hv : (toJson b w).1 = .ok v) (hp : Plain rt.float v)
    (hw2 : Reachable env2 w2) (henv : w2.env = w.env) (hb : w2.bp b2 = {}) (data : Val) (strict : Bool) :
    ∃ w3, construct rt b2 (some s) data none strict w2 = (.ok (), w3) ∧ SameBlueprint w b w3 b2 := by
  unfold toStringBp at hs
  simp only [M.bind_eq_ok] at hs
  obtain ⟨v', w', h1, h2⟩ := hs
  rw [h1] at hv
  cases hv
  cases h2
  have hw3 : Reachable env2 (w2.setBp b2 { strict := strict }) := by
    have h := Reachable.step (.setStrict b2 strict) hw2 trivial
    have e : ((Op.setStrict b2 strict).run w2).2 = w2.setBp b2 { w2.bp b2 with strict := strict } := rfl
    rw [e, hb] at h
    exact h
  obtain ⟨w3, h3, h4⟩ := C35_reload_partial hrun hr h1 hw3 henv
    (b2 := b2) (by rw [setBp_bp_self]; exact ⟨rfl, rfl, rfl, rfl⟩)
  refine ⟨w3, ?_, h4⟩
  obtain ⟨ents, icons, -, -, rfl⟩ := toJson_ok.1 h1
  unfold construct ctorData
  dsimp only
  rw [decode_encode hz hp]
  exact h3

namespace Sample

/-- A decider joined to the arithmetic combinator at connectors of the same number. -/
def decWired : Val :=
  .dict [("entity_number", .int 7), ("name", .str "dec"), ("position", pos 3 4), ("direction", .int 2),
    ("connections", .dict [("2", .dict [("red", .list
      [.dict [("entity_id", .int 9), ("circuit_id", .int 2)]])])])]

/-- A blueprint with three entities, one wire, an icon, a label colour and a schedule. -/
def wiredData : Val :=
  .dict [("blueprint", .dict
    [("item", .str "blueprint"), ("label", .str "sample"), ("version", .int 5),
     ("label_color", .dict [("r", .int 1), ("g", .flt (1/4)), ("b", .int 0), ("a", .int 1)]),
     ("icons", .list [.dict [("index", .int 2), ("signal", sig "iron" "item")]]),
     ("entities", .list [decWired, ariData, locoData]),
     ("schedules", .list [.dict [("locomotives", .list [.int 12]), ("schedule", .list [])]])])]

def wired : World := (load 0 wiredData (World.init env)).2

theorem wired_objs : (wired.bp 0).objs = [1, 0, 2] := by decide +kernel

theorem wired_reloadable : Reloadable wired 0 where
  strict := by rw [wired_objs]; decide +kernel
  constants := by
    rw [wired_objs]
    intro r hr c hc
    have h0 : (wired.heap 0).cb.all (fun c => c.chain == [.Decider, .Combinator] &&
      c.attrs.all (fun p => match p.2 with | .num _ => false | _ => true)) = true := by decide +kernel
    have h1 : (wired.heap 1).cb.all (fun c => c.chain == [.Arithmetic, .Combinator]) = true := by decide +kernel
    have h2 : (wired.heap 2).cb.isNone = true := by decide +kernel
    simp only [List.mem_cons, List.not_mem_nil, or_false] at hr
    rcases hr with rfl | rfl | rfl
    · rw [hc] at h1
      have hch : c.chain = [.Arithmetic, .Combinator] := by simpa using h1
      unfold ReadableConstants
      rw [hch]
      exact ⟨fun h => absurd h (by decide), fun h => absurd h (by decide)⟩
    · rw [hc] at h0
      simp only [Option.all_some, Bool.and_eq_true, beq_iff_eq, List.all_eq_true] at h0
      have hno : ∀ k, ¬ ConstantAt c k := by
        rintro k ⟨z, hz⟩
        have := h0.2 _ (mem_of_lookup hz)
        cases this
      exact ⟨fun _ => hno _, fun _ => ⟨hno _, hno _⟩⟩
    · rw [hc] at h2
      cases h2
  names := by
    rw [wired_objs]
    intro r hr d w' _ h
    have : ∀ r ∈ [1, 0, 2], ¬ Mx.FilterInserter ∈ (wired.heap r).klass.chain := by decide +kernel
    exact absurd h (this r hr)
  sorted := by rw [wired_objs]; unfold Before; decide +kernel
  numbered := by
    rw [wired_objs]
    intro r hr
    have : ∀ r ∈ [1, 0, 2], ((wired.heap r).auto).isSome = true := by decide +kernel
    exact Option.isSome_iff_exists.1 (this r hr)
  distinct := by rw [wired_objs]; decide +kernel
  wires := by
    intro c hc
    have : (wired.bp 0).conns = [⟨some 0, some 1, 2, 2, "red"⟩] := by decide +kernel
    rw [this] at hc
    rw [List.mem_singleton.1 hc, wired_objs]
    exact ⟨0, by decide, 1, by decide, rfl, rfl, rfl, .inr (by decide +kernel)⟩
  schedules := by rw [wired_objs]; decide +kernel

end Sample

/-- The export of this blueprint. -/
def Sample.wiredOut : Val :=
  .dict [("blueprint", .dict [("item", .str "blueprint"), ("label", .str "sample"),
    ("label_color", .dict [("r", .int 1), ("g", .flt (1/4)), ("b", .int 0), ("a", .int 1)]),
    ("entities", .list [
      .dict [("entity_number", .int 1), ("name", .str "ari"), ("position", pos 1 2),
        ("connections", .dict [("2", .dict [("red", .list
          [.dict [("entity_id", .int 2), ("circuit_id", .int 2)]])])]),
        ("control_behavior", .dict [("arithmetic_conditions", .dict
          [("operation", .str "*"), ("first_signal", sig "A" "virtual"), ("second_constant", .int 3),
           ("output_signal", sig "iron" "item")])])],
      .dict [("entity_number", .int 2), ("name", .str "dec"), ("position", pos 3 4),
        ("connections", .dict [("2", .dict [("red", .list
          [.dict [("entity_id", .int 1), ("circuit_id", .int 2)]])])]), ("direction", .int 2)],
      .dict locoOut]),
    ("icons", .list [.dict [("index", .int 2), ("signal", sig "iron" "item")]]), ("version", .int 5),
    ("schedules", .list [.dict [("locomotives", .list [.int 3]), ("schedule", .list [])]])])]

theorem Sample.wired_out : (toJson 0 wired).1 = .ok wiredOut := by decide +kernel

theorem Sample.wired_run : SteadyRun env wired := .step (.load 0 wiredData) .init trivial trivial

theorem Sample.wired_plain : Plain rt.float wiredOut := by
  simp only [wiredOut, Plain, PlainDict, PlainList, pos, sig, locoOut, Val.flt, Val.int, and_true, true_and,
    rt_quarter]
  decide +kernel

/-- The hypotheses of `C35_reload_partial` are met by a blueprint with wires, schedules, icons and a colour. -/
example : ∃ w3, load 4 Sample.wiredOut (World.init Sample.env) = (.ok (), w3) ∧ SameBlueprint Sample.wired 0 w3 4 :=
  C35_reload_partial Sample.wired_run Sample.wired_reloadable (Sample.run_eq Sample.wired_out) .init
    Sample.wired_run.inv.1.symm ⟨rfl, rfl, rfl, rfl⟩

/-- The hypotheses of `C35_reload_string_partial` are met by the same blueprint. -/
example : ∃ w3, construct Sample.rt 4 (some (encode Sample.rt Sample.wiredOut)) .none none true
      (World.init Sample.env) = (.ok (), w3) ∧
    SameBlueprint Sample.wired 0 w3 4 :=
  C35_reload_string_partial (w1 := (toJson 0 Sample.wired).2) Sample.rt_lossless Sample.wired_run
    Sample.wired_reloadable
    (by
      unfold toStringBp
      rw [M.bind_ok (Sample.run_eq Sample.wired_out)]
      rfl)
    Sample.wired_out Sample.wired_plain .init Sample.wired_run.inv.1.symm rfl .none true

/-! ### Not every blueprint survives -/

/-- C35 does not hold: a wire between connectors with different numbers is attached to other connectors. -/
theorem C35_false_wires : ¬ ReloadsSame := by
  intro h
  obtain ⟨w3, h1, h2⟩ := h Sample.env Sample.loaded _ 0 _ Sample.loaded_reachable (Sample.run_eq Sample.loaded_out)
  have hrun : SteadyRun Sample.env Sample.loaded := .step (.load 0 Sample.data) .init trivial trivial
  rw [hrun.inv.1] at h1
  have hw : Wired Sample.loaded 0 0 2 1 1 "red" := by
    have hc : (Sample.loaded.bp 0).conns = [⟨some 0, some 1, 1, 2, "red"⟩] := by decide +kernel
    have ho : (Sample.loaded.bp 0).objs = [1, 0, 2] := by decide +kernel
    refine ⟨⟨some 0, some 1, 1, 2, "red"⟩, by rw [hc]; simp, 1, 0, by rw [ho]; rfl, by rw [ho]; rfl, rfl, .inr ⟨rfl, rfl, rfl, rfl⟩⟩
  obtain ⟨c, hc, r, s, -, -, hJ⟩ := (h2.wires 0 2 1 1 "red").2 hw
  have e := (congrArg Prod.snd h1).symm
  have hall : ∀ c ∈ (w3.bp 0).conns, c.fromSide = c.toSide := by
    rw [show w3 = _ from e]; decide +kernel
  have := hall c hc
  rcases hJ.2 with ⟨-, a, -, b⟩ | ⟨-, a, -, b⟩ <;> omega

/-- C35 does not hold: the export of a decider combinator that compares a signal with a constant is refused. -/
theorem C35_false_decider : ¬ ReloadsSame := by
  intro h
  have hrun : SteadyRun Sample.env (Sample.made Sample.decConst) :=
    .step (.make 0 Sample.decConst) .init trivial trivial
  have hv : (match (toJson 0 (Sample.made Sample.decConst)).1 with
      | .ok v => (load 0 v (World.init Sample.env)).1
      | .error _ => .ok ()) = .error .typeError := by decide +kernel
  cases h1 : (toJson 0 (Sample.made Sample.decConst)).1 with
  | error e => rw [h1] at hv; cases hv
  | ok v =>
    rw [h1] at hv
    obtain ⟨w3, h3, -⟩ := h Sample.env _ _ 0 v (Sample.made_reachable _) (Sample.run_eq h1)
    rw [hrun.inv.1] at h3
    dsimp only at hv
    rw [h3] at hv
    cases hv

end Verif
