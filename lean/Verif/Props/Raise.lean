import Verif.Proofs.RaiseLoad
import Verif.Proofs.RaiseExport
import Verif.Props.Codec
/-!
# C81: which exceptions imports and exports can raise
-/
set_option autoImplicit false

namespace Verif
open Spec

/-- Whatever the value and the state, an import completes or raises one of ten kinds of exceptions (`unmodelled`: data
that the model does not describe). -/
theorem C81_import {b : BpId} {data : Val} {w w' : World} {e : Exc} (h : load b data w = (.error e, w')) :
    e ∈ importErrors ∨ e = .unmodelled := by
  have := (raises_load (t := False) (b := b) (data := data) (w := w) False.elim False.elim).1 e (by rw [h])
  exact this.imp_right (·.1)

/-- In particular never an error of a duplicate, of a division, of an item or of an exchange string. -/
theorem C81_never {b : BpId} {data : Val} {w w' : World} {e : Exc} (h : load b data w = (.error e, w')) :
    e ≠ .duplicateEntity ∧ e ≠ .zeroDivisionError ∧ e ≠ .unknownItem ∧ e ≠ .invalidExchangeString := by
  rcases C81_import h with h | rfl
  · refine ⟨?_, ?_, ?_, ?_⟩ <;> (rintro rfl; revert h; decide)
  · decide

/-- Data with ordinary values are described by the model: into an empty blueprint without custom behaviours their
import completes or raises one of the ten kinds. -/
theorem C81_ordinary {b : BpId} {data : Val} {w w' : World} {e : Exc} (hd : Ordinary data) (hc : (w.bp b).custom = [])
    (ho : (w.bp b).objs = []) (h : load b data w = (.error e, w')) : e ∈ importErrors := by
  have hw : OrdinaryBp b w := ⟨hc, fun r hr => by rw [ho] at hr; cases hr⟩
  rcases (raises_load (t := True) (b := b) (data := data) (w := w) (fun _ => hd) (fun _ => hw)).1 e (by rw [h]) with h | h
  · exact h
  · exact absurd trivial h.2

namespace Sample

def raiseEnv : Env := { env with
  entities := ("speaker", proto "programmable-speaker" (box (-1/2) (-1/2) (1/2) (1/2))) :: env.entities,
  signals := ("odd", .dict []) :: ("flat", .none) :: env.signals }

/-- A blueprint with one entity. -/
def one (name : String) (d : Dict) : Val :=
  .dict [("blueprint", .dict [("entities", .list [.dict (ent name 0 0 ++ d)])])]

/-- A blueprint with one icon. -/
def icon (i : Int) (s : String) : Val :=
  .dict [("blueprint", .dict [("icons", .list [.dict [("index", .int i), ("signal", sig s "item")]])])]

/-- Data whose import raises the given exception. -/
def failing : Exc → Val
  | .typeError => .none
  | .valueError => one "ari" [("control_behavior", .dict [("arithmetic_conditions", .dict [("operation", .str "?")])])]
  | .keyError => .dict [("blueprint", .dict [("entities", .list [.dict [("name", .str "belt"), ("position", .dict [])]])])]
  | .indexError => icon 9 "iron"
  | .attributeError => .list []
  | .overflowError => one "speaker" [("parameters", .dict [("playback_volume", .int (10 ^ 400))])]
  | .unknownEntity => one "nothing" []
  | .unknownRecipe => one "asm" [("recipe", .str "nothing")]
  | .unknownSignal => icon 1 "nothing"
  | _ => .dict [("blueprint", .dict [("tiles", .list [.dict (ent "nothing" 0 0)])])]

end Sample

/-- Each of the ten kinds occurs, with ordinary data loaded into a new blueprint. -/
theorem C81_each {e : Exc} (h : e ∈ importErrors) :
    ∃ env data, Ordinary data ∧ (load 0 data (World.init env)).1 = .error e := by
  refine ⟨Sample.raiseEnv, Sample.failing e, ordinary_of_check ?_, ?_⟩
  · revert e; decide +kernel
  · revert e; decide +kernel

/-- The exceptions of the constructor with a string or with data. -/
theorem C81_construct {rt : Runtime} {b : BpId} {string : Option String} {data : Val} {custom : Option Custom}
    {strict : Bool} {w w' : World} {e : Exc} (h : construct rt b string data custom strict w = (.error e, w')) :
    e ∈ importErrors ∨ (e = .invalidExchangeString ∧ ∃ s, string = some s) ∨ e = .unmodelled := by
  unfold construct at h
  rw [M.bind_eq] at h
  rcases hs : ctorData rt string data with e' | v
  · have : e' = e := by
      rw [show (M.lift (ctorData rt string data) : M Val) = M.lift (.error e') by rw [hs]] at h
      exact (Except.error.inj (congrArg Prod.fst h))
    subst this
    cases string with
    | none => cases hs
    | some s =>
      rcases C10_kinds_partial rt s hs with rfl | rfl | rfl | rfl
      · exact .inr (.inl ⟨rfl, s, rfl⟩)
      · exact .inl (by decide)
      · exact .inl (by decide)
      · exact .inr (.inr rfl)
  · rw [hs] at h
    have h : loadGiven b v _ = (.error e, w') := h
    cases v with
    | none => cases h
    | _ => exact (C81_import h).imp_right .inr

/-- With ordinary data and without custom behaviours the constructor completes or raises one of the ten kinds. -/
theorem C81_construct_data {rt : Runtime} {b : BpId} {data : Val} {strict : Bool} {w w' : World} {e : Exc}
    (hd : Ordinary data) (h : construct rt b none data none strict w = (.error e, w')) : e ∈ importErrors := by
  have h : loadGiven b data (w.setBp b { custom := [], strict := strict }) = (.error e, w') := h
  have h : load b data (w.setBp b { custom := [], strict := strict }) = (.error e, w') := by
    cases data with
    | none => cases h
    | _ => exact h
  exact C81_ordinary hd (by rw [setBp_bp_self]) (by rw [setBp_bp_self]) h

/-- The export of every state that the program can reach completes or raises one of three kinds of exceptions; the model
describes all exports. -/
theorem C81_export {env : Env} {b : BpId} {w w' : World} {e : Exc} (hw : Reachable env w)
    (h : toJson b w = (.error e, w')) : e ∈ exportErrors :=
  emits_toJson (b := b) hw.alertOk e (by rw [h])

/-- So does the export of an entity. -/
theorem C81_entity {env : Env} {r : Ref} {w w' : World} {e : Exc} (hw : Reachable env w)
    (h : entToJson r w = (.error e, w')) : e ∈ exportErrors :=
  emits_entity (hw.alertOk r) e (by rw [h])

/-- And the export of a string. -/
theorem C81_export_string {env : Env} {rt : Runtime} {b : BpId} {w w' : World} {e : Exc} (hw : Reachable env w)
    (h : toStringBp rt b w = (.error e, w')) : e ∈ exportErrors := by
  have : Emits (toStringBp rt b w).1 := by
    unfold toStringBp
    exact .bindM (emits_toJson hw.alertOk) fun _ _ _ => .ok _
  exact this e (by rw [h])

/-- Each of the three kinds occurs. -/
theorem C81_export_each {e : Exc} (h : e ∈ exportErrors) :
    ∃ env w, Reachable env w ∧ (toJson 0 w).1 = .error e := by
  have h : e = .typeError ∨ e = .keyError ∨ e = .attributeError := by simpa [exportErrors] using h
  rcases h with rfl | rfl | rfl
  · exact ⟨_, ((Op.load 0 (Sample.icon 1 "flat")).run (World.init Sample.raiseEnv)).2, .step _ .init trivial, by decide +kernel⟩
  · exact ⟨_, ((Op.load 0 (Sample.icon 1 "odd")).run (World.init Sample.raiseEnv)).2, .step _ .init trivial, by decide +kernel⟩
  · exact ⟨_, ((Op.addMixins 0 [.Container]).run Sample.belts).2, .step _ Sample.belts_reachable (show 0 < Sample.belts.next by decide +kernel), by decide +kernel⟩

/-- The sample blueprint has ordinary values, and importing it without the prototypes raises one of the ten kinds. -/
example : Ordinary Sample.data ∧
    ∃ w', load 0 Sample.data (World.init {}) = (.error .unknownSignal, w') ∧ Exc.unknownSignal ∈ importErrors :=
  have h : (load 0 Sample.data (World.init {})).1 = .error .unknownSignal := by decide +kernel
  ⟨ordinary_of_check (by decide +kernel), _, Sample.run_eq h,
    C81_ordinary (ordinary_of_check (by decide +kernel)) rfl rfl (Sample.run_eq h)⟩

example : ∃ w', construct Sample.rt 0 (some "1") .none none true (World.init {}) = (.error .invalidExchangeString, w') ∧
    construct Sample.rt 0 none Sample.data none true (World.init {}) =
      (.error .unknownSignal, (construct Sample.rt 0 none Sample.data none true (World.init {})).2) ∧
    Exc.unknownSignal ∈ importErrors :=
  have h : (construct Sample.rt 0 none Sample.data none true (World.init {})).1 = .error .unknownSignal := by
    decide +kernel
  ⟨_, Sample.run_eq (by decide +kernel), Sample.run_eq h,
    C81_construct_data (ordinary_of_check (by decide +kernel)) (Sample.run_eq h)⟩

/-- Data that are not ordinary: a text as a coordinate is outside the model. -/
example : (load 0 (.dict [("blueprint", .dict [("entities", .list [.dict [("name", .str "belt"),
    ("position", .dict [("x", .str "a"), ("y", .str "b")])]])])]) (World.init Sample.env)).1 = .error .unmodelled := by
  decide +kernel

end Verif
