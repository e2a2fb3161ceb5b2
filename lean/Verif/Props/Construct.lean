import Verif.Proofs.Flagless
import Verif.Spec.ItemNames
import Verif.Props.Codec
import Verif.Props.Sample
/-!
# Property C69: the arguments of `Blueprint(…)`
-/
set_option autoImplicit false

namespace Verif
open Spec

/-! ## C69 The constructor of blueprints -/

/-- Without a string and without data the blueprint is empty. -/
theorem C69_empty (rt : Runtime) (b : BpId) (custom : Option Custom) (strict : Bool) (w : World) :
    construct rt b none .none custom strict w =
      (.ok (), w.setBp b { custom := custom.getD [], strict := strict }) := rfl

/-- With data it is an empty blueprint that loads the data. -/
theorem C69_data (rt : Runtime) (b : BpId) {data : Val} (hd : data ≠ .none) (custom : Option Custom) (strict : Bool)
    (w : World) : construct rt b none data custom strict w =
      load b data (w.setBp b { custom := custom.getD [], strict := strict }) := by
  cases data <;> first | rfl | exact absurd rfl hd

/-- A string is decoded and loaded in the same way; the argument `data` is not looked at. -/
theorem C69_string {rt : Runtime} {s : String} {v : Val} (hs : decode rt s = .ok v) (b : BpId) (data : Val)
    (custom : Option Custom) (strict : Bool) (w : World) :
    construct rt b (some s) data custom strict w = construct rt b none v custom strict w := by
  unfold construct ctorData
  dsimp only
  rw [hs]

/-- In particular the exchange string of a value. -/
theorem C69_encoded {rt : Runtime} (hz : Lossless rt.zlib) {v : Val} (hv : Plain rt.float v) (b : BpId) (data : Val)
    (custom : Option Custom) (strict : Bool) (w : World) :
    construct rt b (some (encode rt v)) data custom strict w = construct rt b none v custom strict w :=
  C69_string (C09_roundtrip hz hv) b data custom strict w

/-- A string that cannot be decoded raises, and the blueprint is left empty. -/
theorem C69_bad_string {rt : Runtime} {s : String} {e : Exc} (hs : decode rt s = .error e) (b : BpId) (data : Val)
    (custom : Option Custom) (strict : Bool) (w : World) :
    construct rt b (some s) data custom strict w =
      (.error e, w.setBp b { custom := custom.getD [], strict := strict }) := by
  unfold construct ctorData
  dsimp only
  rw [hs]
  rfl

/-- A string that contains the JSON value `null` is taken for no data. -/
theorem C69_null {rt : Runtime} (hz : Lossless rt.zlib) (b : BpId) (data : Val) (custom : Option Custom) (strict : Bool)
    (w : World) : construct rt b (some (encode rt .none)) data custom strict w =
      (.ok (), w.setBp b { custom := custom.getD [], strict := strict }) :=
  C69_encoded hz (v := .none) (by unfold Plain; trivial) b data custom strict w

/-- Further keywords are refused before anything is created. -/
theorem C69_keywords (rt : Runtime) (b : BpId) (string : Option String) (data : Val) (custom : Option Custom)
    (strict : Bool) (further : Dict) (w : World) :
    constructWith rt b string data custom strict further w =
      if further = [] then construct rt b string data custom strict w else (.error .typeError, w) := by
  unfold constructWith
  cases further <;> rfl

/-- The world after creating a blueprint is one that calls on blueprints reach. -/
theorem C69_reachable {env : Env} {w : World} (h : Reachable env w) (rt : Runtime) {b : BpId} (hb : w.bp b = {})
    (string : Option String) (data : Val) (custom : Option Custom) (strict : Bool) :
    Reachable env (construct rt b string data custom strict w).2 := by
  have h1 : Reachable env (w.setBp b { custom := custom.getD [], strict := strict }) := by
    have h1 := Reachable.step (.setStrict b strict) (Reachable.step (.setCustom b (custom.getD [])) h trivial) trivial
    have e : ((Op.setStrict b strict).run ((Op.setCustom b (custom.getD [])).run w).2).2 =
        (w.setBp b { w.bp b with custom := custom.getD [] }).setBp b
          { (w.setBp b { w.bp b with custom := custom.getD [] }).bp b with strict := strict } := rfl
    rw [e, setBp_setBp, setBp_bp_self, hb] at h1
    exact h1
  have h2 : ∀ v : Val, Reachable env (loadGiven b v (w.setBp b { custom := custom.getD [], strict := strict })).2 := by
    intro v
    cases v with
    | none => exact h1
    | _ => exact Reachable.step (.load b _) h1 trivial
  have e : construct rt b string data custom strict w =
      (M.lift (ctorData rt string data) >>= fun v => loadGiven b v)
        (w.setBp b { custom := custom.getD [], strict := strict }) := rfl
  rw [e]
  cases hc : ctorData rt string data with
  | error x => exact h1
  | ok v => exact h2 v

/-- The flag `strict` of a blueprint has no effect: every history of calls goes the same way with other flags. -/
theorem C69_strict_unused (ops : List Op) (w : World) (f : BpId → Bool) :
    ∃ f', history ops (withStrict w f) = ((history ops w).1, withStrict (history ops w).2 f') := by
  induction ops generalizing w f with
  | nil => exact ⟨f, rfl⟩
  | cons op ops ih =>
    obtain ⟨f1, h1⟩ := Flagless.run op w f
    obtain ⟨f2, h2⟩ := ih (op.run w).2 f1
    refine ⟨f2, ?_⟩
    unfold history
    rw [h1, h2]

/-- So the constructor called with `strict=False` does what it does with `strict=True`. -/
theorem C69_strict_ignored (rt : Runtime) (b : BpId) (string : Option String) (data : Val) (custom : Option Custom)
    (w : World) : ∃ f, construct rt b string data custom false w =
      ((construct rt b string data custom true w).1, withStrict (construct rt b string data custom true w).2 f) := by
  have e : ∀ s, construct rt b string data custom s w =
      (M.lift (ctorData rt string data) >>= fun v => loadGiven b v)
        (w.setBp b { custom := custom.getD [], strict := s }) := fun _ => rfl
  have hf : Flagless (M.lift (ctorData rt string data) >>= fun v => loadGiven b v) := by
    refine Flagless.bind (Flagless.lift _) fun v => ?_
    cases v with
    | none => exact Flagless.pure _
    | _ => exact Flagless.load b _
  have hw : w.setBp b { custom := custom.getD [], strict := false } =
      withStrict (w.setBp b { custom := custom.getD [], strict := true })
        (fun c => if c = b then false else (w.bp c).strict) := by
    unfold withStrict World.setBp
    congr 1
    funext c
    dsimp only
    split
    · rfl
    · rfl
  obtain ⟨f, h⟩ := hf (w.setBp b { custom := custom.getD [], strict := true })
    (fun c => if c = b then false else (w.bp c).strict)
  refine ⟨f, ?_⟩
  rw [e, e, hw]
  exact h

/-- C69 asks that a blueprint created with `strict=False` accepts unknown names. -/
def LenientConstructor : Prop := ∀ (rt : Runtime) (env : Env) (b : BpId) (data : Val),
  (construct rt b none data none false (World.init env)).1 ≠ .error .unknownEntity

namespace Sample

/-- Data with an entity of an unknown name. -/
def strangeData : Val := .dict [("entities", .list [.dict (ent "nothing" 4 4)])]

end Sample

/-- The code does not: the names are checked all the same. -/
theorem C69_lenient_false : ¬ LenientConstructor := by
  intro H
  exact H Sample.rt Sample.env 0 Sample.strangeData (by decide +kernel)

/-- The check is switched off with the keyword `strict` of the single entity only. -/
example : (construct Sample.rt 0 none Sample.strangeData none true (World.init Sample.env)).1 = .error .unknownEntity ∧
    (layerMake 0 (("strict", .bool false) :: Sample.ent "nothing" 4 4) (World.init Sample.env)).1 = .ok 0 := by
  decide +kernel

example : (construct Sample.rt 3 none Sample.data none true (World.init Sample.env)).1 = .ok () ∧
    ((construct Sample.rt 3 none Sample.data none true (World.init Sample.env)).2.bp 3).objs = [1, 0, 2] := by
  decide +kernel

example : (World.init Sample.env).bp 3 = {} ∧ Lossless Sample.rt.zlib ∧ Plain Sample.rt.float .none ∧
    decode Sample.rt "" = .error .indexError := ⟨rfl, Sample.rt_lossless, by unfold Plain; trivial, by decide +kernel⟩

end Verif
