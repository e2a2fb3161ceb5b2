import Verif.Proofs.SettableEntity
import Verif.Props.Accept
import Verif.Props.Blend
/-!
# The data from which an entity can be made (C88)
-/
set_option autoImplicit false

namespace Verif
open Spec

/-- C88: in a blueprint with at most one plain custom behaviour for each type, an entity is made from data exactly if they have a name that gives
it a class and each of their settings is one that this class takes. -/
theorem C88_make {w : World} {b : BpId} {kw : Dict} {s : Bool} (hs : StrictIn kw s) (hc : PlainCustom w.env (w.bp b)) :
    (∃ r, (layerMake b kw w).1 = .ok r) ↔
      ∃ name k, List.lookup "name" kw = some (.str name) ∧ ClassOf w.env (w.bp b) s name k ∧ Settable w.env s k kw := by
  rw [layerMake_iff]
  exact new_settable hs hc

/-- C88 for imports: together with C85 it says which data can be imported without reference to any step of the import. -/
theorem C88_import {env : Env} {w : World} (h : Reachable env w) {b : BpId} (hb : (w.bp b).objs = [])
    (hc : PlainCustom w.env (w.bp b)) (data : Val) :
    (load b data w).1 = .ok () ↔ Acceptable w.env (fun kw => ∃ s name k, StrictIn kw s ∧
      List.lookup "name" kw = some (.str name) ∧ ClassOf w.env (w.bp b) s name k ∧ Settable w.env s k kw) data := by
  rw [C85_import h hb]
  have e : (fun kw => ∃ r, (layerMake b kw w).1 = .ok r) = fun kw => ∃ s name k, StrictIn kw s ∧
      List.lookup "name" kw = some (.str name) ∧ ClassOf w.env (w.bp b) s name k ∧ Settable w.env s k kw := by
    funext kw
    refine propext ⟨fun hr => ?_, fun ⟨s, name, k, hs, hk⟩ => (C88_make hs hc).2 ⟨name, k, hk⟩⟩
    have hs := strictIn_iff (d := kw).2 rfl
    obtain ⟨name, k, hk⟩ := (C88_make hs hc).1 hr
    exact ⟨_, name, k, hs, hk⟩
  rw [e]

/-- The inserter of the examples is checked against the tables, and made. -/
example : StrictIn Sample.insA true ∧ PlainCustom (World.init Sample.env).env ((World.init Sample.env).bp 0) ∧
    (layerMake 0 Sample.insA (World.init Sample.env)).1 = .ok 0 :=
  ⟨strictIn_iff.2 (by decide +kernel), fun _ _ _ => .inl rfl, by decide +kernel⟩

/-- Belts that were given a colour take one, and are refused with one that is no colour. -/
example : PlainCustom (World.init Sample.env).env
      (((World.init Sample.env).setBp 0 { custom := [("transport-belt", [.Color])] }).bp 0) ∧
    (layerMake 0 (Sample.ent "belt" 1 2 ++ [("color", .dict [("r", .int 1)])])
      ((World.init Sample.env).setBp 0 { custom := [("transport-belt", [.Color])] })).1 = .ok 0 ∧
    (layerMake 0 (Sample.ent "belt" 1 2 ++ [("color", .int 1)])
      ((World.init Sample.env).setBp 0 { custom := [("transport-belt", [.Color])] })).1 = .error .typeError := by
  refine ⟨fun name ty _ => ?_, by decide +kernel, by decide +kernel⟩
  by_cases h : ty = "transport-belt"
  · subst h
    exact .inr ⟨.Color, by decide, by decide +kernel⟩
  · left
    show (List.lookup ty [("transport-belt", [Mx.Color])]).getD [] = []
    simp [List.lookup, beq_eq_false_iff_ne.2 h]

/-- Without a check the entity has no behaviour, and the stack size is refused. -/
example : StrictIn (Sample.insA ++ [("strict", .int 0)]) false ∧
    (layerMake 0 (Sample.insA ++ [("strict", .int 0)]) (World.init Sample.env)).1 = .error .typeError :=
  ⟨strictIn_iff.2 (by decide +kernel), by decide +kernel⟩

/-- By C88 data with a stack size that is no number are refused. -/
example : ¬ ∃ r, (layerMake 0 (Sample.ent "ins" 1 2 ++ [("override_stack_size", .list [])]) (World.init Sample.env)).1 = .ok r := by
  rw [C88_make (s := true) (strictIn_iff.2 (by decide +kernel)) (fun _ _ _ => .inl rfl)]
  rintro ⟨name, k, hn, ⟨ty, ms, ⟨d, h1, h2⟩, h3, h4⟩, hz⟩
  cases hn
  cases h1
  cases h2
  cases h3
  cases h4
  rcases (hz.behaviours .Inserter (by decide +kernel)).1 (.list []) rfl with h | ⟨z, h⟩
  · cases h
  · cases h

/-- An operand that is both a constant and a signal is refused. -/
example : (layerMake 0 (Sample.ent "ari" 1 2 ++ [("control_behavior", .dict [("arithmetic_conditions", .dict
      [("operation", .str "*"), ("first_constant", .int 3)])])]) (World.init Sample.env)).1 = .ok 0 ∧
    (layerMake 0 (Sample.ent "ari" 1 2 ++ [("control_behavior", .dict [("arithmetic_conditions", .dict
      [("operation", .str "*"), ("first_constant", .int 3), ("first_signal", Sample.sig "iron" "item")])])])
      (World.init Sample.env)).1 = .error .typeError := by
  decide +kernel

/-- The blueprint of the examples is imported. -/
example : ((World.init Sample.env).bp 0).objs = [] ∧ (load 0 Sample.data (World.init Sample.env)).1 = .ok () :=
  ⟨rfl, by decide +kernel⟩

end Verif
