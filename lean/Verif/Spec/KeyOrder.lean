import Verif.Model.Blueprint
/-!
# Specification vocabulary for the order of keys
-/
set_option autoImplicit false

namespace Verif.Spec

/-- Two objects with the same entries, in any order. -/
def SameEntries (d d' : Dict) : Prop := ∀ k, List.lookup k d = List.lookup k d'

/-- The keys of blueprint data that the library knows. -/
def knownKeys : List String := ["item", "label", "label_color", "version", "icons", "entities", "tiles", "schedules"]

/-- The same data of an entity, or objects that differ in the order of their keys and of the keys of their control
behaviours only. -/
def LikeEntity (v v' : Val) : Prop :=
  v = v' ∨ ∃ kw kw', v = .dict kw ∧ v' = .dict kw' ∧
    (∀ k, k ≠ "control_behavior" → List.lookup k kw = List.lookup k kw') ∧
    (List.lookup "control_behavior" kw = List.lookup "control_behavior" kw' ∨
      ∃ d d', List.lookup "control_behavior" kw = some (.dict d) ∧ List.lookup "control_behavior" kw' = some (.dict d') ∧
        SameEntries d d')

end Verif.Spec
