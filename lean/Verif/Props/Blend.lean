import Verif.Proofs.Blend
import Verif.Props.DataWires
/-!
# Settings are accepted or refused one by one (C86)
-/
set_option autoImplicit false

namespace Verif
open Spec

/-- C86: if an entity can be made from each of two data with the same name, it can be made from data that take every
setting, and every setting of the control behaviour, from either of them. -/
theorem C86_blend {w : World} {b : BpId} {x y z : Dict} (h : BlendEntity x y z)
    (hx : ∃ r, (layerMake b x w).1 = .ok r) (hy : ∃ r, (layerMake b y w).1 = .ok r) : ∃ r, (layerMake b z w).1 = .ok r := by
  obtain ⟨ex, hx⟩ := layerMake_iff.1 hx
  obtain ⟨ey, hy⟩ := layerMake_iff.1 hy
  exact layerMake_iff.2 (new_blend h hx hy)

/-- A value that makes good data bad is bad in all data with the same name: there is no combination of other settings in
which it is accepted. -/
theorem C86_blame {w : World} {b : BpId} {x x' y y' : Dict} {k : String} {v : Val} (hk : k ≠ "name") (hs : k ≠ "strict")
    (hn : List.lookup "name" x = List.lookup "name" y) (ht : List.lookup "strict" x = List.lookup "strict" y)
    (hx : ∃ r, (layerMake b x w).1 = .ok r) (hx' : Replacing x k v x') (hbad : ∀ r, (layerMake b x' w).1 ≠ .ok r)
    (hy' : Replacing y k v y') : ∀ r, (layerMake b y' w).1 ≠ .ok r := by
  intro r hr
  obtain ⟨s, hs⟩ := C86_blend (x := x) (y := y') (z := x') ⟨by rw [hn, hy'.2 _ (Ne.symm hk)], by rw [ht, hy'.2 _ (Ne.symm hs)],
    fun k' _ => by
      by_cases e : k' = k
      · subst e; exact .inr (by rw [hx'.1, hy'.1])
      · exact .inl (hx'.2 k' e),
    by
      by_cases e : "control_behavior" = k
      · subst e; exact .inr (.inl (by rw [hx'.1, hy'.1]))
      · exact .inl (hx'.2 _ e)⟩ hx ⟨r, hr⟩
  exact hbad s hs

namespace Sample

/-- Two inserters and a third one put together from them. -/
def insA : Dict := ent "ins" 1 2 ++ [("override_stack_size", .int 3), ("control_behavior",
  .dict [("circuit_mode_of_operation", .int 3), ("stack_control_input_signal", sig "iron" "item")])]
def insB : Dict := ent "ins" 5 6 ++ [("direction", .int 4), ("pickup_position", .dict [("x", .int 0), ("y", .int 1)]),
  ("control_behavior", .dict [("circuit_mode_of_operation", .int 1)])]
def insC : Dict := ent "ins" 5 2 ++ [("direction", .int 4), ("override_stack_size", .int 3)]
def insD : Dict := ent "ins" 1 2 ++ [("override_stack_size", .int 3), ("control_behavior",
  .dict [("circuit_mode_of_operation", .int 1), ("stack_control_input_signal", sig "iron" "item")]), ("direction", .int 4)]

end Sample

/-- The data of an inserter that are put together from those of two others, in the control behaviour, too. -/
example : BlendEntity Sample.insA Sample.insB Sample.insD ∧
    (layerMake 0 Sample.insA (World.init Sample.env)).1 = .ok 0 ∧ (layerMake 0 Sample.insB (World.init Sample.env)).1 = .ok 0 := by
  refine ⟨⟨by decide +kernel, by decide +kernel, fun k hk => ?_, .inr (.inr ⟨_, _, _, rfl, rfl, rfl, fun k => ?_⟩)⟩,
    by decide +kernel, by decide +kernel⟩
  · by_cases h1 : k = "direction"
    · subst h1; exact .inr (by decide +kernel)
    · refine .inl ?_
      simp only [Sample.insA, Sample.insD, Sample.ent, List.cons_append, List.nil_append, List.lookup_cons, List.lookup_nil,
        beq_iff_eq, beq_eq_false_iff_ne.2 h1, beq_eq_false_iff_ne.2 hk]
  · by_cases h1 : k = "circuit_mode_of_operation"
    · subst h1; exact .inr (by decide +kernel)
    · refine .inl ?_
      simp only [List.lookup_cons, List.lookup_nil, beq_eq_false_iff_ne.2 h1]

/-- A stack size that is no number is refused for one inserter and therefore for every other one. -/
example : (layerMake 0 Sample.insC (World.init Sample.env)).1 = .ok 0 ∧
    Replacing Sample.insC "override_stack_size" (.list []) (Sample.insC.set "override_stack_size" (.list [])) ∧
    (layerMake 0 (Sample.insC.set "override_stack_size" (.list [])) (World.init Sample.env)).1 = .error .typeError ∧
    Replacing Sample.insB "override_stack_size" (.list []) (Sample.insB.set "override_stack_size" (.list [])) :=
  ⟨by decide +kernel, ⟨by rw [lookup_set, if_pos rfl], fun k hk => by rw [lookup_set, if_neg hk]⟩, by decide +kernel,
    ⟨by rw [lookup_set, if_pos rfl], fun k hk => by rw [lookup_set, if_neg hk]⟩⟩

end Verif
