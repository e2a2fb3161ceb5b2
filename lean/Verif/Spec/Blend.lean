import Verif.Py.Val
/-!
# Objects put together from two others (C86)
-/
set_option autoImplicit false

namespace Verif.Spec

/-- Each key of `z` is as in `x` or as in `y`: with the same value, or absent there, too. -/
def Blend (x y z : Dict) : Prop := ∀ k, List.lookup k z = List.lookup k x ∨ List.lookup k z = List.lookup k y

/-- Entity data `z` put together from `x` and `y`, which agree in the name and in `strict`. The settings of the control
behaviour may be put together as well. -/
structure BlendEntity (x y z : Dict) : Prop where
  name : List.lookup "name" x = List.lookup "name" y
  strict : List.lookup "strict" x = List.lookup "strict" y
  rest : ∀ k, k ≠ "control_behavior" → List.lookup k z = List.lookup k x ∨ List.lookup k z = List.lookup k y
  control : List.lookup "control_behavior" z = List.lookup "control_behavior" x ∨
    List.lookup "control_behavior" z = List.lookup "control_behavior" y ∨
    ∃ cx cy cz, List.lookup "control_behavior" x = some (.dict cx) ∧ List.lookup "control_behavior" y = some (.dict cy) ∧
      List.lookup "control_behavior" z = some (.dict cz) ∧ Blend cx cy cz

/-- `z` is `x` with the value `v` under the key `k`. -/
def Replacing (x : Dict) (k : String) (v : Val) (z : Dict) : Prop :=
  List.lookup k z = some v ∧ ∀ k', k' ≠ k → List.lookup k' z = List.lookup k' x

end Verif.Spec
