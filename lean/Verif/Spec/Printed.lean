import Verif.Spec.Codec
/-!
# Specification vocabulary for printed forms (C76)
-/
set_option autoImplicit false

namespace Verif.Spec

/-- A number whose text can be read back. -/
def PrintedExactly (f : FloatText) : Num → Prop
  | .int _ => True
  | .flt q => ExactFloat f q

/-- The text names the sides towards which the step `(x, y)` goes, and no others; `y` grows downwards. -/
def NamesStep (s : String) (x y : Rat) : Prop :=
  ("Up".toList <:+: s.toList ↔ y < 0) ∧ ("Down".toList <:+: s.toList ↔ 0 < y) ∧
  ("Left".toList <:+: s.toList ↔ x < 0) ∧ ("Right".toList <:+: s.toList ↔ 0 < x)

end Verif.Spec
