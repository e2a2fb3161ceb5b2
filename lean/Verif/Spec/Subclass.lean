import Verif.Model.Subclass
/-!
# Specification vocabulary for derived classes (C78)
-/
set_option autoImplicit false

namespace Verif.Spec

/-- The calls of a history that are not about derived classes. -/
def libraryCalls : List Act → List Op
  | [] => []
  | .call op :: l => op :: libraryCalls l
  | _ :: l => libraryCalls l

/-- The outcomes of these calls, out of the outcomes of all. -/
def libraryOutcomes : List Act → List (Except Exc Unit) → List (Except Exc Unit)
  | .call _ :: l, x :: xs => x :: libraryOutcomes l xs
  | _ :: l, _ :: xs => libraryOutcomes l xs
  | _, _ => []

/-- Calls one after the other, with the outcome of each. -/
def calls : List Op → World → List (Except Exc Unit) × World
  | [], w => ([], w)
  | op :: l, w => ((op.run w).1 :: (calls l (op.run w).2).1, (calls l (op.run w).2).2)

/-- No class from which `c` inherits, nor `c` itself, has a table `t` of its own. -/
def Inherits (mro : Nat → List Nat) (s : Family) (c : Nat) (t : Table) : Prop := ∀ d ∈ mro c, s.own d t = none

end Verif.Spec
