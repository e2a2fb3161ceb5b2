import Verif.Py.Val
/-!
# Whole numbers written as texts (C75)
-/
set_option autoImplicit false

namespace Verif.Spec

/-- A run of decimal digits, single underscores allowed between digits, and the number it is. -/
inductive DigitRun : List Char → Nat → Prop where
  | one (d : Fin 10) : DigitRun [Nat.digitChar d] d
  | digit {l : List Char} {n : Nat} (d : Fin 10) : DigitRun l n → DigitRun (l ++ [Nat.digitChar d]) (10 * n + d)
  | under {l : List Char} {n : Nat} (d : Fin 10) : DigitRun l n →
      DigitRun (l ++ ['_', Nat.digitChar d]) (10 * n + d)

/-- One of the six ASCII blanks. -/
def BlankChar (c : Char) : Prop := c ∈ [' ', '\t', '\n', '\r', Char.ofNat 11, Char.ofNat 12]

/-- `t` spells the whole number `z`: blanks, a sign or none, a numeral, blanks. -/
def Spells (t : String) (z : Int) : Prop :=
  ∃ (a s l b : List Char) (n : Nat), t.toList = a ++ s ++ l ++ b ∧ (∀ c ∈ a, BlankChar c) ∧ (∀ c ∈ b, BlankChar c) ∧
    DigitRun l n ∧ (s = [] ∧ z = n ∨ s = ['+'] ∧ z = n ∨ s = ['-'] ∧ z = -n)

/-- The whole number that a value stands for: a number without its fraction, 1 and 0 for the truth values, a text
that spells it. -/
def Whole : Val → Int → Prop
  | .num n, z => (0 ≤ n.val ∧ (z : Rat) ≤ n.val ∧ n.val < z + 1) ∨ (n.val < 0 ∧ n.val ≤ z ∧ (z : Rat) < n.val + 1)
  | .bool b, z => z = if b then 1 else 0
  | .str t, z => Spells t z
  | _, _ => False

/-- The settings of entities that hold a whole number. -/
def wholeSettings : List String := ["inventory_bar", "bar", "override_stack_size"]

end Verif.Spec
