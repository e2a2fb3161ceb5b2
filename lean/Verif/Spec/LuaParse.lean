import Verif.Model.LuaParse
import Verif.Spec.LuaJson
/-!
# Specification vocabulary for reading back what the gatherer wrote
-/
set_option autoImplicit false

namespace Verif.Spec
open Lua

/-- A decimal number, with or without fraction and exponent. -/
def Numeral (l : List Char) : Prop :=
  ∃ sg i fr ex, l = sg ++ (i ++ (fr ++ ex)) ∧ (sg = [] ∨ sg = ['-']) ∧ Digits i ∧ (fr = [] ∨ FracLit fr) ∧
    (ex = [] ∨ ExpLit ex)

/-- The text of the number is decimal, and `tonumber` gives the number back. -/
def ExactNum (num : Rat → List Char) (tonumber : List Char → Option Rat) (q : Rat) : Prop :=
  Numeral (num q) ∧ tonumber (num q) = some q

/-- A value made of booleans, strings, numbers and tables of such values; keys are booleans, strings or numbers. -/
inductive Storable (num : Rat → List Char) (tonumber : List Char → Option Rat) : LVal → Prop where
  | bool (b : Bool) : Storable num tonumber (.bool b)
  | num (q : Rat) : ExactNum num tonumber q → Storable num tonumber (.num q)
  | str (s : String) : Storable num tonumber (.str s)
  | table (t : List (Key × LVal)) : (t.map (·.1)).Nodup → (∀ p ∈ t, p.1 ≠ .other) →
      (∀ p ∈ t, ∀ q, p.1 = .num q → ExactNum num tonumber q) → (∀ p ∈ t, Storable num tonumber p.2) →
      Storable num tonumber (.table t)

/-- The keys are `1` to `n`. -/
def IsList {α : Type} (t : List (Key × α)) : Prop := ∀ i : Nat, 1 ≤ i → i ≤ t.length → Key.num (i : Rat) ∈ t.map (·.1)

/-- Tables that are not lists have no numbers as keys. -/
inductive NoNumberKeys : LVal → Prop where
  | nil : NoNumberKeys .nil
  | bool (b : Bool) : NoNumberKeys (.bool b)
  | num (q : Rat) : NoNumberKeys (.num q)
  | str (s : String) : NoNumberKeys (.str s)
  | table (t : List (Key × LVal)) : (IsList t ∨ ∀ p ∈ t, ∀ q, p.1 ≠ .num q) → (∀ p ∈ t, NoNumberKeys p.2) →
      NoNumberKeys (.table t)

/-- The same value: tables with the same keys and the same values. -/
inductive SameLua : LVal → LVal → Prop where
  | bool (b : Bool) : SameLua (.bool b) (.bool b)
  | num (q : Rat) : SameLua (.num q) (.num q)
  | str (s : String) : SameLua (.str s) (.str s)
  | table (t t' : List (Key × LVal)) : (t'.map (·.1)).Nodup → (∀ k, k ∈ t.map (·.1) ↔ k ∈ t'.map (·.1)) →
      (∀ k v v', (k, v) ∈ t → (k, v') ∈ t' → SameLua v v') → SameLua (.table t) (.table t')

/-- A key of an object after it has been written and read. -/
def asKey (num : Rat → List Char) : Key → Key
  | .num q => .str (String.ofList (num q))
  | k => k

/-- What is read back: the same, but the keys of tables that are not lists are strings where they were numbers, and of
two keys that become the same one is left. -/
inductive ReadBack (num : Rat → List Char) : LVal → LVal → Prop where
  | bool (b : Bool) : ReadBack num (.bool b) (.bool b)
  | num (q : Rat) : ReadBack num (.num q) (.num q)
  | str (s : String) : ReadBack num (.str s) (.str s)
  | list (t t' : List (Key × LVal)) : IsList t → (t'.map (·.1)).Nodup → (∀ k, k ∈ t.map (·.1) ↔ k ∈ t'.map (·.1)) →
      (∀ k v v', (k, v) ∈ t → (k, v') ∈ t' → ReadBack num v v') → ReadBack num (.table t) (.table t')
  | object (t t' : List (Key × LVal)) (src : Key → Key × LVal) : ¬ IsList t → (t'.map (·.1)).Nodup →
      (∀ k', k' ∈ t'.map (·.1) ↔ ∃ k ∈ t.map (·.1), asKey num k = k') →
      (∀ k' ∈ t'.map (·.1), src k' ∈ t ∧ asKey num (src k').1 = k') →
      (∀ k' v', (k', v') ∈ t' → ReadBack num (src k').2 v') → ReadBack num (.table t) (.table t')

end Verif.Spec
