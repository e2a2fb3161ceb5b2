import Verif.Model.LuaJson
import Verif.Spec.Codec
/-!
# Specification vocabulary for the data file of the gatherer
-/
set_option autoImplicit false

namespace Verif.Spec
open Lua

/-- No control characters other than backspace, tab, line feed, form feed and carriage return. -/
def Printable (s : String) : Prop := ∀ c ∈ s.toList, 32 ≤ c.toNat ∨ c.toNat ∈ [8, 9, 10, 12, 13]

/-- Python reads the text as the number `n`. -/
def NumText (f : FloatText) (text : List Char) (n : Num) : Prop :=
  (∃ z : Int, text = Json.intText z ∧ n = .int z) ∨ (FloatLit text ∧ ∃ q, f.read text = some q ∧ n = .flt q)

/-- The Lua value stands for the JSON value: arrays are the tables with the keys `1` to `n`, objects the tables with
string keys, in the order in which Lua visits them; the text of numbers is exact. -/
inductive StandsFor (f : FloatText) (num : Rat → List Char) : LVal → Val → Prop where
  | nil : StandsFor f num .nil .none
  | bool (b : Bool) : StandsFor f num (.bool b) (.bool b)
  | num (q : Rat) (n : Num) : n.val = q → NumText f (num q) n → StandsFor f num (.num q) (.num n)
  | str (s : String) : Printable s → StandsFor f num (.str s) (.str s)
  | array (t : List (Key × LVal)) (l : List Val) (u : Nat → LVal) : l ≠ [] → t.length = l.length →
      (t.map (·.1)).Nodup → (∀ i, i < l.length → (Key.num ((i + 1 : Nat) : Rat), u i) ∈ t) →
      (∀ i (h : i < l.length), StandsFor f num (u i) l[i]) → StandsFor f num (.table t) (.list l)
  | object (t : List (Key × LVal)) (d : Dict) (h : t.length = d.length) : (d.map (·.1)).Nodup →
      (∀ i (hi : i < d.length), t[i].1 = .str d[i].1 ∧ Printable d[i].1) →
      (∀ i (hi : i < d.length), StandsFor f num t[i].2 d[i].2) → StandsFor f num (.table t) (.dict d)

/-- The same data: objects up to the order of their keys, and an empty object for an empty list. -/
inductive SameData : Val → Val → Prop where
  | refl (v : Val) : SameData v v
  | empty : SameData (.dict []) (.list [])
  | list (l l' : List Val) (h : l.length = l'.length) : (∀ i (hi : i < l'.length), SameData l[i] l'[i]) →
      SameData (.list l) (.list l')
  | dict (d d' : Dict) : (∀ k, (Dict.get? d k).isSome = (Dict.get? d' k).isSome) →
      (∀ k v v', Dict.get? d k = some v → Dict.get? d' k = some v' → SameData v v') → SameData (.dict d) (.dict d')

mutual
/-- Strings and keys are printable, no key is repeated, and the texts of numbers are exact. -/
def Writable (f : FloatText) (num : Rat → List Char) : Val → Prop
  | .num n => NumText f (num n.val) n
  | .str s => Printable s
  | .list l => WritableList f num l
  | .dict d => (d.map (·.1)).Nodup ∧ WritableDict f num d
  | _ => True
def WritableList (f : FloatText) (num : Rat → List Char) : List Val → Prop
  | [] => True
  | v :: l => Writable f num v ∧ WritableList f num l
def WritableDict (f : FloatText) (num : Rat → List Char) : List (String × Val) → Prop
  | [] => True
  | (k, v) :: d => Printable k ∧ Writable f num v ∧ WritableDict f num d
end

end Verif.Spec
