import Verif.Spec.Codec
/-!
# Specification: the texts of a JSON value

RFC 8259, with the reading of repeated keys that Python documents (the last value counts).
-/
set_option autoImplicit false

namespace Verif.Spec

/-- Blanks between the tokens. -/
def Gap (w : List Char) : Prop := ∀ c ∈ w, c = ' ' ∨ c = '\t' ∨ c = '\n' ∨ c = '\r'

/-- `c` is the hexadecimal digit `n`. -/
def HexDigit (c : Char) (n : Nat) : Prop :=
  "0123456789abcdef".toList[n]? = some c ∨ "0123456789ABCDEF".toList[n]? = some c

/-- `\u` and four hexadecimal digits: the code unit `n`. -/
def UnitText (n : Nat) (t : List Char) : Prop :=
  ∃ a b c d i j k l, t = ['\\', 'u', a, b, c, d] ∧ HexDigit a i ∧ HexDigit b j ∧ HexDigit c k ∧ HexDigit d l ∧
    n = i * 4096 + j * 256 + k * 16 + l

/-- The characters with a short escape. -/
def shortEscapes : List (Char × Char) :=
  [('"', '"'), ('\\', '\\'), ('/', '/'), ('b', Char.ofNat 8), ('f', Char.ofNat 12), ('n', Char.ofNat 10),
   ('r', Char.ofNat 13), ('t', Char.ofNat 9)]

/-- `t` is a way of writing the character `c` in a string. -/
inductive CharText : Char → List Char → Prop
  | raw (c : Char) : c ≠ '"' → c ≠ '\\' → 32 ≤ c.toNat → CharText c [c]
  | short (e c : Char) : (e, c) ∈ shortEscapes → CharText c ['\\', e]
  | unit (c : Char) (t : List Char) : UnitText c.toNat t → CharText c t
  /-- a surrogate pair -/
  | pair (c : Char) (h l : Nat) (t u : List Char) : UnitText h t → UnitText l u → 0xD800 ≤ h → h < 0xDC00 → 0xDC00 ≤ l →
      l < 0xE000 → c.toNat = 0x10000 + (h - 0xD800) * 0x400 + (l - 0xDC00) → CharText c (t ++ u)

/-- `t` is a way of writing the characters between the quotes of a string. -/
inductive CharsText : List Char → List Char → Prop
  | nil : CharsText [] []
  | cons {c : Char} {t : List Char} {s u : List Char} : CharText c t → CharsText s u → CharsText (c :: s) (t ++ u)

/-- `t` is a way of writing the string `s`. -/
def StrText (s : String) (t : List Char) : Prop := ∃ u, CharsText s.toList u ∧ t = '"' :: u ++ ['"']

/-- The number that a run of digits stands for. -/
def digitsValue (l : List Char) : Nat := l.foldl (fun n c => 10 * n + (c.toNat - '0'.toNat)) 0

/-- `t` is a way of writing the integer `z`. -/
def IntText (z : Int) (t : List Char) : Prop :=
  ∃ i, IntLit i ∧ ((t = i ∧ z = digitsValue i) ∨ (t = '-' :: i ∧ z = -digitsValue i))

/-- The dict with these keys and values, in the order in which the keys come first; of values with the same key the last
one counts. -/
def collect (ps : List (String × Val)) : Dict :=
  (ps.map (·.1)).eraseDups.map fun k => (k, ((ps.reverse).lookup k).getD .none)

mutual
/-- `t` is a way of writing the value `v`, without blanks around it.  The numbers that texts of floats stand for are given
by `f`. -/
inductive ValText (f : FloatText) : Val → List Char → Prop
  | null : ValText f .none "null".toList
  | true : ValText f (.bool Bool.true) "true".toList
  | false : ValText f (.bool Bool.false) "false".toList
  | int (z : Int) (t : List Char) : IntText z t → ValText f (.int z) t
  | flt (q : Rat) (t : List Char) : FloatLit t → f.read t = some q → ValText f (.flt q) t
  | str (s : String) (t : List Char) : StrText s t → ValText f (.str s) t
  | noItems (w : List Char) : Gap w → ValText f (.list []) ('[' :: w ++ [']'])
  | items (l : List Val) (t : List Char) : ItemsText f l t → ValText f (.list l) ('[' :: t)
  | noPairs (w : List Char) : Gap w → ValText f (.dict []) ('{' :: w ++ ['}'])
  | pairs (ps : List (String × Val)) (t : List Char) : PairsText f ps t → ValText f (.dict (collect ps)) ('{' :: t)

/-- The items of a list and the closing bracket. -/
inductive ItemsText (f : FloatText) : List Val → List Char → Prop
  | last (v : Val) (a t b : List Char) : Gap a → ValText f v t → Gap b → ItemsText f [v] (a ++ t ++ b ++ [']'])
  | next (v : Val) (l : List Val) (a t b u : List Char) : Gap a → ValText f v t → Gap b → ItemsText f l u →
      ItemsText f (v :: l) (a ++ t ++ b ++ ',' :: u)

/-- The keys and values of a dict and the closing brace. -/
inductive PairsText (f : FloatText) : List (String × Val) → List Char → Prop
  | last (k : String) (v : Val) (a s b c t e : List Char) : Gap a → StrText k s → Gap b → Gap c → ValText f v t →
      Gap e → PairsText f [(k, v)] (a ++ s ++ b ++ ':' :: c ++ t ++ e ++ ['}'])
  | next (k : String) (v : Val) (ps : List (String × Val)) (a s b c t e u : List Char) : Gap a → StrText k s → Gap b →
      Gap c → ValText f v t → Gap e → PairsText f ps u →
      PairsText f ((k, v) :: ps) (a ++ s ++ b ++ ':' :: c ++ t ++ e ++ ',' :: u)
end

/-- `s` is a JSON text of the value `v`. -/
def JsonText (f : FloatText) (v : Val) (s : List Char) : Prop :=
  ∃ a t b, s = a ++ t ++ b ∧ Gap a ∧ ValText f v t ∧ Gap b

end Verif.Spec
