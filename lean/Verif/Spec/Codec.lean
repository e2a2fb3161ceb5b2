import Verif.Model.Codec
/-!
# Specification vocabulary for exchange strings
-/
set_option autoImplicit false

namespace Verif.Spec

/-- A run of digits without leading zero. -/
def IntLit (l : List Char) : Prop :=
  l = ['0'] ∨ ∃ c r, l = c :: r ∧ c ≠ '0' ∧ c.isDigit = true ∧ ∀ x ∈ r, x.isDigit = true

/-- A non-empty run of digits. -/
def Digits (l : List Char) : Prop := l ≠ [] ∧ ∀ x ∈ l, x.isDigit = true

/-- `.5` -/
def FracLit (l : List Char) : Prop := ∃ ds, l = '.' :: ds ∧ Digits ds

/-- `e5`, `E+5`, `e-05` -/
def ExpLit (l : List Char) : Prop :=
  ∃ c s ds, l = c :: s ++ ds ∧ (c = 'e' ∨ c = 'E') ∧ (s = [] ∨ s = ['+'] ∨ s = ['-']) ∧ Digits ds

/-- The JSON grammar of numbers that are not integers. -/
def FloatLit (l : List Char) : Prop :=
  ∃ sg i fr ex, l = sg ++ i ++ fr ++ ex ∧ (sg = [] ∨ sg = ['-']) ∧ IntLit i ∧ (fr = [] ∨ FracLit fr) ∧
    (ex = [] ∨ ExpLit ex) ∧ (fr ≠ [] ∨ ex ≠ [])

/-- The text of the float is a JSON number and reads back as the same float. -/
def ExactFloat (f : FloatText) (q : Rat) : Prop := FloatLit (f.repr q) ∧ f.read (f.repr q) = some q

mutual
/-- A JSON value: no key occurs twice in an object, and floats have an exact text. -/
def Plain (f : FloatText) : Val → Prop
  | .num (.flt q) => ExactFloat f q
  | .list l => PlainList f l
  | .dict d => (d.map (·.1)).Nodup ∧ PlainDict f d
  | _ => True
def PlainList (f : FloatText) : List Val → Prop
  | [] => True
  | v :: l => Plain f v ∧ PlainList f l
def PlainDict (f : FloatText) : List (String × Val) → Prop
  | [] => True
  | (_, v) :: d => Plain f v ∧ PlainDict f d
end

/-- Decompressing gives back what was compressed. -/
def Lossless (z : Zlib) : Prop := ∀ b, z.decompress (z.compress b) = some b

/-- The wires of the blueprint that go from an entity to itself join a connector with itself. -/
def LoopsPlain (w : World) (b : BpId) : Prop :=
  ∀ c ∈ (w.bp b).conns, c.fromE = c.toE → c.fromSide = c.toSide

end Verif.Spec
