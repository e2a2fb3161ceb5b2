import Verif.Model.Blueprint
/-!
# Specification: exceptions of an import, and data with ordinary values
-/
set_option autoImplicit false

namespace Verif.Spec

/-- The exceptions that an import of data can raise. -/
def importErrors : List Exc :=
  [.typeError, .valueError, .keyError, .indexError, .attributeError, .overflowError, .unknownEntity, .unknownRecipe,
   .unknownSignal, .unknownTile]

/-- The exceptions that an export can raise. -/
def exportErrors : List Exc := [.typeError, .keyError, .attributeError]

/-- The exceptions that decoding an exchange string can raise. -/
def decodeErrors : List Exc := [.valueError, .indexError, .invalidExchangeString]

/-- If it is a text, then one of ASCII characters. -/
def AsciiText (v : Val) : Prop := ∀ s, v = .str s → ∀ c ∈ s.toList, c.toNat < 128

/-- The value `v` under the key `k` is one that the model describes: coordinates are numbers, numbers of entities are
whole numbers or missing, places are given, texts that are read as numbers have ASCII characters only. -/
structure OrdinaryAt (k : String) (v : Val) : Prop where
  coord : k = "x" ∨ k = "y" → ∃ n, v = .num n
  number : k = "entity_number" → v = .none ∨ ∃ z, v = .int z
  place : k = "position" → v ≠ .none
  strict : k = "strict" → v.truthy = true
  turn : k = "direction" ∨ k = "orientation" → ∀ s, v = .str s → '%' ∉ s.toList
  count : k ∈ ["bar", "override_stack_size", "count", "circuit_id"] → AsciiText v
  volume : k = "playback_volume" → ∀ s, v ≠ .str s
  sides : k = "connections" → ∀ d, v = .dict d → ∀ p ∈ d, ∀ c ∈ p.1.toList, c.toNat < 128

mutual
/-- Data all of whose values are ordinary ones. -/
def Ordinary : Val → Prop
  | .list l => OrdinaryList l
  | .dict d => OrdinaryDict d
  | _ => True
def OrdinaryList : List Val → Prop
  | [] => True
  | v :: l => Ordinary v ∧ OrdinaryList l
def OrdinaryDict : List (String × Val) → Prop
  | [] => True
  | (k, v) :: d => OrdinaryAt k v ∧ Ordinary v ∧ OrdinaryDict d
end

end Verif.Spec
