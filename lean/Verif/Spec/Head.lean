import Verif.Spec.Load
/-!
# What is expected of the fields of a blueprint besides its entities (C70)
-/
set_option autoImplicit false

namespace Verif.Spec

/-- Icon `k` (counted from one) as exported. -/
def iconOut (k : Int) (n : String) (t : Val) : Val :=
  .dict [("index", .int k), ("signal", .dict [("name", .str n), ("type", t)])]

/-- The exported icon is that of slot `k`. -/
def InSlot (k : Int) (v : Val) : Prop := ∃ s, v = .dict [("index", .int k), ("signal", s)]

/-- A signal given by its name: the name, or a dict with the name. -/
def SignalNamed (v : Val) (n : String) : Prop := v = .str n ∨ ∃ d, v = .dict d ∧ List.lookup "name" d = some (.str n)

/-- Two exports that differ at one key only. -/
def SameExcept (k : String) (o o' : Dict) : Prop := ∀ k', k' ≠ k → List.lookup k' o' = List.lookup k' o

end Verif.Spec
