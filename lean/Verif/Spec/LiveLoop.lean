import Verif.Model.World
/-!
# What remains when the elements of a list are removed while walking over it
-/
set_option autoImplicit false

namespace Verif.Spec

/-- Of a list whose elements satisfying `p` are removed while walking over it: the element after a removed one is
never looked at and stays. -/
inductive Walked {α : Type} (p : α → Prop) : List α → List α → Prop where
  | nil : Walked p [] []
  | last {x : α} : p x → Walked p [x] []
  | skip {x y : α} {l k : List α} : p x → Walked p l k → Walked p (x :: y :: l) (y :: k)
  | keep {x : α} {l k : List α} : ¬ p x → Walked p l k → Walked p (x :: l) (x :: k)

/-- No two neighbours of the list satisfy `p`. -/
def Apart {α : Type} (p : α → Prop) (l : List α) : Prop :=
  ∀ (i : Nat) (x y : α), l[i]? = some x → l[i + 1]? = some y → ¬ (p x ∧ p y)

/-- Blueprint `b` lists `kept` instead of what it listed; the entities no longer listed are detached; everything
else is as it was. -/
structure Dropped (w w' : World) (b : BpId) (kept : List Ref) : Prop where
  objs : (w'.bp b).objs = kept
  detached : ∀ r ∈ (w.bp b).objs, r ∉ kept → w'.heap r = { w.heap r with layer := none }
  same : ∀ r, r ∉ (w.bp b).objs ∨ r ∈ kept → w'.heap r = w.heap r
  rest : { w'.bp b with objs := [] } = { w.bp b with objs := [] }
  others : ∀ c, c ≠ b → w'.bp c = w.bp c
  env : w'.env = w.env
  next : w'.next = w.next

end Verif.Spec
