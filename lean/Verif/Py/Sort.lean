/-!
# Stable sorting (`list.sort`, `sorted`)

Python's sort is stable; for a total preorder the stable result is unique (proved in
`Verif/Proofs/Sort.lean`), so any stable algorithm models it.  This file models the Python runtime.
-/
set_option autoImplicit false

namespace Verif

/-- Insert `x` before the first element that is not smaller. -/
def insertBy {α} (le : α → α → Bool) (x : α) : List α → List α
  | [] => [x]
  | y :: ys => if le x y then x :: y :: ys else y :: insertBy le x ys

/-- Stable sort by the total preorder `le`. -/
def sortBy {α} (le : α → α → Bool) (l : List α) : List α := l.foldr (insertBy le) []

end Verif
