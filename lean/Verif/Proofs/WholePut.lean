import Verif.Proofs.Text
import Verif.Proofs.AssignOps
/-!
# Helper lemmas: assigning whole numbers
-/
set_option autoImplicit false

namespace Verif
open Spec

/-- The settings that are read as whole numbers. -/
theorem mxAssign_whole {env : Env} {st sh : Bool} {k : String} (hk : k ∈ wholeSettings) (v : Val) :
    mxAssign env st sh k v = setOne k (readIntOrNone v) := by
  simp only [wholeSettings, List.mem_cons, List.not_mem_nil, or_false] at hk
  rcases hk with rfl | rfl | rfl <;> rfl

theorem readIntOrNone_iff (v o : Val) : readIntOrNone v = .ok o ↔
    (v = .none ∧ o = .none) ∨ ∃ z, Whole v z ∧ o = .int z := by
  unfold readIntOrNone
  split
  · constructor
    · intro h; injection h with h; exact .inl ⟨rfl, h.symm⟩
    · rintro (⟨-, rfl⟩ | ⟨z, hz, -⟩)
      · rfl
      · exact False.elim hz
  · rename_i hv
    simp only [bind_eq_ok, pyInt_iff, pure_eq_ok, Except.ok.injEq]
    constructor
    · rintro ⟨z, hz, rfl⟩; exact .inr ⟨z, hz, rfl⟩
    · rintro (⟨rfl, -⟩ | ⟨z, hz, rfl⟩)
      · exact absurd rfl hv
      · exact ⟨z, hz, rfl⟩

end Verif
