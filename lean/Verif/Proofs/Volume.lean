import Verif.Proofs.Decimal
import Verif.Proofs.Order
import Verif.Model.Assign
/-!
# Helper lemmas: the parameters of speakers
-/
set_option autoImplicit false

namespace Verif
open Spec

/-- `Speaker.parameters` reads these values … -/
theorem readParameters_iff (v o : Val) : readParameters v = .ok o ↔ SpeakerParameters v o := by
  unfold readParameters SpeakerParameters
  constructor
  · intro h
    split at h
    · cases h; exact .inl ⟨rfl, rfl⟩
    · simp only [bind_eq_ok, pure_eq_ok, Except.ok.injEq] at h
      obtain ⟨x, hx, d, hd, g, hg, p, hp, rfl⟩ := h
      have := (pyFloat_iff _ _).1 hd
      cases v with
      | dict kw => exact .inr ⟨kw, x, g, p, d, rfl, lookup_getItem.1 hx, lookup_getItem.1 hg, lookup_getItem.1 hp, this, rfl⟩
      | _ => cases hx
  · rintro (⟨rfl, rfl⟩ | ⟨kw, x, g, p, d, rfl, hx, hg, hp, hd, rfl⟩)
    · rfl
    · dsimp only [Val.subscript]
      rw [lookup_getItem.2 hx, lookup_getItem.2 hg, lookup_getItem.2 hp]
      simp only [ok_bind, (pyFloat_iff _ _).2 hd]
      rfl

theorem mxAssign_parameters (env : Env) (st sh : Bool) (v : Val) :
    mxAssign env st sh "parameters" v = setOne "parameters" (readParameters v) := rfl

theorem pyFloat_large {z : Int} (h : TooLarge z) : pyFloat (.num (.int z)) = .error .overflowError := by
  unfold pyFloat
  dsimp only
  rw [(toDouble_none _).2 h]

end Verif
