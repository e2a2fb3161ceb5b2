import Verif.Model.Condition
import Verif.Proofs.Except
/-!
# Lemmas about `Condition`
-/
set_option autoImplicit false

namespace Verif

theorem hasSub_iff (p s : List Char) : hasSub p s = true ↔ ∃ a b, s = a ++ p ++ b := by
  induction s with
  | nil =>
    unfold hasSub
    constructor
    · intro h
      exact ⟨[], [], by simpa using (List.isEmpty_iff.1 h).symm⟩
    · rintro ⟨a, b, h⟩
      have := (List.append_eq_nil_iff.1 h.symm).1
      rw [(List.append_eq_nil_iff.1 this).2]
      rfl
  | cons c s ih =>
    unfold hasSub
    rw [Bool.or_eq_true, ih, List.isPrefixOf_iff_prefix]
    constructor
    · rintro (⟨b, h⟩ | ⟨a, b, h⟩)
      · exact ⟨[], b, by rw [List.nil_append]; exact h.symm⟩
      · exact ⟨c :: a, b, by rw [h]; rfl⟩
    · rintro ⟨a, b, h⟩
      cases a with
      | nil => exact .inl ⟨b, by rw [h]; rfl⟩
      | cons x a =>
        injection h with _ h
        exact .inr ⟨a, b, h⟩

theorem nameStr_none {env : Env} : nameStr env .none = .ok .none := rfl

theorem nameStr_dict {env : Env} {d : Dict} : nameStr env (.dict d) = .error .typeError := rfl

/-- The result of `NameStr(…)` is accepted by `NameStr`, and is `None` or a name. -/
theorem nameStr_stored {env : Env} {v r : Val} (h : nameStr env v = .ok r) :
    r = .none ∨ ∃ s, r = .str s ∧ nameStr env (.str s) = .ok (.str s) := by
  unfold nameStr at h
  split at h
  · exact .inl (by injection h with h; exact h.symm)
  · rename_i s
    split at h
    · rename_i hs
      injection h with h
      refine .inr ⟨s, h.symm, ?_⟩
      exact if_pos hs
    · cases h
  · split at h <;> cases h

/-- The parts of a condition that was constructed. -/
theorem new_parts {env : Env} {kw : Dict} {c : Condition} (h : Condition.new env kw = .ok c) :
    (c.first = .none ∨ ∃ s, c.first = .str s ∧ nameStr env (.str s) = .ok (.str s)) ∧
    ((∃ z, c.second = .int z) ∨ (∃ b, c.second = .bool b) ∨ c.second = .none ∨
      ∃ s, c.second = .str s) ∧
    ∃ s ∈ Condition.comparators, c.comparator = .str s := by
  unfold Condition.new at h
  split at h
  · cases h
  · rw [bind_eq_ok] at h
    obtain ⟨f, -, h⟩ := h
    rw [bind_eq_ok] at h
    obtain ⟨f', hf', h⟩ := h
    rw [bind_eq_ok] at h
    obtain ⟨s, hs, h⟩ := h
    rw [bind_eq_ok] at h
    obtain ⟨k, hk, h⟩ := h
    have h : c = ⟨f', s, k⟩ := by injection h with h; exact h.symm
    subst h
    refine ⟨nameStr_stored hf', ?_, ?_⟩
    · unfold Condition.secondOf at hs
      split at hs
      · exact .inl ⟨_, by injection hs with hs; exact hs.symm⟩
      · exact .inr (.inl ⟨_, by injection hs with hs; exact hs.symm⟩)
      · rcases nameStr_stored hs with h | ⟨s, h, -⟩
        · exact .inr (.inr (.inl h))
        · exact .inr (.inr (.inr ⟨s, h⟩))
    · unfold Condition.comparatorOf at hk
      split at hk
      · rename_i t e
        split at hk
        · rename_i ht
          exact ⟨_, by simpa using ht, by injection hk with hk; rw [← hk, e]⟩
        · cases hk
      · cases hk

theorem comparator_again {s : String} (h : s ∈ Condition.comparators) :
    Condition.comparatorOf (.str s) = .ok (.str s) := by
  exact if_pos (by simpa using h)

end Verif
