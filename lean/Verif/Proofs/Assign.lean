import Verif.Model.Assign
import Verif.Proofs.Except
/-!
# Helper lemmas: what assignments leave unchanged
-/
set_option autoImplicit false

namespace Verif

theorem Entity.setAttr_frame (env : Env) (e : Entity) (k : String) (v : Val) :
    ∃ a, (e.setAttr env k v).2 = { e with attrs := a } := by
  unfold Entity.setAttr
  split
  · exact ⟨e.attrs, rfl⟩
  · split
    · exact ⟨_, rfl⟩
    · exact ⟨e.attrs, rfl⟩

theorem Entity.setControl_frame (env : Env) (e : Entity) (k : String) (v : Val) :
    ∃ c, (e.setControl env k v).2 = { e with cb := c } := by
  unfold Entity.setControl
  split
  · exact ⟨e.cb, rfl⟩
  · exact ⟨_, rfl⟩

theorem Entity.newControl_frame (env : Env) (e : Entity) (v : Val) :
    ∃ c, (e.newControl env v).2 = { e with cb := c } := by
  unfold Entity.newControl
  split
  · exact ⟨e.cb, rfl⟩
  · exact ⟨_, rfl⟩

theorem attrOwner_train {k : String} (h : attrOwner k = some .Train) : k = "orientation" := by
  unfold attrOwner at h
  split at h <;> first | rfl | cases h

theorem setOne_keys {k : String} {x : Except Exc Val} {p : String × Val} (h : p ∈ (setOne k x).2) : p.1 = k := by
  unfold setOne at h
  split at h
  · cases h
  · rw [List.mem_singleton.1 h]

theorem fillSetter_keys {k : String} {step : Val → Except Exc (Val × Dict)} {fs : Except Exc (List Val)}
    {p : String × Val} (h : p ∈ (fillSetter k step fs).2) : p.1 = k := by
  unfold fillSetter at h
  split at h <;> rw [List.mem_singleton.1 h]

theorem andThen_keys {x y : Setter} {p : String × Val} (h : p ∈ (x.andThen y).2) : p ∈ x.2 ∨ p ∈ y.2 := by
  unfold Setter.andThen at h
  split at h
  · exact .inl h
  · exact List.mem_append.1 h

theorem setInventory_keys {env : Env} {v : Val} {p : String × Val} (h : p ∈ (setInventory env v).2) :
    p.1 ∈ ["inventory_bar", "inventory_filters"] := by
  unfold setInventory at h
  split at h
  · simp only [List.mem_cons, List.not_mem_nil, or_false] at h
    rcases h with rfl | rfl <;> decide
  · split at h
    · rw [List.mem_singleton.1 h]; decide
    · rcases andThen_keys h with h | h
      · simp only [List.mem_cons, List.not_mem_nil, or_false] at h
        rcases h with rfl | rfl <;> simp
      · rw [fillSetter_keys h]; decide

theorem setInfinity_keys {env : Env} {v : Val} {p : String × Val} (h : p ∈ (setInfinity env v).2) :
    p.1 ∈ ["infinity_settings_remove_unfiltered_items", "infinity_settings_filters"] := by
  unfold setInfinity at h
  split at h
  · cases h
  · rcases andThen_keys h with h | h
    · rw [List.mem_singleton.1 h]; simp
    · split at h
      · cases h
      · rw [fillSetter_keys h]; decide

/-- A setter only writes attributes of its mixin. -/
theorem mxAssign_keys {env : Env} {strict sh : Bool} {k : String} {v : Val} {m : Mx} (hm : attrOwner k = some m) :
    ∀ p ∈ (mxAssign env strict sh k v).2, p.1 ∈ mxAttrs m := by
  intro p hp
  unfold attrOwner at hm
  split at hm <;> cases hm <;> first
    | (rw [setOne_keys hp]; decide)
    | exact setInventory_keys hp
    | exact setInfinity_keys hp
    | (rw [fillSetter_keys hp]; decide)

end Verif
