import Verif.Proofs.Dict
import Verif.Proofs.Rotate
/-!
# Helper lemmas: the attributes the mixins set
-/
set_option autoImplicit false

namespace Verif

theorem mxRead_keys {env : Env} {strict sh : Bool} {m : Mx} {g : Kw} {a : Attrs}
    (h : mxRead env strict sh m g = .ok a) : ∀ p ∈ a, p.1 ∈ mxAttrs m := by
  intro p hp
  cases m <;> simp only [mxRead, bind_eq_ok, pure_eq_ok, Except.ok.injEq] at h
  all_goals first
    | (subst h; cases hp; done)
    | skip
  all_goals simp only [mxAttrs, mxKeys, List.mem_cons, List.not_mem_nil, or_false]
  case Items =>
    simp only [readItems, bind_eq_ok, pure_eq_ok, Except.ok.injEq] at h
    obtain ⟨d, -, d', -, rfl⟩ := h
    simp at hp; rw [hp]
  case Train => obtain ⟨o, -, rfl⟩ := h; simp at hp; rw [hp]
  case Cargo =>
    unfold readCargo at h
    split at h
    · cases h
      simp at hp
      rcases hp with rfl | rfl <;> simp
    · simp only [bind_eq_ok, pure_eq_ok, Except.ok.injEq] at h
      obtain ⟨_, -, _, -, _, -, rfl⟩ := h
      simp at hp
      rcases hp with rfl | rfl <;> simp
  case Color => obtain ⟨o, -, rfl⟩ := h; simp at hp; rw [hp]
  case Container => obtain ⟨o, -, rfl⟩ := h; simp at hp; rw [hp]
  case Inserter =>
    obtain ⟨_, -, _, -, _, -, rfl⟩ := h
    simp at hp
    rcases hp with rfl | rfl | rfl <;> simp
  case FilterInserter =>
    obtain ⟨fs, -, h⟩ := h
    split at h
    · simp at h
    · simp only [bind_eq_ok, Except.ok.injEq] at h
      obtain ⟨_, -, _, -, rfl⟩ := h
      simp at hp
      rcases hp with rfl | rfl <;> simp
  case InfinityContainer =>
    simp only [readInfinity, bind_eq_ok, pure_eq_ok, Except.ok.injEq] at h
    obtain ⟨_, -, _, -, _, -, _, -, rfl⟩ := h
    simp at hp
    rcases hp with rfl | rfl <;> simp
  case Recipe => obtain ⟨o, -, rfl⟩ := h; simp at hp; rw [hp]
  case Requester =>
    obtain ⟨_, -, rfl⟩ := h
    simp at hp
    rcases hp with rfl | rfl <;> simp
  case Silo => obtain ⟨o, -, rfl⟩ := h; simp at hp; rw [hp]
  case Speaker =>
    obtain ⟨_, -, _, -, rfl⟩ := h
    simp at hp
    rcases hp with rfl | rfl <;> simp
  case Splitter =>
    obtain ⟨_, -, _, -, _, -, rfl⟩ := h
    simp at hp
    rcases hp with rfl | rfl | rfl <;> simp
  case Station => subst h; simp at hp; rw [hp]
  case Underground =>
    split at h
    · cases h
    · split at h
      · cases h; simp at hp; rw [hp]
      · cases h
    · cases h
  case Variation => obtain ⟨o, -, rfl⟩ := h; simp at hp; rw [hp]

/-- Attributes not belonging to a class of the chain are left alone. -/
theorem initChain_lookup {env : Env} {strict sh : Bool} {lo : Exc} {ms : List Mx} {args : Bool} {kw : Dict}
    {a a' : Attrs} {k : String} (h : initChain env strict sh lo ms args kw a = .ok a')
    (hk : ∀ m ∈ ms, k ∉ mxAttrs m) : List.lookup k a' = List.lookup k a := by
  induction ms generalizing args kw a with
  | nil =>
    unfold initChain at h
    split at h
    · cases h
    · cases h; rfl
  | cons m ms ih =>
    unfold initChain at h
    split at h
    · cases h
    · rename_i w hw
      have hs : List.lookup k (setAll a w) = List.lookup k a := by
        refine lookup_setAll_of_not ?_
        intro hm
        obtain ⟨p, hp, rfl⟩ := List.mem_map.1 hm
        exact hk m (List.mem_cons_self ..) (mxRead_keys hw p hp)
      have hk' := fun n hn => hk n (List.mem_cons_of_mem _ hn)
      dsimp only at h
      split at h
      · rw [ih h hk', hs]
      · rw [ih h hk', hs]

theorem setAll_mem {obj ws : Dict} {k : String} {v : Val} (h : List.lookup k (setAll obj ws) = some v) :
    (k, v) ∈ ws ∨ List.lookup k obj = some v := by
  induction ws generalizing obj with
  | nil => exact .inr h
  | cons p ws ih =>
    have : setAll obj (p :: ws) = setAll (Dict.set obj p.1 p.2) ws := rfl
    rw [this] at h
    rcases ih h with h | h
    · exact .inl (List.mem_cons_of_mem _ h)
    · rw [lookup_set] at h
      split at h
      · rename_i e
        cases h
        left
        rw [e]
        exact List.mem_cons_self ..
      · exact .inr h

/-- Every attribute was set by a class of the chain, from some keywords. -/
theorem initChain_attr {env : Env} {strict sh : Bool} {lo : Exc} {ms : List Mx} {args : Bool} {kw : Dict}
    {a a' : Attrs} {k : String} {v : Val} (h : initChain env strict sh lo ms args kw a = .ok a')
    (hv : List.lookup k a' = some v) :
    List.lookup k a = some v ∨
      ∃ m ∈ ms, ∃ g w, mxRead env strict sh m g = .ok w ∧ (k, v) ∈ w := by
  induction ms generalizing args kw a with
  | nil =>
    unfold initChain at h
    split at h
    · cases h
    · cases h; exact .inl hv
  | cons m ms ih =>
    unfold initChain at h
    split at h
    · cases h
    · rename_i w hw
      have key : List.lookup k (setAll a w) = some v ∨ (∃ n ∈ ms, ∃ g w, mxRead env strict sh n g = .ok w ∧ (k, v) ∈ w) →
          List.lookup k a = some v ∨ ∃ n ∈ m :: ms, ∃ g w, mxRead env strict sh n g = .ok w ∧ (k, v) ∈ w := by
        rintro (h | ⟨n, hn, r⟩)
        · rcases setAll_mem h with h | h
          · exact .inr ⟨m, List.mem_cons_self .., _, w, hw, h⟩
          · exact .inl h
        · exact .inr ⟨n, List.mem_cons_of_mem _ hn, r⟩
      dsimp only at h
      split at h
      · exact key (ih h)
      · exact key (ih h)

/-- The value of `orientation` is `None` or a fraction of a turn. -/
def OriOk (a : Attrs) : Prop :=
  ∀ v, List.lookup "orientation" a = some v → v = .none ∨ ∃ q : Rat, v = .flt q ∧ 0 ≤ q ∧ q < 1

theorem oriOk_set {a : Attrs} {v o : Val} (h : orientationSet v = .ok o) :
    OriOk (Dict.set a "orientation" o) := by
  intro u hu
  rw [lookup_set, if_pos rfl] at hu
  cases hu
  rcases orientationSet_ok h with rfl | ⟨n, -, rfl⟩
  · exact .inl rfl
  · exact .inr ⟨_, rfl, fract_range _⟩

theorem orientation_owner {m : Mx} (h : "orientation" ∈ mxAttrs m) : m = .Train := by
  cases m <;> first | rfl | (exfalso; revert h; decide)

theorem initChain_oriOk {env : Env} {strict sh : Bool} {lo : Exc} {ms : List Mx} {args : Bool} {kw : Dict}
    {a a' : Attrs} (h : initChain env strict sh lo ms args kw a = .ok a') (ha : OriOk a) : OriOk a' := by
  induction ms generalizing args kw a with
  | nil =>
    unfold initChain at h
    split at h
    · cases h
    · cases h; exact ha
  | cons m ms ih =>
    unfold initChain at h
    split at h
    · cases h
    · rename_i w hw
      have hs : OriOk (setAll a w) := by
        by_cases hm : m = .Train
        · subst hm
          simp only [mxRead, bind_eq_ok, pure_eq_ok, Except.ok.injEq] at hw
          obtain ⟨o, ho, rfl⟩ := hw
          exact oriOk_set ho
        · intro v hv
          rw [lookup_setAll_of_not] at hv
          · exact ha v hv
          · intro hmem
            obtain ⟨p, hp, hpk⟩ := List.mem_map.1 hmem
            have := mxRead_keys hw p hp
            rw [hpk] at this
            exact hm (orientation_owner this)
      dsimp only at h
      split at h
      · exact ih h hs
      · exact ih h hs

theorem Entity.rotateChain_oriOk (n : Int) (ms : List Mx) {e : Entity} (h : OriOk e.attrs) :
    OriOk (Entity.rotateChain n ms e).2.attrs := by
  fun_induction Entity.rotateChain n ms e with
  | case1 e => exact h
  | case2 e ms ih => exact ih h
  | case3 e ms x hx => exact h
  | case4 e ms e' he ih =>
    obtain ⟨o, ho, rfl⟩ := rotateOrientation_ok.1 he
    refine ih ?_
    intro u hu
    rw [lookup_set, if_pos rfl] at hu
    cases hu
    exact .inr ⟨_, rfl, fract_range _⟩
  | case5 => rename_i ih; exact ih h

theorem Entity.setAttr_oriOk {env : Env} {e : Entity} {k : String} {v : Val} (h : OriOk e.attrs) :
    OriOk (e.setAttr env k v).2.attrs := by
  unfold Entity.setAttr
  split
  · exact h
  · rename_i m hm
    split
    · dsimp only
      by_cases hk : k = "orientation"
      · subst hk
        show OriOk (setAll e.attrs (setOne "orientation" (orientationSet v)).2)
        unfold setOne
        split
        · exact h
        · rename_i o ho
          exact oriOk_set ho
      · intro u hu
        rw [lookup_setAll_of_not] at hu
        · exact h u hu
        · intro hmem
          obtain ⟨p, hp, hpk⟩ := List.mem_map.1 hmem
          have h1 := mxAssign_keys hm p hp
          rw [hpk] at h1
          have := orientation_owner h1
          subst this
          exact hk (attrOwner_train hm)
    · exact h

theorem Reachable.oriOk {env : Env} {w : World} (h : Reachable env w) (r : Ref) : OriOk (w.heap r).attrs := by
  refine h.entity (P := fun e => OriOk e.attrs) (by intro v hv; cases hv) ?_ ?_ (fun _ _ h => h)
    (fun _ _ h => h) r
  · rintro env l e ⟨custom, kw, he⟩
    obtain ⟨-, -, name, position, number, e', -, -, -, hs, hf⟩ := Entity.new_ok.1 he
    obtain ⟨pos, dir, cb, a, -, -, -, ha, rfl⟩ := Entity.finish_ok.1 hf
    exact initChain_oriOk ha (by intro v hv; cases hv)
  · intro env e e' he heff
    cases heff with
    | rotate n a d =>
      unfold Entity.rotate
      split
      · exact he
      · dsimp only
        split
        · exact he
        · exact Entity.rotateChain_oriOk _ _ he
    | setName c v => obtain ⟨_, _, _, hf⟩ := Entity.setName_frame env c e v; rw [hf]; exact he
    | setPos p => exact he
    | setDir v d hd => exact he
    | setClass base ms k hb hk => exact he
    | setNumber n => exact he
    | setOri v o h ht => exact oriOk_set h
    | setAttr k v => exact Entity.setAttr_oriOk he
    | setControl k v => obtain ⟨_, hf⟩ := Entity.setControl_frame env e k v; rw [hf]; exact he
    | newControl v => obtain ⟨_, hf⟩ := Entity.newControl_frame env e v; rw [hf]; exact he

end Verif
