import Verif.Spec.Assign
import Verif.Proofs.AssignMake
import Verif.Proofs.RoundTrip
import Verif.Proofs.Settings
import Verif.Proofs.Names
/-!
# Helper lemmas: assignments as calls
-/
set_option autoImplicit false

namespace Verif
open Spec

/-- The settings whose assignment is modelled. -/
theorem attrOwner_settings {m : Mx} {k : String} (hk : k ∈ settings m) : attrOwner k = some m := by
  cases m <;> simp only [settings, List.mem_cons, List.not_mem_nil, or_false] at hk
  all_goals first
    | (subst hk; rfl)
    | (rcases hk with rfl | rfl <;> rfl)
    | (rcases hk with rfl | rfl | rfl <;> rfl)

theorem setEnt_same (w : World) (r : Ref) : w.setEnt r (w.heap r) = w := by
  refine World.ext rfl ?_ rfl rfl
  funext s
  rw [setEnt_heap]
  split
  · rename_i h; rw [h]
  · rfl

theorem run_setAttr (r : Ref) (k : String) (v : Val) (w : World) :
    (Op.setAttr r k v).run w = (((w.heap r).setAttr w.env k v).1, w.setEnt r ((w.heap r).setAttr w.env k v).2) := by
  rw [Op.run.eq_def]
  rfl

theorem run_setControl (r : Ref) (k : String) (v : Val) (w : World) :
    (Op.setControl r k v).run w = (((w.heap r).setControl w.env k v).1, w.setEnt r ((w.heap r).setControl w.env k v).2) := by
  rw [Op.run.eq_def]
  rfl

theorem run_newControl (r : Ref) (v : Val) (w : World) :
    (Op.newControl r v).run w = (((w.heap r).newControl w.env v).1, w.setEnt r ((w.heap r).newControl w.env v).2) := by
  rw [Op.run.eq_def]
  rfl

theorem mxAssign_one {env : Env} {strict sh : Bool} {k : String} {v : Val} {m : Mx} (hm : attrOwner k = some m)
    (hk : k ∉ compoundSettings) : ∃ x, mxAssign env strict sh k v = setOne k x := by
  unfold attrOwner at hm
  split at hm <;> first
    | exact absurd (by decide) hk
    | exact ⟨.ok v, rfl⟩
    | exact ⟨.ok (.bool v.truthy), rfl⟩
    | exact ⟨_, rfl⟩
    | cases hm

theorem setAttr_atomic {env : Env} {e : Entity} {k : String} {v : Val} {x : Exc} (hk : k ∉ compoundSettings)
    (h : (e.setAttr env k v).1 = .error x) : (e.setAttr env k v).2 = e := by
  unfold Entity.setAttr at h ⊢
  split
  · rfl
  · rename_i m hm
    rw [hm] at h
    dsimp only at h ⊢
    split
    · rename_i hh
      rw [if_pos hh] at h
      dsimp only at h ⊢
      obtain ⟨y, hy⟩ := mxAssign_one (env := env) (strict := e.strict) (sh := e.klass.insFiltersShadowed) (v := v) hm hk
      rw [hy] at h ⊢
      cases y with
      | error z => rfl
      | ok z => cases h
    · rfl

theorem cbSetAttr_atomic {env : Env} {c : Cb} {k : String} {v : Val} {x : Exc}
    (h : (c.setAttr env k v).1 = .error x) : (c.setAttr env k v).2 = c := by
  unfold Cb.setAttr at h ⊢
  split
  · rename_i hc
    rw [if_pos hc] at h
    split
    · rfl
    · rename_i y hy
      rw [hy] at h
      cases h
  · rfl

theorem lookup_set_ne {d : Dict} {k k' : String} {v : Val} (h : k' ≠ k) :
    List.lookup k' (Dict.set d k v) = List.lookup k' d := by
  rw [lookup_set, if_neg h]

theorem lookup_setAll_ne {d w : Dict} {k : String} (h : ∀ p ∈ w, p.1 ≠ k) :
    List.lookup k (setAll d w) = List.lookup k d := by
  induction w generalizing d with
  | nil => rfl
  | cons p w ih =>
    show List.lookup k (setAll (Dict.set d p.1 p.2) w) = _
    rw [ih (fun q hq => h q (List.mem_cons_of_mem _ hq)), lookup_set_ne (Ne.symm (h p (List.mem_cons_self ..)))]

theorem mxAssign_kept {env : Env} {strict sh : Bool} {k : String} {v : Val} {m : Mx} (hm : attrOwner k = some m) :
    ∀ p ∈ (mxAssign env strict sh k v).2, p.1 ∈ keptIn k := by
  intro p hp
  by_cases hk : k ∈ compoundSettings
  · simp only [compoundSettings, List.mem_cons, List.not_mem_nil, or_false] at hk
    rcases hk with rfl | rfl | rfl | rfl
    · exact setInventory_keys hp
    · exact setInfinity_keys hp
    · rw [fillSetter_keys hp]; decide
    · rw [fillSetter_keys hp]; decide
  · obtain ⟨y, hy⟩ := mxAssign_one (env := env) (strict := strict) (sh := sh) (v := v) hm hk
    rw [hy] at hp
    rw [setOne_keys hp]
    unfold keptIn
    split
    · rename_i h; subst h; exact absurd (by decide) hk
    · split
      · rename_i h; subst h; exact absurd (by decide) hk
      · exact List.mem_cons_self ..

/-- The attributes after an assignment. -/
theorem setAttr_attrs {env : Env} {e : Entity} {k : String} {v : Val} :
    ∃ s : Attrs, (∀ p ∈ s, p.1 ∈ keptIn k) ∧ (e.setAttr env k v).2 = { e with attrs := setAll e.attrs s } := by
  unfold Entity.setAttr
  split
  · exact ⟨[], ⟨fun _ h => (List.not_mem_nil h).elim, rfl⟩⟩
  · rename_i m hm
    split
    · exact ⟨_, mxAssign_kept hm, rfl⟩
    · exact ⟨[], ⟨fun _ h => (List.not_mem_nil h).elim, rfl⟩⟩

/-! ## Ranges -/

theorem readChoice_iff {ws : List String} {v : Val} :
    (∃ x, readChoice ws v = .ok x) ↔ OneOf ws v := by
  unfold readChoice OneOf
  cases v with
  | none => simp
  | str s =>
    by_cases h : s ∈ ws
    · simp [h]
    · simp [h]
  | _ => simp

theorem readChoice_same {ws : List String} {v x : Val} (h : readChoice ws v = .ok x) : x = v := by
  unfold readChoice at h
  split at h
  · cases h; rfl
  · split at h
    · cases h; rfl
    · cases h
  · cases h

theorem operatorSet_iff {ws : List String} {v : Val} : (∃ x, operatorSet ws v = .ok x) ↔ OneOf ws v := by
  unfold operatorSet OneOf
  cases v with
  | none => simp
  | str s =>
    by_cases h : s ∈ ws
    · simp [h]
    · simp [h]
  | _ => simp

theorem operatorSet_same {ws : List String} {v x : Val} (h : operatorSet ws v = .ok x) : x = v := by
  unfold operatorSet at h
  split at h
  · cases h; rfl
  · split at h
    · cases h; rfl
    · cases h
  · cases h

theorem readType_iff {v : Val} : (∃ x, readType v = .ok x) ↔ OneOf ["input", "output"] v ∧ v ≠ .none := by
  unfold readType OneOf
  cases v with
  | str s =>
    by_cases h : s = "input"
    · simp [h]
    · by_cases h' : s = "output"
      · simp [h']
      · simp [h, h']
  | _ => simp

theorem readType_same {v x : Val} (h : readType v = .ok x) : x = v := by
  unfold readType at h
  split at h
  · split at h
    · cases h; rfl
    · cases h
  · cases h

theorem between_iff {a b : Rat} {v : Val} : Between a b v ↔ ∃ n, v.num? = some n ∧ a ≤ n.val ∧ n.val ≤ b := by
  unfold Between
  constructor
  · rintro ⟨n, rfl | ⟨c, rfl, rfl⟩, h⟩
    · exact ⟨n, rfl, h⟩
    · exact ⟨_, by cases c <;> rfl, h⟩
  · rintro ⟨n, hn, h⟩
    refine ⟨n, ?_, h⟩
    cases v with
    | num m => cases hn; exact .inl rfl
    | bool c => cases c <;> (cases hn; exact .inr ⟨_, rfl, rfl⟩)
    | _ => cases hn

theorem readVariation_iff {v : Val} : (∃ x, readVariation v = .ok x) ↔ Between 0 255 v := by
  rw [between_iff]
  unfold readVariation
  cases hn : v.num? with
  | none => simp
  | some n =>
    have h1 : (n.lt (.int 0) || (Num.int 255).lt n) = true ↔ ¬ (0 ≤ n.val ∧ n.val ≤ 255) := by
      unfold Num.lt
      have e0 : (Num.int 0).val = 0 := rfl
      have e1 : (Num.int 255).val = 255 := rfl
      rw [e0, e1]
      simp only [Bool.or_eq_true, decide_eq_true_eq]
      grind
    dsimp only
    by_cases h : 0 ≤ n.val ∧ n.val ≤ 255
    · rw [if_neg (fun hh => (h1.1 hh) h)]
      exact ⟨fun _ => ⟨n, rfl, h⟩, fun _ => ⟨_, rfl⟩⟩
    · rw [if_pos (h1.2 h)]
      constructor
      · rintro ⟨x, hx⟩; cases hx
      · rintro ⟨m, hm, hh⟩
        cases hm
        exact absurd hh h

theorem readVariation_same {v x : Val} (h : readVariation v = .ok x) : x = v := by
  unfold readVariation at h
  split at h
  · split at h
    · cases h
    · cases h; rfl
  · cases h

theorem readAutoLaunch_iff {v : Val} :
    (∃ x, readAutoLaunch v = .ok x) ↔ v = .none ∨ Between 0 0 v ∨ Between 1 1 v := by
  rw [between_iff, between_iff]
  unfold readAutoLaunch
  split
  · exact ⟨fun _ => .inl rfl, fun _ => ⟨_, rfl⟩⟩
  · rename_i hv
    cases hn : v.num? with
    | none => simp [show v ≠ .none from hv]
    | some n =>
      dsimp only
      by_cases h : n.val = 0 ∨ n.val = 1
      · rw [if_pos h]
        refine ⟨fun _ => .inr ?_, fun _ => ⟨_, rfl⟩⟩
        rcases h with h | h
        · exact .inl ⟨n, rfl, by rw [h], by rw [h]⟩
        · exact .inr ⟨n, rfl, by rw [h], by rw [h]⟩
      · rw [if_neg h]
        constructor
        · rintro ⟨x, hx⟩; cases hx
        · rintro (hh | ⟨m, hm, h1, h2⟩ | ⟨m, hm, h1, h2⟩)
          · exact absurd hh hv
          · cases hm; exact absurd (.inl (Rat.le_antisymm h2 h1)) h
          · cases hm; exact absurd (.inr (Rat.le_antisymm h2 h1)) h

theorem readAutoLaunch_same {v x : Val} (h : readAutoLaunch v = .ok x) : x = v := by
  unfold readAutoLaunch at h
  split at h
  · cases h; rfl
  · split at h
    · split at h
      · cases h; rfl
      · cases h
    · cases h

theorem mem_table {t : Dict} {s : String} : Dict.mem t s = true ↔ s ∈ t.map (·.1) := by
  rw [mem_keys_iff]
  unfold Dict.mem Dict.get?
  cases List.lookup s t <;> simp

theorem recipeSet_iff {env : Env} {v : Val} :
    (∃ x, recipeSet env true v = .ok x) ↔ OneOf (env.recipes.map (·.1)) v := by
  unfold recipeSet OneOf
  simp only [Bool.not_true, Bool.false_eq_true, if_false]
  cases v with
  | none => simp
  | str s =>
    unfold inTable
    simp only [ok_bind]
    by_cases h : s ∈ env.recipes.map (·.1)
    · rw [if_pos (mem_table.2 h)]
      exact ⟨fun _ => .inr ⟨s, h, rfl⟩, fun _ => ⟨_, rfl⟩⟩
    · rw [if_neg (fun hh => h (mem_table.1 hh))]
      constructor
      · rintro ⟨x, hx⟩; cases hx
      · rintro (hh | ⟨s', hs', hh⟩)
        · cases hh
        · cases hh; exact absurd hs' h
  | _ =>
    unfold inTable
    constructor
    · rintro ⟨x, hx⟩
      simp only at hx
      split at hx <;> cases hx
    · rintro (hh | ⟨s', hs', hh⟩) <;> cases hh

theorem recipeSet_same {env : Env} {st : Bool} {v x : Val} (h : recipeSet env st v = .ok x) : x = v := by
  unfold recipeSet at h
  split at h
  · cases h; rfl
  · split at h
    · cases h; rfl
    · simp only [bind_eq_ok] at h
      obtain ⟨c, -, h⟩ := h
      split at h
      · cases h; rfl
      · cases h

/-- What the setters of the ranged settings do. -/
theorem mxAssign_ranged {env : Env} {sh : Bool} {k : String} {v : Val} (hk : k ∈ rangedSettings) :
    ∃ x : Except Exc Val, mxAssign env true sh k v = setOne k x ∧ ((∃ y, x = .ok y) ↔ Allowed env k v) ∧
      ∀ y, x = .ok y → y = v := by
  simp only [rangedSettings, List.mem_cons, List.not_mem_nil, or_false] at hk
  rcases hk with rfl | rfl | rfl | rfl | rfl | rfl | rfl | rfl | rfl
  · exact ⟨_, rfl, by rw [readType_iff]; simp [Allowed], fun _ h => readType_same h⟩
  · exact ⟨_, rfl, by rw [readChoice_iff]; simp [Allowed], fun _ h => readChoice_same h⟩
  · refine ⟨_, rfl, ?_, fun _ h => readChoice_same h⟩
    rw [readChoice_iff]; simp [Allowed, OneOf, or_comm]
  · refine ⟨_, rfl, ?_, fun _ h => readChoice_same h⟩
    rw [readChoice_iff]; simp [Allowed, OneOf, or_comm]
  · exact ⟨_, rfl, by rw [recipeSet_iff]; simp [Allowed], fun _ h => recipeSet_same h⟩
  · exact ⟨_, rfl, by rw [readVariation_iff]; simp [Allowed], fun _ h => readVariation_same h⟩
  · exact ⟨_, rfl, by rw [readAutoLaunch_iff]; simp [Allowed], fun _ h => readAutoLaunch_same h⟩
  · exact ⟨.ok v, rfl, by simp [Allowed], fun _ h => by cases h; rfl⟩
  · exact ⟨.ok v, rfl, by simp [Allowed], fun _ h => by cases h; rfl⟩

/-! ## Control behaviours -/

theorem controlAttrs_eq (m : Mx) : controlAttrs m = cbAttrs m := by cases m <;> rfl

theorem cbSetAttr_signal {env : Env} {c : Cb} {m : Mx} {k : String} {v : Val} (hm : m ∈ c.chain)
    (hk : k ∈ controlAttrs m) (hs : k ∈ Spec.signalAttrs) :
    (c.setAttr env k v).1 = (do let _ ← signalSet env v; return ()) := by
  have h1 : (c.chain.any (fun m => (cbAttrs m).contains k)) = true := by
    rw [List.any_eq_true]
    exact ⟨m, hm, by rw [← controlAttrs_eq]; simpa using hk⟩
  have h2 : Verif.signalAttrs.contains k = true := by
    have : ∀ k ∈ Spec.signalAttrs, Verif.signalAttrs.contains k = true := by decide
    exact this k hs
  unfold Cb.setAttr
  rw [if_pos h1]
  unfold cbAssign
  rw [if_pos h2]
  cases signalSet env v <;> rfl

theorem signalSet_accepts {env : Env} {s : String} {v : Val} (hn : NamesSignal s v) (hu : ¬ Unknown env.signals s) :
    ∃ x, signalSet env v = .ok x := by
  have hmem : Dict.mem env.signals s = true := by
    unfold Dict.mem Dict.get?
    unfold Unknown at hu
    cases h : List.lookup s env.signals with
    | none => exact absurd h hu
    | some _ => rfl
  have key : ∀ v, signalSet env v = (if (Val.str s).truthy then (do
      if ← inTable env.signals (.str s) then .ok (.str s) else .error .unknownSignal) else .ok (.str s)) →
      ∃ x, signalSet env v = .ok x := by
    intro v hv
    rw [hv]
    split
    · refine ⟨.str s, ?_⟩
      unfold inTable
      simp [ok_bind, hmem]
    · exact ⟨_, rfl⟩
  cases hn with
  | str => exact key _ rfl
  | obj d hd =>
    refine key _ ?_
    have : Dict.getD d "name" .none = .str s := by
      unfold Dict.getD Dict.get?
      rw [hd]
      rfl
    unfold signalSet
    simp only [this]

/-- The class of an entity of a known type. -/
theorem Solid.klass_of {env : Env} {e : Entity} {ty : String} (h : Solid env e) (ht : TypeOf env e.name ty) :
    TypeKlass ty e.klass := by
  obtain ⟨data, ty', h1, h2, h3⟩ := h.typed
  obtain ⟨d, h4, h5⟩ := ht
  unfold Dict.get? at h1
  rw [h4] at h1
  cases h1
  obtain ⟨d', hd', h6⟩ := subscript_ok.1 h2
  cases hd'
  rw [h5] at h6
  cases h6
  exact h3.typeKlass

theorem operator_rows : ∀ (ty k : String) (ops : List String),
    (ty, k, ops) ∈ [("arithmetic-combinator", "operator", operations), ("decider-combinator", "operator", comparators),
      ("inserter", "comparator", comparators), ("lamp", "comparator", comparators),
      ("train-stop", "comparator", comparators), ("transport-belt", "comparator", comparators)] →
    ∀ kl, TypeKlass ty kl →
    kl.cbChain.any (fun m => (cbAttrs m).contains k) = true ∧
    (k = "comparator" ∧ ops = deciderOps ∨ k = "operator" ∧ kl.ctx.options = some ops) := by
  intro ty k ops hk kl hkl
  obtain ⟨ms, h1, h2⟩ := hkl
  have hall : (([("arithmetic-combinator", "operator", operations), ("decider-combinator", "operator", comparators),
      ("inserter", "comparator", comparators), ("lamp", "comparator", comparators),
      ("train-stop", "comparator", comparators), ("transport-belt", "comparator", comparators)] :
      List (String × String × List String)).all fun p =>
      match prototypeMixins p.1 with
      | some ms => match Klass.extend 0 Klass.entity ms with
        | .ok kl => decide (kl.cbChain.any (fun m => (cbAttrs m).contains p.2.1) = true ∧
          (p.2.1 = "comparator" ∧ p.2.2 = deciderOps ∨ p.2.1 = "operator" ∧ kl.ctx.options = some p.2.2))
        | .error _ => false
      | none => false) = true := by decide +kernel
  have := List.all_eq_true.1 hall _ hk
  dsimp only at this
  rw [h1] at this
  dsimp only at this
  rw [h2] at this
  exact of_decide_eq_true this

theorem cbAssign_ops {env : Env} {ctx : CbCtx} {k : String} {ops : List String} {v : Val}
    (h : k = "comparator" ∧ ops = deciderOps ∨ k = "operator" ∧ ctx.options = some ops) :
    cbAssign env ctx k v = operatorSet ops v := by
  rcases h with ⟨rfl, rfl⟩ | ⟨rfl, h⟩
  · rfl
  · unfold cbAssign
    rw [if_neg (by decide), if_neg (by decide), if_pos (by decide), h]

end Verif
