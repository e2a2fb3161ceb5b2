import Verif.Proofs.Condition
/-!
# Property C51: conditions and signal ids survive export and import

`Condition(**c.to_json()) == c` is false of the code: a second signal is exported as a dict and can only be
imported as a string, and a condition without first signal cannot be imported at all.  Signal ids survive.
-/
set_option autoImplicit false

namespace Verif

/-- The full claim for conditions: what is exported can be imported and gives the same condition. -/
def ConditionSurvives (env : Env) : Prop :=
  ∀ (kw d : Dict) (c : Condition), Condition.new env kw = .ok c → Condition.toJson env c = .ok d →
    Condition.new env d = .ok c

/-- C51 (partial): what was exported can be imported and gives the same condition exactly if the condition
has a first signal and its second operand is not a signal.  The full claim `ConditionSurvives` is false. -/
theorem C51_condition_iff_partial {env : Env} {kw d : Dict} {c : Condition}
    (hn : Condition.new env kw = .ok c) (hd : Condition.toJson env c = .ok d) :
    Condition.new env d = .ok c ↔ c.first ≠ .none ∧ ∀ s, c.second ≠ .str s := by
  obtain ⟨h1, h2, k, hk, h3⟩ := new_parts hn
  obtain ⟨f, s, m⟩ := c
  dsimp only at h1 h2 h3
  subst h3
  unfold Condition.toJson at hd
  rw [bind_eq_ok] at hd
  obtain ⟨fj, hf, hd⟩ := hd
  rw [bind_eq_ok] at hd
  obtain ⟨sj, hs, hd⟩ := hd
  have hd : d = fj ++ [("comparator", Val.str k)] ++ sj := by injection hd with hd; exact hd.symm
  subst hd
  dsimp only at hf hs ⊢
  have hc := comparator_again hk
  -- the second entry
  have hsj : (∃ z, s = .int z ∧ sj = [("constant", .int z)]) ∨ (∃ b, s = .bool b ∧ sj = [("constant", .bool b)]) ∨
      (s = .none ∧ sj = []) ∨ (∃ t x, s = .str t ∧ sj = [("second_signal", .dict [("name", .str t), ("type", x)])]) := by
    rcases h2 with ⟨z, rfl⟩ | ⟨b, rfl⟩ | rfl | ⟨t, rfl⟩
    · exact .inl ⟨z, rfl, by injection hs with hs; exact hs.symm⟩
    · exact .inr (.inl ⟨b, rfl, by injection hs with hs; exact hs.symm⟩)
    · exact .inr (.inr (.inl ⟨rfl, by injection hs with hs; exact hs.symm⟩))
    · change (Condition.nameJson env t >>= _) = _ at hs
      rw [bind_eq_ok] at hs
      obtain ⟨j, hj, hs⟩ := hs
      unfold Condition.nameJson at hj
      rw [bind_eq_ok] at hj
      obtain ⟨x, -, hj⟩ := hj
      refine .inr (.inr (.inr ⟨t, x, rfl, ?_⟩))
      injection hj with hj
      injection hs with hs
      rw [← hs, ← hj]
  have hfj : (f = .none ∧ fj = []) ∨ (∃ t x, f = .str t ∧ nameStr env (.str t) = .ok (.str t) ∧
      fj = [("first_signal", .dict [("name", .str t), ("type", x)])]) := by
    rcases h1 with rfl | ⟨t, rfl, ht⟩
    · exact .inl ⟨rfl, by injection hf with hf; exact hf.symm⟩
    · change (Condition.nameJson env t >>= _) = _ at hf
      rw [bind_eq_ok] at hf
      obtain ⟨j, hj, hf⟩ := hf
      unfold Condition.nameJson at hj
      rw [bind_eq_ok] at hj
      obtain ⟨x, -, hj⟩ := hj
      refine .inr ⟨t, x, rfl, ht, ?_⟩
      injection hj with hj
      injection hf with hf
      rw [← hf, ← hj]
  clear hf hs h1 h2 hn
  rcases hfj with ⟨rfl, rfl⟩ | ⟨t, x, rfl, ht, rfl⟩
  · refine ⟨fun h => ?_, fun h => absurd rfl h.1⟩
    rcases hsj with ⟨z, rfl, rfl⟩ | ⟨b, rfl, rfl⟩ | ⟨rfl, rfl⟩ | ⟨u, y, rfl, rfl⟩ <;>
      simp [Condition.new, Condition.params, Dict.getD, Dict.get?, List.lookup, Condition.firstOf,
        Bind.bind, Except.bind] at h
  · rcases hsj with ⟨z, rfl, rfl⟩ | ⟨b, rfl, rfl⟩ | ⟨rfl, rfl⟩ | ⟨u, y, rfl, rfl⟩
    all_goals
      simp [Condition.new, Condition.params, Dict.getD, Dict.get?, List.lookup, Condition.firstOf, Dict.mem,
        Dict.getItem, Condition.orElse, Val.truthy, Condition.secondOf, ht, hc, Bind.bind, Except.bind, pure, Except.pure,
        nameStr_none, nameStr_dict]

/-- A static table with two signals. -/
def Sample.signalTable : Env :=
  { defaults := [("iron", .dict [("type", .str "item")]), ("A", .dict [("type", .str "virtual")])] }

example : ∃ c d, Condition.new Sample.signalTable
      [("first_signal", .dict [("name", .str "iron")]), ("constant", .int 3), ("comparator", .str ">")] = .ok c ∧
    Condition.toJson Sample.signalTable c = .ok d ∧ Condition.new Sample.signalTable d = .ok c :=
  ⟨⟨.str "iron", .int 3, .str ">"⟩,
    [("first_signal", .dict [("name", .str "iron"), ("type", .str "item")]), ("comparator", .str ">"),
      ("constant", .int 3)], by decide +kernel⟩

/-- The full claim is false: a second signal cannot be imported in the form in which it is exported. -/
theorem C51_false_second_signal : ¬ ConditionSurvives Sample.signalTable := by
  intro h
  have h := h [("first_signal", .str "iron"), ("second_signal", .str "A"), ("comparator", .str "<")]
    [("first_signal", .dict [("name", .str "iron"), ("type", .str "item")]), ("comparator", .str "<"),
      ("second_signal", .dict [("name", .str "A"), ("type", .str "virtual")])]
    ⟨.str "iron", .str "A", .str "<"⟩ (by decide +kernel) (by decide +kernel)
  revert h
  decide +kernel

/-- Nor can a condition without first signal. -/
theorem C51_false_first_signal : ¬ ConditionSurvives Sample.signalTable := by
  intro h
  have h := h [("first_signal", .dict [("name", .none)]), ("constant", .int 0), ("comparator", .str "<")]
    [("comparator", .str "<"), ("constant", .int 0)]
    ⟨.none, .int 0, .str "<"⟩ (by decide +kernel) (by decide +kernel)
  revert h
  decide +kernel

/-- C51: only the six comparators of the list are accepted (the game writes `≥`, `≤`, `≠`). -/
theorem C51_comparator {env : Env} {kw : Dict} {c : Condition} (h : Condition.new env kw = .ok c) :
    ∃ s ∈ [">", "<", "=", ">=", "<=", "!="], c.comparator = .str s :=
  (new_parts h).2.2

example : Condition.new Sample.signalTable
    [("first_signal", .dict [("name", .str "iron")]), ("constant", .int 3), ("comparator", .str "≥")] =
    .error .valueError := by decide +kernel

open Classical in
/-- C51: a first signal given as a text is accepted exactly if it is a known name that does not contain `name` itself: the
test `"name" in first_signal` is meant for dicts. -/
theorem C51_first_text {env : Env} {kw : Dict} {s k : String} {z : Int}
    (hk : ∀ p ∈ kw, p.1 ∈ ["first_signal", "comparator", "constant", "second_signal"])
    (hf : List.lookup "first_signal" kw = some (.str s)) (hs : List.lookup "second_signal" kw = none)
    (hz : List.lookup "constant" kw = some (.int z)) (hc : List.lookup "comparator" kw = some (.str k))
    (hcomp : k ∈ [">", "<", "=", ">=", "<=", "!="]) :
    Condition.new env kw = if (∃ a b, s.toList = a ++ "name".toList ++ b) then .error .typeError
      else if ((List.lookup s env.defaults).getD .none).truthy then .ok ⟨.str s, .int z, .str k⟩
      else .error .unknownEntity := by
  have hall : kw.any (fun p => !Condition.params.contains p.1) = false := by
    rw [List.any_eq_false]
    intro p hp
    have := hk p hp
    have : Condition.params.contains p.1 = true := List.contains_iff_mem.2 this
    rw [this]
    decide
  unfold Condition.new
  rw [if_neg (by rw [hall]; decide)]
  unfold Dict.getD Dict.get?
  rw [hf, hs, hz, hc]
  simp only [Option.getD_some, Option.getD_none]
  have hsub := hasSub_iff "name".toList s.toList
  by_cases h : ∃ a b, s.toList = a ++ "name".toList ++ b
  · rw [if_pos h]
    have : Condition.firstOf (.str s) = .error .typeError := by
      unfold Condition.firstOf
      dsimp only
      rw [if_pos (hsub.2 h)]
    rw [this]
    rfl
  · rw [if_neg h]
    have : Condition.firstOf (.str s) = .ok (.str s) := by
      unfold Condition.firstOf
      dsimp only
      rw [if_neg (fun e => h (hsub.1 e))]
    rw [this, ok_bind]
    unfold nameStr Dict.getD Dict.get?
    dsimp only
    split
    · rw [ok_bind]
      show (Condition.secondOf env (.int z) >>= _) = _
      show (Except.ok (Val.int z) >>= _) = _
      rw [ok_bind, comparator_again hcomp]
      rfl
    · rfl

example : Condition.new { defaults := [("name-tag", .dict [("type", .str "item")])] }
    [("first_signal", .str "name-tag"), ("constant", .int 3), ("comparator", .str ">")] = .error .typeError := by
  decide +kernel

/-- C51: a signal id is exported with its name and the type of the static table, and the export is the same
signal id when imported. -/
theorem C51_signal_id {env : Env} {data n j : Val} (hn : signalIdNew env data = .ok n)
    (hj : signalIdJson env n = .ok j) :
    signalIdNew env j = .ok n ∧ ∃ s t d, n = .str s ∧ List.lookup s env.defaults = some (.dict d) ∧
      List.lookup "type" d = some t ∧ j = .dict [("name", .str s), ("type", t)] := by
  unfold signalIdNew at hn
  rw [bind_eq_ok] at hn
  obtain ⟨v, -, hn⟩ := hn
  rcases nameStr_stored hn with rfl | ⟨s, rfl, hs⟩
  · cases hj
  · change (Dict.getItem env.defaults s >>= fun x => x.subscript "type" >>= _) = _ at hj
    rw [bind_eq_ok] at hj
    obtain ⟨x, hx, hj⟩ := hj
    rw [bind_eq_ok] at hj
    obtain ⟨t, ht, hj⟩ := hj
    have hj : j = .dict [("name", .str s), ("type", t)] := by injection hj with hj; exact hj.symm
    subst hj
    refine ⟨hs, s, t, ?_⟩
    unfold Dict.getItem at hx
    split at hx
    · rename_i y e
      have hx := Except.ok.inj hx
      subst hx
      cases y with
      | dict d =>
        refine ⟨d, rfl, e, ?_, rfl⟩
        change Dict.getItem d "type" = _ at ht
        unfold Dict.getItem at ht
        split at ht
        · rename_i e'
          rw [← Except.ok.inj ht]
          exact e'
        · cases ht
      | _ => cases ht
    · cases hx

example : ∃ n j, signalIdNew Sample.signalTable (.dict [("name", .str "A")]) = .ok n ∧
    signalIdJson Sample.signalTable n = .ok j :=
  ⟨.str "A", .dict [("name", .str "A"), ("type", .str "virtual")], by decide +kernel⟩

end Verif
