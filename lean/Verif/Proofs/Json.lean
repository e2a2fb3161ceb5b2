import Verif.Proofs.JsonText
/-!
# Helper lemmas: `json.loads` reads what `json.dumps` writes
-/
set_option autoImplicit false

namespace Verif.Json
open Spec

theorem skipWs_cons {c : Char} {r : List Char} (h : isWs c = false) : skipWs (c :: r) = c :: r := by
  unfold skipWs
  rw [List.dropWhile_cons, h]
  rfl

theorem scanVal_num {f : FloatText} {n : Nat} {c : Char} {t : List Char} (h : c = '-' ∨ c.isDigit = true) :
    scanVal f (n + 1) (c :: t) = scanNum f (c :: t) := by
  have hc : ∀ d : Char, d ≠ '-' → d.isDigit = false → c ≠ d := by
    rintro d h1 h2 rfl
    rcases h with h | h
    · exact h1 h
    · rw [h2] at h; cases h
  unfold scanVal
  split
  all_goals first
    | rfl
    | (rename_i heq
       injection heq with h1 h2
       exact absurd h1 (hc _ (by decide) (by decide)))

theorem floatLit_head {l : List Char} (h : FloatLit l) :
    ∃ c t, l = c :: t ∧ (c = '-' ∨ c.isDigit = true) := by
  obtain ⟨sg, i, fr, ex, rfl, hsg, hi, -⟩ := h
  obtain ⟨c, t, rfl, hc⟩ := intLit_head hi
  rcases hsg with rfl | rfl
  · exact ⟨c, t ++ fr ++ ex, by simp, .inr hc⟩
  · exact ⟨'-', c :: t ++ fr ++ ex, by simp, .inl rfl⟩

theorem intText_head (z : Int) : ∃ c t, intText z = c :: t ∧ (c = '-' ∨ c.isDigit = true) := by
  obtain ⟨c, t, hct, hc⟩ := intLit_head (toDigits_lit z.natAbs)
  unfold intText
  split
  · exact ⟨_, _, rfl, .inl rfl⟩
  · exact ⟨c, t, hct, .inr hc⟩

/-- The first character of a value. -/
theorem dumps_head (f : FloatText) (v : Val) (h : Plain f v) :
    ∃ c t, dumps f v = c :: t ∧ isWs c = false ∧ c ≠ ']' := by
  have num : ∀ c : Char, (c = '-' ∨ c.isDigit = true) → isWs c = false ∧ c ≠ ']' := by
    rintro c (rfl | hc)
    · decide
    · constructor
      · cases hw : isWs c with
        | false => rfl
        | true =>
          simp only [isWs, Bool.or_eq_true, decide_eq_true_eq] at hw
          rcases hw with ((rfl | rfl) | rfl) | rfl <;> exact absurd hc (by decide)
      · rintro rfl
        exact absurd hc (by decide)
  cases v with
  | none => exact ⟨_, _, rfl, by decide, by decide⟩
  | bool b => cases b <;> exact ⟨_, _, rfl, by decide, by decide⟩
  | num n =>
    cases n with
    | int z =>
      obtain ⟨c, t, h1, h2⟩ := intText_head z
      exact ⟨c, t, by rw [dumps, h1], num c h2⟩
    | flt q =>
      obtain ⟨c, t, h1, h2⟩ := floatLit_head (show ExactFloat f q from h).1
      exact ⟨c, t, by rw [dumps, h1], num c h2⟩
  | str s => exact ⟨_, _, rfl, by decide, by decide⟩
  | list l => cases l <;> exact ⟨_, _, rfl, by decide, by decide⟩
  | dict d =>
    rcases d with _ | ⟨⟨k, v⟩, d⟩ <;> exact ⟨_, _, rfl, by decide, by decide⟩

theorem skipWs_dumps {f : FloatText} {v : Val} (h : Plain f v) (r : List Char) :
    skipWs (dumps f v ++ r) = dumps f v ++ r := by
  obtain ⟨c, t, h1, h2, -⟩ := dumps_head f v h
  rw [h1, List.cons_append, skipWs_cons h2]

theorem dumpItems_stop {f : FloatText} {l : List Val} {r : List Char} : Stop (dumpItems f l ++ r) := by
  intro c hc
  cases l <;> (cases hc; simp)

theorem dumpPairs_stop {f : FloatText} {d : Dict} {r : List Char} : Stop (dumpPairs f d ++ r) := by
  intro c hc
  rcases d with _ | ⟨⟨k, v⟩, d⟩ <;> (cases hc; simp)

theorem dumpItems_pos (f : FloatText) (l : List Val) : 0 < (dumpItems f l).length := by
  cases l <;> simp [dumpItems]

theorem dumpPairs_pos (f : FloatText) (d : Dict) : 0 < (dumpPairs f d).length := by
  rcases d with _ | ⟨⟨k, v⟩, d⟩ <;> simp [dumpPairs]

theorem set_snoc {d : Dict} {k : String} {v : Val} (h : k ∉ d.map (·.1)) : Dict.set d k v = d ++ [(k, v)] := by
  induction d with
  | nil => rfl
  | cons p d ih =>
    obtain ⟨l, u⟩ := p
    simp only [List.map_cons, List.mem_cons, not_or] at h
    have : Dict.set ((l, u) :: d) k v = if l = k then (l, v) :: d else (l, u) :: Dict.set d k v := rfl
    rw [this, if_neg (Ne.symm h.1), ih h.2]
    rfl

/-! ## One step of the parser -/

section
variable {f : FloatText} {n : Nat} {r r' r'' t : List Char} {c : Char} {v : Val} {k : String}

theorem scanVal_str (h : scanStr r = .ok (k, r')) : scanVal f (n + 1) ('"' :: r) = .ok (.str k, r') := by
  show (match scanStr r with
    | .ok (s, r) => Except.ok (Val.str s, r)
    | .error e => .error e) = _
  rw [h]

theorem scanVal_dict (h : skipWs r = '"' :: r') : scanVal f (n + 1) ('{' :: r) = scanPairs f n [] r' := by
  show (match skipWs r with
    | '}' :: r => Except.ok (Val.dict [], r)
    | '"' :: r => scanPairs f n [] r
    | _ => .error .valueError) = _
  rw [h]
  rfl

theorem scanVal_list (h : skipWs r = c :: t) (hc : c ≠ ']') :
    scanVal f (n + 1) ('[' :: r) = scanItems f n [] (c :: t) := by
  show (match skipWs r with
    | ']' :: r => Except.ok (Val.list [], r)
    | r => scanItems f n [] r) = _
  rw [h]
  split
  · rename_i heq
    injection heq with h1 _
    exact absurd h1 hc
  · rfl

theorem scanItems_end {acc : List Val} (h : scanVal f n r = .ok (v, r')) (h2 : skipWs r' = ']' :: r'') :
    scanItems f (n + 1) acc r = .ok (.list (acc.reverse ++ [v]), r'') := by
  unfold scanItems
  rw [h]
  dsimp only
  rw [h2]
  rfl

theorem scanItems_next {acc : List Val} (h : scanVal f n r = .ok (v, r')) (h2 : skipWs r' = ',' :: r'') :
    scanItems f (n + 1) acc r = scanItems f n (v :: acc) (skipWs r'') := by
  rw [scanItems.eq_def]
  dsimp only
  rw [h]
  dsimp only
  rw [h2]
  rfl

theorem scanPairs_end {acc : Dict} {u u' : List Char} (h : scanStr r = .ok (k, u')) (h0 : skipWs u' = ':' :: u)
    (h1 : scanVal f n (skipWs u) = .ok (v, r')) (h2 : skipWs r' = '}' :: r'') :
    scanPairs f (n + 1) acc r = .ok (.dict (Dict.set acc k v), r'') := by
  unfold scanPairs
  rw [h]
  dsimp only
  rw [h0]
  show (match scanVal f n (skipWs u) with
    | .error e => Except.error e
    | .ok (v, r) =>
      match skipWs r with
      | '}' :: r => .ok (Val.dict (Dict.set acc k v), r)
      | ',' :: r =>
        match skipWs r with
        | '"' :: r => scanPairs f n (Dict.set acc k v) r
        | _ => .error .valueError
      | _ => .error .valueError) = _
  rw [h1]
  dsimp only
  rw [h2]
  rfl

theorem scanPairs_next {acc : Dict} {u u' : List Char} (h : scanStr r = .ok (k, u')) (h0 : skipWs u' = ':' :: u)
    (h1 : scanVal f n (skipWs u) = .ok (v, r')) (h2 : skipWs r' = ',' :: r'') (h3 : skipWs r'' = '"' :: t) :
    scanPairs f (n + 1) acc r = scanPairs f n (Dict.set acc k v) t := by
  rw [scanPairs.eq_def]
  dsimp only
  rw [h]
  dsimp only
  rw [h0]
  show (match scanVal f n (skipWs u) with
    | .error e => Except.error e
    | .ok (v, r) =>
      match skipWs r with
      | '}' :: r => .ok (Val.dict (Dict.set acc k v), r)
      | ',' :: r =>
        match skipWs r with
        | '"' :: r => scanPairs f n (Dict.set acc k v) r
        | _ => .error .valueError
      | _ => .error .valueError) = _
  rw [h1]
  dsimp only
  rw [h2]
  show (match skipWs r'' with
    | '"' :: r => scanPairs f n (Dict.set acc k v) r
    | _ => .error .valueError) = _
  rw [h3]
  rfl

end

theorem skipWs_blank (r : List Char) : skipWs (' ' :: r) = skipWs r := rfl

mutual
theorem scanVal_dumps (f : FloatText) : (v : Val) → Plain f v → (n : Nat) → (r : List Char) → Stop r →
    (dumps f v).length ≤ n → scanVal f n (dumps f v ++ r) = .ok (v, r)
  | v, hp, 0, r, hr, hn => by
    obtain ⟨c, t, h1, -⟩ := dumps_head f v hp
    rw [h1] at hn
    simp at hn
  | .none, hp, n + 1, r, hr, hn => rfl
  | .bool true, hp, n + 1, r, hr, hn => rfl
  | .bool false, hp, n + 1, r, hr, hn => rfl
  | .num (.int z), hp, n + 1, r, hr, hn => by
    obtain ⟨c, t, h1, h2⟩ := intText_head z
    rw [dumps, h1, List.cons_append, scanVal_num h2, ← List.cons_append, ← h1]
    exact scanNum_int hr
  | .num (.flt q), hp, n + 1, r, hr, hn => by
    have hq : ExactFloat f q := hp
    obtain ⟨c, t, h1, h2⟩ := floatLit_head hq.1
    rw [dumps, h1, List.cons_append, scanVal_num h2, ← List.cons_append, ← h1]
    exact scanNum_float hq hr
  | .str s, hp, n + 1, r, hr, hn => by
    rw [dumps, strText]
    show scanVal f (n + 1) ('"' :: (s.toList.flatMap escape ++ ['"'] ++ r)) = _
    rw [List.append_assoc]
    exact scanVal_str (scanStr_text s r)
  | .list [], hp, n + 1, r, hr, hn => rfl
  | .list (v :: l), hp, n + 1, r, hr, hn => by
    have hp : Plain f v ∧ PlainList f l := hp
    rw [dumps] at hn ⊢
    simp only [List.length_cons] at hn
    have := scanItems_dumps f v l hp.1 hp.2 n [] r (by omega)
    rw [List.cons_append, List.append_assoc]
    obtain ⟨c, t, h1, h2, h3⟩ := dumps_head f v hp.1
    rw [h1, List.cons_append] at this ⊢
    rw [scanVal_list (skipWs_cons h2) h3, this]
    rfl
  | .dict [], hp, n + 1, r, hr, hn => rfl
  | .dict ((k, v) :: d), hp, n + 1, r, hr, hn => by
    have hp : (((k, v) :: d).map (·.1)).Nodup ∧ Plain f v ∧ PlainDict f d := hp
    rw [dumps] at hn ⊢
    simp only [List.length_cons, List.length_append] at hn
    have := scanPairs_dumps f k v d hp.2.1 hp.2.2 n [] r (by simpa using hp.1) (by
      simp only [List.length_append]
      omega)
    rw [strText]
    simp only [List.append_assoc, List.cons_append, List.nil_append] at this ⊢
    rw [scanVal_dict (skipWs_cons (by decide)), this]

theorem scanItems_dumps (f : FloatText) : (v : Val) → (l : List Val) → Plain f v → PlainList f l →
    (n : Nat) → (acc : List Val) → (r : List Char) → (dumps f v ++ dumpItems f l).length ≤ n →
    scanItems f n acc (dumps f v ++ (dumpItems f l ++ r)) = .ok (.list (acc.reverse ++ v :: l), r)
  | v, l, hv, hl, 0, acc, r, hn => by
    have := dumpItems_pos f l
    rw [List.length_append] at hn
    omega
  | v, [], hv, hl, n + 1, acc, r, hn => by
    have h1 := scanVal_dumps f v hv n (dumpItems f [] ++ r) dumpItems_stop (by
      rw [List.length_append] at hn
      have := dumpItems_pos f []
      omega)
    exact scanItems_end h1 (skipWs_cons (by decide))
  | v, v' :: l, hv, hl, n + 1, acc, r, hn => by
    have hl : Plain f v' ∧ PlainList f l := hl
    have h1 := scanVal_dumps f v hv n (dumpItems f (v' :: l) ++ r) dumpItems_stop (by
      rw [List.length_append] at hn
      have := dumpItems_pos f (v' :: l)
      omega)
    have h2 := scanItems_dumps f v' l hl.1 hl.2 n (v :: acc) r (by
      rw [dumpItems] at hn
      simp only [List.length_append, List.length_cons] at hn ⊢
      omega)
    rw [dumpItems] at h1 ⊢
    simp only [List.append_assoc, List.cons_append] at h1 ⊢
    rw [scanItems_next h1 (skipWs_cons (by decide)), skipWs_blank, skipWs_dumps hl.1, h2]
    simp

theorem scanPairs_dumps (f : FloatText) : (k : String) → (v : Val) → (d : List (String × Val)) → Plain f v →
    PlainDict f d → (n : Nat) → (acc : Dict) → (r : List Char) →
    ((acc ++ (k, v) :: d).map (·.1)).Nodup → (dumps f v ++ dumpPairs f d).length ≤ n →
    scanPairs f n acc (k.toList.flatMap escape ++ '"' :: ':' :: ' ' :: (dumps f v ++ (dumpPairs f d ++ r))) =
      .ok (.dict (acc ++ (k, v) :: d), r)
  | k, v, d, hv, hd, 0, acc, r, hnd, hn => by
    have := dumpPairs_pos f d
    rw [List.length_append] at hn
    omega
  | k, v, [], hv, hd, n + 1, acc, r, hnd, hn => by
    have h1 := scanVal_dumps f v hv n (dumpPairs f [] ++ r) dumpPairs_stop (by
      rw [List.length_append] at hn
      have := dumpPairs_pos f []
      omega)
    have hk : k ∉ acc.map (·.1) := by
      simp only [List.map_append, List.map_cons, List.map_nil, List.nodup_append] at hnd
      intro hk
      exact hnd.2.2 k hk k (by simp) rfl
    rw [scanPairs_end (scanStr_text k _) (skipWs_cons (by decide)) (by rw [skipWs_blank, skipWs_dumps hv]; exact h1)
      (skipWs_cons (by decide)), set_snoc hk]
    rfl
  | k, v, (k', v') :: d, hv, hd, n + 1, acc, r, hnd, hn => by
    have hd : Plain f v' ∧ PlainDict f d := hd
    have h1 := scanVal_dumps f v hv n (dumpPairs f ((k', v') :: d) ++ r) dumpPairs_stop (by
      rw [List.length_append] at hn
      have := dumpPairs_pos f ((k', v') :: d)
      omega)
    have hk : k ∉ acc.map (·.1) := by
      simp only [List.map_append, List.map_cons, List.nodup_append] at hnd
      intro hk
      exact hnd.2.2 k hk k (by simp) rfl
    have h2 := scanPairs_dumps f k' v' d hd.1 hd.2 n (acc ++ [(k, v)]) r (by simpa using hnd) (by
      rw [dumpPairs] at hn
      simp only [List.length_append, List.length_cons] at hn ⊢
      omega)
    rw [dumpPairs, strText] at h1 ⊢
    simp only [List.append_assoc, List.cons_append, List.nil_append] at h1 h2 ⊢
    rw [scanPairs_next (scanStr_text k _) (skipWs_cons (by decide)) (by rw [skipWs_blank, skipWs_dumps hv]; exact h1)
      (skipWs_cons (by decide)) (by rw [skipWs_blank, skipWs_cons (by decide)]), set_snoc hk, h2]
end

theorem loads_dumps {f : FloatText} {v : Val} (h : Plain f v) : loads f (dumps f v) = .ok v := by
  have h1 := scanVal_dumps f v h (2 * (dumps f v).length + 2) [] (fun c hc => by cases hc) (by omega)
  have h2 := skipWs_dumps h []
  rw [List.append_nil] at h1 h2
  unfold loads
  rw [h2, h1]
  rfl

end Verif.Json
