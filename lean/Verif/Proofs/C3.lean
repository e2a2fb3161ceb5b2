import Verif.Py.C3
/-!
# Helper lemmas: the merge of linearisations
-/
set_option autoImplicit false

namespace Verif
namespace C3
variable {α : Type} [DecidableEq α]

theorem good_iff {seqs : List (List α)} {c : α} : good seqs c = true ↔ ∀ s ∈ seqs, c ∉ s.tail := by
  simp [good]

theorem candidate_some {seqs : List (List α)} {c : α} (h : candidate seqs = some c) :
    (∃ s ∈ seqs, s.head? = some c) ∧ ∀ s ∈ seqs, c ∉ s.tail := by
  unfold candidate at h
  have h1 := List.mem_of_find?_eq_some h
  have h2 := List.find?_some h
  exact ⟨by simpa using h1, good_iff.1 h2⟩

theorem dropHead_cases (c : α) (s : List α) (h : c ∉ s.tail) :
    c ∉ dropHead c s ∧ (s = c :: dropHead c s ∨ (c ∉ s ∧ dropHead c s = s)) := by
  cases s with
  | nil => simp [dropHead]
  | cons x xs =>
    simp only [List.tail_cons] at h
    unfold dropHead
    dsimp only
    by_cases e : x = c
    · subst e
      rw [if_pos rfl]
      exact ⟨h, .inl rfl⟩
    · rw [if_neg e]
      have : c ∉ x :: xs := by
        simp only [List.mem_cons, not_or]
        exact ⟨fun e' => e e'.symm, h⟩
      exact ⟨this, .inr ⟨this, rfl⟩⟩

theorem length_dropHead_le (c : α) (s : List α) : (dropHead c s).length ≤ s.length := by
  unfold dropHead
  split
  · split <;> simp
  · simp

theorem sum_filter_le (seqs : List (List α)) :
    ((seqs.filter (fun s => !s.isEmpty)).map List.length).sum = (seqs.map List.length).sum := by
  induction seqs with
  | nil => rfl
  | cons s seqs ih =>
    cases s with
    | nil => simpa using ih
    | cons x xs => simp [ih]

theorem sum_dropHead_le (c : α) (seqs : List (List α)) :
    ((seqs.map (dropHead c)).map List.length).sum ≤ (seqs.map List.length).sum := by
  induction seqs with
  | nil => simp
  | cons s seqs ih =>
    have := length_dropHead_le c s
    simp only [List.map_cons, List.sum_cons]
    omega

theorem sum_dropHead_lt {c : α} {seqs : List (List α)} (h : ∃ s ∈ seqs, s.head? = some c) :
    ((seqs.map (dropHead c)).map List.length).sum < (seqs.map List.length).sum := by
  induction seqs with
  | nil => simp at h
  | cons s seqs ih =>
    have hle := length_dropHead_le c s
    have hle' := sum_dropHead_le c seqs
    simp only [List.map_cons, List.sum_cons]
    obtain ⟨t, ht, hc⟩ := h
    rcases List.mem_cons.1 ht with rfl | ht
    · cases t with
      | nil => simp at hc
      | cons x xs =>
        simp only [List.head?_cons, Option.some.injEq] at hc
        subst hc
        have : (dropHead x (x :: xs)).length = xs.length := by simp [dropHead]
        rw [this, List.length_cons]
        omega
    · have := ih ⟨t, ht, hc⟩
      omega

theorem mergeAux_ok {fuel : Nat} {seqs : List (List α)} {r : List α}
    (hf : (seqs.map List.length).sum < fuel) (h : mergeAux fuel seqs = .ok r) :
    r.Nodup ∧ (∀ s ∈ seqs, s.Sublist r) ∧ ∀ x ∈ r, ∃ s ∈ seqs, x ∈ s := by
  induction fuel generalizing seqs r with
  | zero => omega
  | succ fuel ih =>
    unfold mergeAux at h
    dsimp only at h
    have hmem : ∀ s, s ∈ seqs → s ≠ [] → s ∈ seqs.filter (fun s => !s.isEmpty) := by
      intro s hs hne
      rw [List.mem_filter]
      exact ⟨hs, by simpa using hne⟩
    split at h
    · rename_i he
      cases h
      refine ⟨.nil, ?_, by simp⟩
      intro s hs
      by_cases hne : s = []
      · rw [hne]; exact List.nil_sublist _
      · have := hmem s hs hne
        rw [List.isEmpty_iff.1 he] at this
        cases this
    · cases hc : candidate (seqs.filter (fun s => !s.isEmpty)) with
      | none => rw [hc] at h; cases h
      | some c =>
        rw [hc] at h
        dsimp only at h
        obtain ⟨hhead, hgood⟩ := candidate_some hc
        cases hm : mergeAux fuel ((seqs.filter (fun s => !s.isEmpty)).map (dropHead c)) with
        | error e => rw [hm] at h; cases h
        | ok r' =>
          rw [hm] at h
          cases h
          have hlt := sum_dropHead_lt hhead
          rw [sum_filter_le] at hlt
          obtain ⟨h1, h2, h3⟩ := ih (by omega) hm
          refine ⟨?_, ?_, ?_⟩
          · rw [List.nodup_cons]
            refine ⟨fun hcr => ?_, h1⟩
            obtain ⟨s, hs, hcs⟩ := h3 c hcr
            obtain ⟨t, ht, rfl⟩ := List.mem_map.1 hs
            exact (dropHead_cases c t (hgood t ht)).1 hcs
          · intro s hs
            by_cases hne : s = []
            · rw [hne]; exact List.nil_sublist _
            · have hs' := hmem s hs hne
              have hsub := h2 _ (List.mem_map_of_mem hs')
              rcases (dropHead_cases c s (hgood s hs')).2 with h | ⟨-, h⟩
              · rw [h]; exact hsub.cons_cons c
              · rw [h] at hsub; exact hsub.cons c
          · intro x hx
            rcases List.mem_cons.1 hx with rfl | hx
            · obtain ⟨s, hs, hh⟩ := hhead
              exact ⟨s, (List.mem_filter.1 hs).1, List.mem_of_mem_head? hh⟩
            · obtain ⟨s, hs, hxs⟩ := h3 x hx
              obtain ⟨t, ht, rfl⟩ := List.mem_map.1 hs
              refine ⟨t, (List.mem_filter.1 ht).1, ?_⟩
              rcases (dropHead_cases c t (hgood t ht)).2 with h | ⟨-, h⟩
              · rw [h]; exact List.mem_cons_of_mem _ hxs
              · rwa [h] at hxs

/-- A merge lists every class once, keeps the order of every sequence and adds nothing. -/
theorem merge_ok {seqs : List (List α)} {r : List α} (h : merge seqs = .ok r) :
    r.Nodup ∧ (∀ s ∈ seqs, s.Sublist r) ∧ ∀ x ∈ r, ∃ s ∈ seqs, x ∈ s :=
  mergeAux_ok (by omega) h

theorem linearize_ok {c : α} {bases : List α} {mros : List (List α)} {r : List α}
    (h : linearize c bases mros = .ok r) : ∃ t, r = c :: t ∧ t.Nodup ∧ bases.Nodup ∧
      (∀ s ∈ mros, s.Sublist t) ∧ bases.Sublist t ∧ ∀ x ∈ t, x ∈ bases ∨ ∃ s ∈ mros, x ∈ s := by
  unfold linearize at h
  split at h
  · rename_i hb
    split at h
    · rename_i t ht
      cases h
      obtain ⟨h1, h2, h3⟩ := merge_ok ht
      refine ⟨t, rfl, h1, hb, fun s hs => h2 s (by simp [hs]), h2 bases (by simp), ?_⟩
      intro x hx
      obtain ⟨s, hs, hxs⟩ := h3 x hx
      rcases List.mem_append.1 hs with hs | hs
      · exact .inr ⟨s, hs, hxs⟩
      · rw [List.mem_singleton] at hs
        subst hs
        exact .inl hxs
    · cases h
  · cases h

/-- If the first sequence has no repetition and contains all others in order, the merge returns it. -/
theorem mergeAux_sub {fuel : Nat} {l : List α} {seqs : List (List α)} (hl : l.Nodup)
    (hs : ∀ s ∈ seqs, s.Sublist l) (hf : l.length < fuel) : mergeAux fuel (l :: seqs) = .ok l := by
  induction fuel generalizing l seqs with
  | zero => omega
  | succ fuel ih =>
    unfold mergeAux
    dsimp only
    cases l with
    | nil =>
      have : (([] : List α) :: seqs).filter (fun s => !s.isEmpty) = [] := by
        rw [List.filter_eq_nil_iff]
        intro s h
        rcases List.mem_cons.1 h with rfl | h
        · simp
        · have := hs s h
          rw [List.sublist_nil.1 this]
          simp
      rw [this]
      rfl
    | cons c l =>
      rw [List.nodup_cons] at hl
      have hfil : ((c :: l) :: seqs).filter (fun s => !s.isEmpty) =
          (c :: l) :: seqs.filter (fun s => !s.isEmpty) := by simp
      have hgood : ∀ s ∈ (c :: l) :: seqs.filter (fun s => !s.isEmpty), c ∉ s.tail := by
        intro s h
        rcases List.mem_cons.1 h with rfl | h
        · exact hl.1
        · have hsub := (hs s (List.mem_filter.1 h).1).tail
          exact fun hc => hl.1 (hsub.subset hc)
      have hc : candidate ((c :: l) :: seqs.filter (fun s => !s.isEmpty)) = some c := by
        unfold candidate
        rw [List.filterMap_cons]
        exact List.find?_cons_of_pos (good_iff.2 hgood)
      rw [hfil, hc]
      simp only [List.isEmpty_cons, Bool.false_eq_true, if_false]
      have hd : dropHead c (c :: l) = l := by simp [dropHead]
      rw [List.map_cons, hd, ih hl.2 _ (by simp at hf; omega)]
      intro s h
      obtain ⟨t, ht, rfl⟩ := List.mem_map.1 h
      have hsub := hs t (List.mem_filter.1 ht).1
      rcases (dropHead_cases c t (hgood t (List.mem_cons_of_mem _ ht))).2 with h | ⟨h1, h⟩
      · rw [h] at hsub
        exact List.cons_sublist_cons.1 hsub
      · rw [h]
        cases hsub with
        | cons _ h' => exact h'
        | cons_cons _ h' => exact absurd (List.mem_cons_self ..) h1

theorem merge_sub {l : List α} {seqs : List (List α)} (hl : l.Nodup) (hs : ∀ s ∈ seqs, s.Sublist l) :
    merge (l :: seqs) = .ok l :=
  mergeAux_sub hl hs (by simp; omega)

end C3
end Verif
