import Verif.Py.Sort
/-!
# Facts about the stable sort
-/
set_option autoImplicit false

namespace Verif

/-- `le` is a total preorder. -/
structure TotalPre {α} (le : α → α → Bool) : Prop where
  total : ∀ a b, le a b = true ∨ le b a = true
  trans : ∀ a b c, le a b = true → le b c = true → le a c = true

theorem TotalPre.refl {α} {le : α → α → Bool} (h : TotalPre le) (a : α) : le a a = true := by
  cases h.total a a <;> assumption

section
variable {α : Type _} (le : α → α → Bool)

theorem insertBy_perm (x : α) (l : List α) : (insertBy le x l).Perm (x :: l) := by
  induction l with
  | nil => exact .refl _
  | cons y ys ih =>
    unfold insertBy
    split
    · exact .refl _
    · exact (ih.cons y).trans (.swap x y ys)

theorem sortBy_perm (l : List α) : (sortBy le l).Perm l := by
  induction l with
  | nil => exact .refl _
  | cons y ys ih => exact (insertBy_perm le y _).trans (ih.cons y)

@[simp] theorem mem_sortBy {x : α} {l : List α} : x ∈ sortBy le l ↔ x ∈ l :=
  (sortBy_perm le l).mem_iff

@[simp] theorem length_sortBy (l : List α) : (sortBy le l).length = l.length :=
  (sortBy_perm le l).length_eq

variable {le}

theorem insertBy_sorted (h : TotalPre le) (x : α) {l : List α}
    (hl : l.Pairwise (fun a b => le a b = true)) :
    (insertBy le x l).Pairwise (fun a b => le a b = true) := by
  induction l with
  | nil => simp [insertBy]
  | cons y ys ih =>
    unfold insertBy
    have hy := List.pairwise_cons.1 hl
    split
    · rename_i hxy
      refine List.pairwise_cons.2 ⟨?_, hl⟩
      intro z hz
      rcases List.mem_cons.1 hz with rfl | hz
      · exact hxy
      · exact h.trans _ _ _ hxy (hy.1 z hz)
    · rename_i hxy
      refine List.pairwise_cons.2 ⟨?_, ih hy.2⟩
      intro z hz
      rcases List.mem_cons.1 ((insertBy_perm le x ys).mem_iff.1 hz) with rfl | hz
      · rcases h.total z y with h' | h'
        · exact absurd h' hxy
        · exact h'
      · exact hy.1 z hz

theorem sortBy_sorted (h : TotalPre le) (l : List α) :
    (sortBy le l).Pairwise (fun a b => le a b = true) := by
  induction l with
  | nil => exact .nil
  | cons y ys ih => exact insertBy_sorted h y ih

/-- `x` and `y` compare equal. -/
def tie (le : α → α → Bool) (x y : α) : Bool := le x y && le y x

theorem insertBy_filter_tie (h : TotalPre le) (z x : α) (l : List α) :
    (insertBy le x l).filter (tie le z) = (x :: l).filter (tie le z) := by
  induction l with
  | nil => rfl
  | cons y ys ih =>
    unfold insertBy
    split
    · rfl
    · rename_i hxy
      rw [List.filter_cons, ih]
      by_cases hx : tie le z x = true
      · by_cases hy : tie le z y = true
        · exfalso
          simp only [tie, Bool.and_eq_true] at hx hy
          exact hxy (h.trans _ _ _ hx.2 hy.1)
        · simp [hx, hy]
      · simp [List.filter_cons, hx]

/-- Stability: elements that compare equal keep their order. -/
theorem sortBy_filter_tie (h : TotalPre le) (z : α) (l : List α) :
    (sortBy le l).filter (tie le z) = l.filter (tie le z) := by
  induction l with
  | nil => rfl
  | cons y ys ih =>
    show (insertBy le y (sortBy le ys)).filter _ = _
    rw [insertBy_filter_tie h, List.filter_cons, ih, List.filter_cons]

/-- The stable sort is unique: two sorted lists with the same elements and the same order inside each
class of ties are equal. -/
theorem sorted_ext (h : TotalPre le) {l l' : List α} (hp : l.Perm l')
    (hl : l.Pairwise (fun a b => le a b = true)) (hl' : l'.Pairwise (fun a b => le a b = true))
    (ht : ∀ z, l.filter (tie le z) = l'.filter (tie le z)) : l = l' := by
  induction l generalizing l' with
  | nil => exact (List.nil_perm.1 hp).symm
  | cons a l ih =>
    cases l' with
    | nil => exact absurd hp.symm (by simp)
    | cons b l' =>
      have hla := List.pairwise_cons.1 hl
      have hlb := List.pairwise_cons.1 hl'
      have hab : le a b = true := by
        rcases List.mem_cons.1 (hp.mem_iff.2 (List.mem_cons_self)) with e | hb
        · exact e ▸ h.refl a
        · exact hla.1 b hb
      have hba : le b a = true := by
        rcases List.mem_cons.1 (hp.mem_iff.1 (List.mem_cons_self)) with e | ha
        · exact e ▸ h.refl a
        · exact hlb.1 a ha
      have e : a = b := by
        have := ht a
        have h1 : tie le a a = true := by simp [tie, h.refl]
        have h2 : tie le a b = true := by simp [tie, hab, hba]
        simp only [List.filter_cons, h1, h2, if_true] at this
        exact (List.cons.inj this).1
      subst e
      congr 1
      refine ih (List.Perm.cons_inv hp) hla.2 hlb.2 (fun z => ?_)
      have := ht z
      simp only [List.filter_cons] at this
      split at this
      · exact (List.cons.inj this).2
      · exact this

/-- Sorting a sorted list changes nothing. -/
theorem sortBy_of_sorted (h : TotalPre le) {l : List α}
    (hl : l.Pairwise (fun a b => le a b = true)) : sortBy le l = l :=
  sorted_ext h (sortBy_perm le l) (sortBy_sorted h l) hl (sortBy_filter_tie h · l)

/-- If no two elements tie, the order of the input does not matter. -/
theorem sortBy_perm_eq (h : TotalPre le) {l l' : List α} (hp : l.Perm l')
    (ht : l.Pairwise (fun a b => tie le a b = false)) : sortBy le l = sortBy le l' := by
  have hs : ∀ m : List α, m.Perm l → m.Pairwise (fun a b => tie le a b = false) := by
    intro m hm
    refine (List.Perm.pairwise_iff ?_ hm).2 ht
    intro a b hab
    simpa [tie, Bool.and_comm] using hab
  refine sorted_ext h (((sortBy_perm le l).trans hp).trans (sortBy_perm le l').symm)
    (sortBy_sorted h l) (sortBy_sorted h l') (fun z => ?_)
  rw [sortBy_filter_tie h, sortBy_filter_tie h]
  have hpf : (l.filter (tie le z)).Perm (l'.filter (tie le z)) := hp.filter _
  -- both filters have at most one element
  have one : ∀ m : List α, m.Perm l → (m.filter (tie le z)).length ≤ 1 := by
    intro m hm
    have hd := (hs m hm).filter (tie le z)
    match hf : m.filter (tie le z), hd with
    | [], _ => simp
    | [_], _ => simp
    | a :: b :: t, hd =>
      exfalso
      have ha : tie le z a = true := (List.mem_filter.1 (by rw [hf]; simp : a ∈ m.filter (tie le z))).2
      have hb : tie le z b = true := (List.mem_filter.1 (by rw [hf]; simp : b ∈ m.filter (tie le z))).2
      have := (List.pairwise_cons.1 hd).1 b (by simp)
      simp only [tie, Bool.and_eq_true, Bool.and_eq_false_iff] at ha hb this
      rcases this with h' | h'
      · rw [h.trans _ _ _ ha.2 hb.1] at h'; cases h'
      · rw [h.trans _ _ _ hb.2 ha.1] at h'; cases h'
  have h1 := one l (.refl l)
  match hf : l.filter (tie le z), h1 with
  | [], _ =>
    rw [hf] at hpf
    exact (List.nil_perm.1 hpf).symm
  | [a], _ =>
    rw [hf] at hpf
    exact List.singleton_perm.1 hpf
  | _ :: _ :: _, h1 => simp at h1

end
end Verif
