import Verif.Proofs.Rename
import Verif.Proofs.AssignOps
import Verif.Proofs.Moved
import Verif.Spec.Behaviours
import Mathlib.Data.List.Flatten
import Mathlib.Data.List.Nodup
/-!
# Helper lemmas: behaviours given to an entity by hand
-/
set_option autoImplicit false

namespace Verif
open Spec

/-! ## When a merge succeeds -/

namespace C3
variable {α : Type} [DecidableEq α]

/-- If some order contains all sequences, there is a good head. -/
theorem candidate_exists {l : List α} {seqs : List (List α)} (hl : l.Nodup) (hs : ∀ s ∈ seqs, s.Sublist l)
    (hne : ∃ s ∈ seqs, s ≠ []) : ∃ c, candidate seqs = some c := by
  have key : ∃ c, (∃ s ∈ seqs, s.head? = some c) ∧ ∀ s ∈ seqs, c ∉ s.tail := by
    induction l with
    | nil =>
      obtain ⟨s, h1, h2⟩ := hne
      exact absurd (List.sublist_nil.1 (hs s h1)) h2
    | cons c l ih =>
      rw [List.nodup_cons] at hl
      by_cases hc : ∃ s ∈ seqs, s.head? = some c
      · exact ⟨c, hc, fun s h hm => hl.1 (((hs s h).tail).subset hm)⟩
      · refine ih hl.2 (fun s h => ?_)
        cases hs s h with
        | cons _ h' => exact h'
        | cons_cons _ h' => exact absurd ⟨_, h, rfl⟩ hc
  obtain ⟨c, ⟨s, h1, h2⟩, h3⟩ := key
  unfold candidate
  cases hf : (seqs.filterMap List.head?).find? (good seqs) with
  | some x => exact ⟨x, rfl⟩
  | none =>
    rw [List.find?_eq_none] at hf
    exact absurd (good_iff.2 h3) (hf c (List.mem_filterMap.2 ⟨s, h1, h2⟩))

theorem dropHead_sublist (c : α) (s : List α) : (dropHead c s).Sublist s := by
  unfold dropHead
  split
  · split
    · exact List.sublist_cons_self ..
    · exact List.Sublist.refl _
  · exact List.Sublist.refl _

theorem mergeAux_total {fuel : Nat} {l : List α} {seqs : List (List α)} (hl : l.Nodup) (hs : ∀ s ∈ seqs, s.Sublist l) :
    ∃ r, mergeAux fuel seqs = .ok r := by
  induction fuel generalizing seqs with
  | zero => exact ⟨_, rfl⟩
  | succ fuel ih =>
    unfold mergeAux
    dsimp only
    split
    · exact ⟨_, rfl⟩
    · rename_i he
      have hs' : ∀ s ∈ seqs.filter (fun s => !s.isEmpty), s.Sublist l := fun s h => hs s (List.mem_filter.1 h).1
      have hne : ∃ s ∈ seqs.filter (fun s => !s.isEmpty), s ≠ [] := by
        cases hq : seqs.filter (fun s => !s.isEmpty) with
        | nil => rw [hq] at he; exact absurd rfl he
        | cons s t =>
          refine ⟨s, List.mem_cons_self .., ?_⟩
          have : s ∈ seqs.filter (fun s => !s.isEmpty) := by rw [hq]; exact List.mem_cons_self ..
          simpa using (List.mem_filter.1 this).2
      obtain ⟨c, hc⟩ := candidate_exists hl hs' hne
      rw [hc]
      dsimp only
      obtain ⟨r, hr⟩ := ih (seqs := (seqs.filter (fun s => !s.isEmpty)).map (dropHead c)) (fun s h => by
        obtain ⟨t, ht, rfl⟩ := List.mem_map.1 h
        exact (dropHead_sublist c t).trans (hs' t ht))
      rw [hr]
      exact ⟨_, rfl⟩

theorem linearize_total {c : α} {bases : List α} {mros : List (List α)} {l : List α} (hl : l.Nodup)
    (hb : bases.Sublist l) (hs : ∀ s ∈ mros, s.Sublist l) : ∃ r, linearize c bases mros = .ok r := by
  unfold linearize
  rw [if_pos (hb.nodup hl)]
  obtain ⟨r, hr⟩ := mergeAux_total (fuel := ((mros ++ [bases]).map List.length).sum + 1) (seqs := mros ++ [bases]) hl
    (fun s h => by
      rcases List.mem_append.1 h with h | h
      · exact hs s h
      · rw [List.mem_singleton.1 h]; exact hb)
  unfold merge
  rw [hr]
  exact ⟨_, rfl⟩

/-- A merge that raises raises `TypeError`. -/
theorem mergeAux_error {fuel : Nat} {seqs : List (List α)} {x : Exc} (h : mergeAux fuel seqs = .error x) : x = .typeError := by
  induction fuel generalizing seqs with
  | zero => cases h
  | succ fuel ih =>
    unfold mergeAux at h
    dsimp only at h
    split at h
    · cases h
    · split at h
      · cases h; rfl
      · split at h
        · cases h
        · rename_i hq
          cases h
          exact ih hq

theorem linearize_error {c : α} {bases : List α} {mros : List (List α)} {x : Exc} (h : linearize c bases mros = .error x) :
    x = .typeError := by
  unfold linearize at h
  split at h
  · split at h
    · cases h
    · rename_i hq
      cases h
      exact mergeAux_error hq
  · cases h; rfl

end C3

/-! ## The classes of the library -/

/-- The control behaviour classes that belong to a mixin. -/
def cbOfMx (m : Mx) : List CbCls := .made (.mx m) :: if m.hasInner then [.inner (.mx m)] else []

/-- What every class ends with. -/
def mroEnd : List Cls := [.baseMixin, .base, .object]
def cbEnd : List CbCls := [.made .baseMixin, .inner .baseMixin, .object]

theorem ofMx_eq (m : Mx) : Klass.ofMx m = .ok ⟨(lineage m).map Cls.mx ++ mroEnd, (lineage m).flatMap cbOfMx ++ cbEnd⟩ := by
  cases m <;> decide +kernel

theorem lineage_self (m : Mx) : m ∈ lineage m := List.mem_cons_self ..

theorem lineage_nodup (m : Mx) : (lineage m).Nodup := by cases m <;> decide

/-- What a behaviour derives from derives from the rest. -/
theorem lineage_suffix (m : Mx) : ∀ s ∈ (lineage m).tails, s = [] ∨ ∃ y ∈ s, s = lineage y := by
  cases m <;> decide +kernel

theorem lineage_of_mem {m y : Mx} (h : y ∈ lineage m) : lineage y <:+ lineage m := by
  have : ∀ y ∈ lineage m, lineage y ∈ (lineage m).tails := by cases m <;> decide +kernel
  exact (List.mem_tails _ _).1 (this y h)

theorem lineage_head (m : Mx) : ∃ t, lineage m = m :: t := ⟨_, rfl⟩

theorem cbOfMx_nodup (m : Mx) : (cbOfMx m).Nodup := by cases m <;> decide

theorem mem_cbOfMx {m : Mx} {c : CbCls} (h : c ∈ cbOfMx m) : c = .made (.mx m) ∨ c = .inner (.mx m) := by
  unfold cbOfMx at h
  split at h <;> simp at h
  · exact h
  · exact .inl h

theorem cbOf_nodup {t : List Mx} (h : t.Nodup) : (t.flatMap cbOfMx).Nodup := by
  rw [List.nodup_flatMap]
  refine ⟨fun m _ => cbOfMx_nodup m, h.imp ?_⟩
  intro a b hab c ha hb
  rcases mem_cbOfMx ha with rfl | rfl <;> rcases mem_cbOfMx hb with e | e <;> cases e <;> exact hab rfl

/-! ## Every behaviour once, where it occurs last -/

theorem mem_lastOnly {l : List Mx} {x : Mx} : x ∈ lastOnly l ↔ x ∈ l := by
  induction l with
  | nil => rfl
  | cons a l ih =>
    unfold lastOnly
    split
    · rename_i ha
      rw [ih, List.mem_cons]
      exact ⟨.inr, fun h => h.elim (fun e => e ▸ ha) id⟩
    · rw [List.mem_cons, List.mem_cons, ih]

theorem lastOnly_nodup (l : List Mx) : (lastOnly l).Nodup := by
  induction l with
  | nil => exact .nil
  | cons a l ih =>
    unfold lastOnly
    split
    · exact ih
    · rename_i ha
      exact List.nodup_cons.2 ⟨fun h => ha (mem_lastOnly.1 h), ih⟩

theorem lastOnly_of_nodup {l : List Mx} (h : l.Nodup) : lastOnly l = l := by
  induction l with
  | nil => rfl
  | cons a l ih =>
    rw [List.nodup_cons] at h
    unfold lastOnly
    rw [if_neg h.1, ih h.2]

theorem lastOnly_append (a b : List Mx) : lastOnly (a ++ b) = (lastOnly a).filter (· ∉ b) ++ lastOnly b := by
  induction a with
  | nil => rfl
  | cons x a ih =>
    have e1 : lastOnly (x :: (a ++ b)) = if x ∈ a ++ b then lastOnly (a ++ b) else x :: lastOnly (a ++ b) := rfl
    have e2 : lastOnly (x :: a) = if x ∈ a then lastOnly a else x :: lastOnly a := rfl
    rw [List.cons_append, e1, e2]
    by_cases h1 : x ∈ a
    · rw [if_pos (List.mem_append_left _ h1), if_pos h1]
      exact ih
    · rw [if_neg h1]
      by_cases h2 : x ∈ b
      · rw [if_pos (List.mem_append_right _ h2), List.filter_cons_of_neg (by simpa using h2)]
        exact ih
      · rw [if_neg (by rw [List.mem_append]; exact not_or.2 ⟨h1, h2⟩), List.filter_cons_of_pos (by simpa using h2), ih]
        rfl

theorem split_closed {α : Type} (p : α → Bool) (l : List α) (h : l.Pairwise (fun a b => p a = true → p b = true)) :
    l = l.filter (fun x => !p x) ++ l.filter p := by
  induction l with
  | nil => rfl
  | cons x l ih =>
    rw [List.pairwise_cons] at h
    by_cases hx : p x = true
    · have hall : ∀ y ∈ l, p y = true := fun y hy => h.1 y hy hx
      rw [List.filter_cons_of_pos hx, List.filter_eq_self.2 hall, List.filter_cons_of_neg (by simp [hx]),
        List.filter_eq_nil_iff.2 (fun y hy => by simp [hall y hy])]
      rfl
    · rw [List.filter_cons_of_neg hx, List.filter_cons_of_pos (by simpa using hx), List.cons_append, ← ih h.2]

/-- A set of behaviours that has with each one what it derives from splits each line in two. -/
theorem lineage_split {p : Mx → Bool} (hp : ∀ a, p a = true → ∀ b ∈ lineage a, p b = true) (m : Mx) :
    ∃ n r, lineage m = n ++ r ∧ n = (lineage m).filter (fun x => !p x) ∧ (∀ x ∈ n, p x = false) ∧
      (r = [] ∨ ∃ y, p y = true ∧ r = lineage y) := by
  have hpw : (lineage m).Pairwise (fun a b => p a = true → p b = true) := by
    rw [List.pairwise_iff_forall_sublist]
    intro a b hab ha
    refine hp a ha b ?_
    have hm : a ∈ lineage m := hab.subset (by simp)
    have key : ∀ a ∈ lineage m, ∀ b ∈ lineage m, [a, b].Sublist (lineage m) → b ∈ lineage a := by
      cases m <;> decide +kernel
    exact key a hm b (hab.subset (by simp)) hab
  refine ⟨_, _, split_closed p _ hpw, rfl, fun x hx => by simpa using (List.mem_filter.1 hx).2, ?_⟩
  have hsuf : (lineage m).filter p ∈ (lineage m).tails :=
    (List.mem_tails _ _).2 ⟨_, (split_closed p _ hpw).symm⟩
  rcases lineage_suffix m _ hsuf with h | ⟨y, hy, h⟩
  · exact .inl h
  · exact .inr ⟨y, (List.mem_filter.1 hy).2, h⟩

theorem rowOrder_cons (m : Mx) (ms : List Mx) :
    rowOrder (m :: ms) = (lineage m).filter (· ∉ ms.flatMap lineage) ++ rowOrder ms := by
  unfold rowOrder
  rw [List.flatMap_cons, lastOnly_append, lastOnly_of_nodup (lineage_nodup m)]

theorem mem_rowOrder {ms : List Mx} {x : Mx} : x ∈ rowOrder ms ↔ ∃ m ∈ ms, x ∈ lineage m := by
  unfold rowOrder
  rw [mem_lastOnly, List.mem_flatMap]

theorem rowOrder_lineage {ms : List Mx} {m : Mx} (hm : m ∈ ms) : (lineage m).Sublist (rowOrder ms) := by
  suffices h : ∀ x, x ∈ ms.flatMap lineage → (lineage x).Sublist (rowOrder ms) from
    h m (List.mem_flatMap.2 ⟨m, hm, lineage_self m⟩)
  clear hm m
  induction ms with
  | nil => intro x hx; cases hx
  | cons m ms ih =>
    have hm : (lineage m).Sublist (rowOrder (m :: ms)) := by
      rw [rowOrder_cons]
      obtain ⟨n, r, h1, h2, -, h3⟩ := lineage_split (p := fun x => decide (x ∈ ms.flatMap lineage)) (by
        intro a ha b hb
        simp only [decide_eq_true_eq, List.mem_flatMap] at ha ⊢
        obtain ⟨c, hc, hac⟩ := ha
        exact ⟨c, hc, (lineage_of_mem hac).subset hb⟩) m
      have h2' : n = (lineage m).filter (· ∉ ms.flatMap lineage) := by
        rw [h2]
        refine List.filter_congr fun x _ => ?_
        rw [← decide_not]
      rw [← h2']
      rw [h1]
      refine List.Sublist.append (List.Sublist.refl _) ?_
      rcases h3 with rfl | ⟨y, hy, rfl⟩
      · exact List.nil_sublist _
      · exact ih y (of_decide_eq_true hy)
    intro x hx
    rw [List.flatMap_cons, List.mem_append] at hx
    rcases hx with hx | hx
    · exact (lineage_of_mem hx).sublist.trans hm
    · rw [rowOrder_cons]
      exact (ih x hx).trans (List.sublist_append_right ..)

theorem rowOrder_heads {ms : List Mx} (h : DerivedFirst ms) : ms.Sublist (rowOrder ms) := by
  induction ms with
  | nil => exact List.nil_sublist _
  | cons m ms ih =>
    unfold DerivedFirst at h
    rw [List.pairwise_cons] at h
    rw [rowOrder_cons]
    have hm : m ∉ ms.flatMap lineage := by
      rw [List.mem_flatMap]
      rintro ⟨b, hb, hmb⟩
      exact h.1 b hb hmb
    have : (lineage m).filter (· ∉ ms.flatMap lineage) = m :: (lineage m).tail.filter (· ∉ ms.flatMap lineage) := by
      obtain ⟨t, ht⟩ := lineage_head m
      rw [ht, List.filter_cons_of_pos (by simpa using hm)]
      rfl
    rw [this, List.cons_append]
    exact ((ih h.2).trans (List.sublist_append_right ..)).cons_cons m

/-! ## Extending a class -/

namespace Klass

/-- A class that entities have: first its own name, then behaviours with all that they derive from. -/
structure Full (k : Klass) : Prop where
  first : ∃ h t u, k.mro = h :: t ∧ k.cb = .made h :: u ∧ (h = .entity ∨ isDyn h = true) ∧
    mroEnd.Sublist t ∧ cbEnd.Sublist u
  lines : ∀ m ∈ k.chain, ((lineage m).map Cls.mx ++ mroEnd).Sublist k.mro ∧
    ((lineage m).flatMap cbOfMx ++ cbEnd).Sublist k.cb
  made : ∀ m, CbCls.made (.mx m) ∈ k.cb → m ∈ k.chain
  inner : ∀ m, CbCls.inner (.mx m) ∈ k.cb → m ∈ k.chain

theorem entity_full : entity.Full := by
  refine ⟨⟨_, _, _, rfl, rfl, .inl rfl, by decide, by decide⟩, ?_, ?_, ?_⟩
  · intro m hm
    rw [show entity.chain = [] from rfl] at hm
    cases hm
  all_goals
    intro m h
    simp [entity] at h

/-- The class objects of behaviours. -/
theorem mapM_ofMx_eq (ms : List Mx) : ms.mapM ofMx =
    .ok (ms.map fun m => ⟨(lineage m).map Cls.mx ++ mroEnd, (lineage m).flatMap cbOfMx ++ cbEnd⟩) := by
  induction ms with
  | nil => rfl
  | cons m ms ih =>
    rw [List.mapM_cons, ofMx_eq, ih]
    rfl

theorem mem_lineage_flat {m x : Mx} {l : List Mx} (h : CbCls.made (.mx x) ∈ l.flatMap cbOfMx ∨
    CbCls.inner (.mx x) ∈ l.flatMap cbOfMx) : x ∈ l := by
  rcases h with h | h <;>
  · obtain ⟨y, hy, h⟩ := List.mem_flatMap.1 h
    rcases mem_cbOfMx h with e | e <;> cases e
    exact hy

theorem chain_sub_of {k : Klass} {l : List Mx} {e : List Cls} (h : (l.map Cls.mx ++ e).Sublist k.mro) :
    l.Sublist k.chain := by
  have := ((List.sublist_append_left (l.map Cls.mx) e).trans h).filterMap
    (fun c : Cls => match c with | .mx m => some m | _ => none)
  rwa [List.filterMap_map, show (fun c : Cls => (match c with | .mx m => some m | _ => none : Option Mx)) ∘ Cls.mx = some
    from rfl, List.filterMap_some] at this

/-- What a new class consists of. -/
theorem extend_parts {n : Nat} {c k : Klass} {ms : List Mx} (h : extend n c ms = .ok k) :
    ∃ t u, k.mro = .dyn n :: t ∧ k.cb = .made (.dyn n) :: u ∧ t.Nodup ∧ u.Nodup ∧
      c.mro.Sublist t ∧ c.cb.Sublist u ∧
      (∀ m ∈ ms, ((lineage m).map Cls.mx ++ mroEnd).Sublist t ∧ ((lineage m).flatMap cbOfMx ++ cbEnd).Sublist u) ∧
      (∀ x ∈ t, x ∈ c.mro ∨ ∃ m ∈ ms, x ∈ (lineage m).map Cls.mx ++ mroEnd) ∧
      (∀ x ∈ u, x ∈ c.cb ∨ ∃ m ∈ ms, x ∈ (lineage m).flatMap cbOfMx ++ cbEnd) := by
  obtain ⟨ks, hks, hm⟩ := extend_ok' h
  rw [mapM_ofMx_eq] at hks
  cases hks
  obtain ⟨hl, hcb⟩ := make_ok hm
  obtain ⟨t, e1, n1, -, s1, -, m1⟩ := C3.linearize_ok hl
  obtain ⟨u, e2, n2, -, s2, -, m2⟩ := C3.linearize_ok hcb
  simp only [Bool.false_eq_true, if_false, List.nil_append] at s2 m2
  refine ⟨t, u, e1, e2, n1, n2, s1 _ (by simp), s2 _ (by simp), fun m hm => ⟨?_, ?_⟩, fun x hx => ?_, fun x hx => ?_⟩
  · refine s1 _ (List.mem_map.2 ⟨_, List.mem_cons_of_mem _ (List.mem_map.2 ⟨m, hm, rfl⟩), rfl⟩)
  · refine s2 _ (List.mem_map.2 ⟨_, List.mem_cons_of_mem _ (List.mem_map.2 ⟨m, hm, rfl⟩), rfl⟩)
  · have : ∃ b ∈ (c :: ms.map fun m => (⟨(lineage m).map Cls.mx ++ mroEnd, (lineage m).flatMap cbOfMx ++ cbEnd⟩ : Klass)),
        x ∈ b.mro := by
      rcases m1 x hx with h | ⟨s, hs, hx⟩
      · obtain ⟨b, hb, hh⟩ := List.mem_filterMap.1 h
        exact ⟨b, hb, List.mem_of_mem_head? hh⟩
      · obtain ⟨b, hb, rfl⟩ := List.mem_map.1 hs
        exact ⟨b, hb, hx⟩
    obtain ⟨b, hb, hx⟩ := this
    rcases List.mem_cons.1 hb with rfl | hb
    · exact .inl hx
    · obtain ⟨m, hm, rfl⟩ := List.mem_map.1 hb
      exact .inr ⟨m, hm, hx⟩
  · have : ∃ b ∈ (c :: ms.map fun m => (⟨(lineage m).map Cls.mx ++ mroEnd, (lineage m).flatMap cbOfMx ++ cbEnd⟩ : Klass)),
        x ∈ b.cb := by
      rcases m2 x hx with h | ⟨s, hs, hx⟩
      · obtain ⟨b, hb, hh⟩ := List.mem_filterMap.1 h
        exact ⟨b, hb, List.mem_of_mem_head? hh⟩
      · obtain ⟨b, hb, rfl⟩ := List.mem_map.1 hs
        exact ⟨b, hb, hx⟩
    obtain ⟨b, hb, hx⟩ := this
    rcases List.mem_cons.1 hb with rfl | hb
    · exact .inl hx
    · obtain ⟨m, hm, rfl⟩ := List.mem_map.1 hb
      exact .inr ⟨m, hm, hx⟩

theorem mem_line {x : Mx} {m : Mx} (h : Cls.mx x ∈ (lineage m).map Cls.mx ++ mroEnd) : x ∈ lineage m := by
  rcases List.mem_append.1 h with h | h
  · obtain ⟨y, hy, e⟩ := List.mem_map.1 h
    cases e
    exact hy
  · simp [mroEnd] at h

/-- The behaviours of a new class are the old ones and the lines of the new ones. -/
theorem extend_members {n : Nat} {c k : Klass} {ms : List Mx} (h : extend n c ms = .ok k) (x : Mx) :
    x ∈ k.chain ↔ x ∈ c.chain ∨ ∃ m ∈ ms, x ∈ lineage m := by
  obtain ⟨t, u, e1, e2, n1, n2, s1, s2, s3, m1, m2⟩ := extend_parts h
  rw [mem_chain, mem_chain, e1]
  constructor
  · intro hx
    rcases List.mem_cons.1 hx with e | hx
    · cases e
    · exact (m1 _ hx).imp id (fun ⟨m, hm, hx⟩ => ⟨m, hm, mem_line hx⟩)
  · rintro (hx | ⟨m, hm, hx⟩)
    · exact List.mem_cons_of_mem _ (s1.subset hx)
    · exact List.mem_cons_of_mem _ ((s3 m hm).1.subset (List.mem_append_left _ (List.mem_map_of_mem hx)))

theorem line_suffix {m y : Mx} (h : y ∈ lineage m) :
    ((lineage y).map Cls.mx ++ mroEnd).Sublist ((lineage m).map Cls.mx ++ mroEnd) ∧
    ((lineage y).flatMap cbOfMx ++ cbEnd).Sublist ((lineage m).flatMap cbOfMx ++ cbEnd) :=
  ⟨((lineage_of_mem h).sublist.map _).append (List.Sublist.refl _),
   ((lineage_of_mem h).sublist.flatMap _).append (List.Sublist.refl _)⟩

theorem extend_full {n : Nat} {c k : Klass} {ms : List Mx} (h : extend n c ms = .ok k) (hc : c.Full) : k.Full := by
  have hmem := extend_members h
  obtain ⟨t, u, e1, e2, n1, n2, s1, s2, s3, m1, m2⟩ := extend_parts h
  have hcb : ∀ m, (CbCls.made (.mx m) ∈ k.cb ∨ CbCls.inner (.mx m) ∈ k.cb) → m ∈ k.chain := by
    intro m hm
    rw [hmem]
    have hm' : (CbCls.made (.mx m) ∈ u ∨ CbCls.inner (.mx m) ∈ u) := by
      rw [e2] at hm
      simpa using hm
    have : (CbCls.made (.mx m) ∈ c.cb ∨ CbCls.inner (.mx m) ∈ c.cb) ∨
        ∃ q ∈ ms, (CbCls.made (.mx m) ∈ (lineage q).flatMap cbOfMx ∨ CbCls.inner (.mx m) ∈ (lineage q).flatMap cbOfMx) := by
      rcases hm' with hx | hx
      · rcases m2 _ hx with h | ⟨q, hq, h⟩
        · exact .inl (.inl h)
        · refine .inr ⟨q, hq, .inl ?_⟩
          rcases List.mem_append.1 h with h | h
          · exact h
          · simp [cbEnd] at h
      · rcases m2 _ hx with h | ⟨q, hq, h⟩
        · exact .inl (.inr h)
        · refine .inr ⟨q, hq, .inr ?_⟩
          rcases List.mem_append.1 h with h | h
          · exact h
          · simp [cbEnd] at h
    rcases this with h | ⟨q, hq, h⟩
    · exact .inl (h.elim (hc.made m) (hc.inner m))
    · exact .inr ⟨q, hq, mem_lineage_flat (m := q) h⟩
  obtain ⟨h0, t0, u0, f1, f2, -, f3, f4⟩ := hc.first
  refine ⟨⟨_, _, _, e1, e2, .inr rfl, ?_, ?_⟩, ?_, fun m hm => hcb m (.inl hm), fun m hm => hcb m (.inr hm)⟩
  · exact (f3.trans (by rw [f1]; exact List.sublist_cons_self ..)).trans s1
  · exact (f4.trans (by rw [f2]; exact List.sublist_cons_self ..)).trans s2
  · intro m hm
    rw [e1, e2]
    rcases (hmem m).1 hm with hm | ⟨q, hq, hm⟩
    · exact ⟨((hc.lines m hm).1.trans s1).cons _, ((hc.lines m hm).2.trans s2).cons _⟩
    · exact ⟨((line_suffix hm).1.trans (s3 q hq).1).cons _, ((line_suffix hm).2.trans (s3 q hq).2).cons _⟩

/-- A class can be made if there is an order that has all the others in it. -/
theorem extend_total {n : Nat} {c : Klass} {ms : List Mx} {h : Cls} {t : List Cls} {u l : List CbCls} {l' : List Cls}
    (e1 : c.mro = h :: t) (e2 : c.cb = .made h :: u) (hl : l.Nodup) (hl' : l'.Nodup)
    (s1 : c.mro.Sublist l') (s2 : c.cb.Sublist l)
    (s3 : ∀ m ∈ ms, ((lineage m).map Cls.mx ++ mroEnd).Sublist l' ∧ ((lineage m).flatMap cbOfMx ++ cbEnd).Sublist l)
    (b1 : (h :: ms.map Cls.mx).Sublist l') (b2 : (.made h :: ms.map (fun m => CbCls.made (.mx m))).Sublist l) :
    ∃ k, extend n c ms = .ok k := by
  have x1 : (c :: ms.map fun m => (⟨(lineage m).map Cls.mx ++ mroEnd, (lineage m).flatMap cbOfMx ++ cbEnd⟩ : Klass)).filterMap
      (fun k => k.mro.head?) = h :: ms.map Cls.mx := by
    rw [List.filterMap_cons, e1, List.filterMap_map]
    show h :: _ = _
    congr 1
    clear e1 e2 s3 b1 b2 s1 s2
    induction ms with
    | nil => rfl
    | cons m ms ih => rw [List.filterMap_cons, ih]; rfl
  have x2 : (c :: ms.map fun m => (⟨(lineage m).map Cls.mx ++ mroEnd, (lineage m).flatMap cbOfMx ++ cbEnd⟩ : Klass)).filterMap
      (fun k => k.cb.head?) = .made h :: ms.map (fun m => CbCls.made (.mx m)) := by
    rw [List.filterMap_cons, e2, List.filterMap_map]
    show CbCls.made h :: _ = _
    congr 1
    clear x1 e1 e2 s3 b1 b2 s1 s2
    induction ms with
    | nil => rfl
    | cons m ms ih => rw [List.filterMap_cons, ih]; rfl
  unfold extend
  rw [mapM_ofMx_eq]
  show ∃ k, make _ _ _ = _
  unfold make
  obtain ⟨r1, h1⟩ := C3.linearize_total (c := Cls.dyn n) hl' (x1 ▸ b1) (mros := (c :: ms.map fun m =>
      (⟨(lineage m).map Cls.mx ++ mroEnd, (lineage m).flatMap cbOfMx ++ cbEnd⟩ : Klass)).map (·.mro)) (by
    intro s hs
    obtain ⟨b, hb, rfl⟩ := List.mem_map.1 hs
    rcases List.mem_cons.1 hb with rfl | hb
    · exact s1
    · obtain ⟨m, hm, rfl⟩ := List.mem_map.1 hb
      exact (s3 m hm).1)
  obtain ⟨r2, h2⟩ := C3.linearize_total (c := CbCls.made (.dyn n)) hl (x2 ▸ b2) (mros := (c :: ms.map fun m =>
      (⟨(lineage m).map Cls.mx ++ mroEnd, (lineage m).flatMap cbOfMx ++ cbEnd⟩ : Klass)).map (·.cb)) (by
    intro s hs
    obtain ⟨b, hb, rfl⟩ := List.mem_map.1 hs
    rcases List.mem_cons.1 hb with rfl | hb
    · exact s2
    · obtain ⟨m, hm, rfl⟩ := List.mem_map.1 hb
      exact (s3 m hm).2)
  refine ⟨⟨r1, r2⟩, ?_⟩
  dsimp only
  rw [h1]
  simp only [Bool.false_eq_true, if_false, List.nil_append]
  rw [h2]
  rfl

theorem extend_error {n : Nat} {c : Klass} {ms : List Mx} {x : Exc} (h : extend n c ms = .error x) : x = .typeError := by
  unfold extend at h
  rw [mapM_ofMx_eq] at h
  replace h : make _ _ _ = _ := h
  unfold make at h
  rcases bind_eq_error.1 h with h | ⟨_, _, h⟩
  · exact C3.linearize_error h
  · rcases bind_eq_error.1 h with h | ⟨_, _, h⟩
    · exact C3.linearize_error h
    · cases h

/-- The heads of control behaviours. -/
theorem made_sublist (ms : List Mx) : (ms.map (fun m => CbCls.made (.mx m))).Sublist (ms.flatMap cbOfMx) := by
  induction ms with
  | nil => exact .slnil
  | cons m ms ih =>
    rw [List.map_cons, List.flatMap_cons]
    unfold cbOfMx
    exact (ih.trans (List.sublist_append_right ..)).cons_cons _

/-- New behaviours in order can always be added. -/
theorem extend_new {n : Nat} {c : Klass} {ms : List Mx} (hc : c.Full) (hn : c.mro.Nodup) (hn' : c.cb.Nodup)
    (ho : DerivedFirst ms) (hnew : ∀ m ∈ ms, m ∉ c.chain) : ∃ k, extend n c ms = .ok k := by
  obtain ⟨h, t, u, e1, e2, hh, f1, f2⟩ := hc.first
  have hcl : ∀ a, decide (a ∈ c.chain) = true → ∀ b ∈ lineage a, decide (b ∈ c.chain) = true := by
    intro a ha b hb
    rw [decide_eq_true_eq] at ha ⊢
    exact (chain_sub_of (hc.lines a ha).1).subset hb
  have hht : h ∉ t := by rw [e1] at hn; exact (List.nodup_cons.1 hn).1
  have hhu : CbCls.made h ∉ u := by rw [e2] at hn'; exact (List.nodup_cons.1 hn').1
  have hne : ∀ m, h ≠ Cls.mx m := by rintro m rfl; rcases hh with hh | hh <;> cases hh
  have hne2 : h ≠ .baseMixin := by rintro rfl; rcases hh with hh | hh <;> cases hh
  -- the new behaviours, all before the old ones
  let N := (rowOrder ms).filter (fun x => !decide (x ∈ c.chain))
  have hN : N.Nodup := (lastOnly_nodup _).filter _
  have hNo : ∀ x ∈ N, x ∉ c.chain := fun x hx => by simpa using (List.mem_filter.1 hx).2
  have hms : ms.Sublist N := by
    have := (rowOrder_heads ho).filter (fun x => !decide (x ∈ c.chain))
    rwa [List.filter_eq_self.2 (fun m hm => by simpa using hnew m hm)] at this
  have htail : ∀ y, y ∈ c.chain → ((lineage y).map Cls.mx ++ mroEnd).Sublist t ∧
      ((lineage y).flatMap cbOfMx ++ cbEnd).Sublist u := by
    intro y hy
    obtain ⟨a, b⟩ := hc.lines y hy
    rw [e1] at a
    rw [e2] at b
    constructor
    · cases a with
      | cons _ a => exact a
      | cons_cons _ a => exact absurd rfl (hne y)
    · cases b with
      | cons _ b => exact b
      | cons_cons _ b => exact absurd rfl (hne y)
  refine extend_total (l' := h :: (N.map Cls.mx ++ t)) (l := .made h :: (N.flatMap cbOfMx ++ u)) e1 e2 ?_ ?_ ?_ ?_ ?_ ?_ ?_
  · rw [List.nodup_cons, List.mem_append, List.nodup_append]
    refine ⟨not_or.2 ⟨?_, hhu⟩, cbOf_nodup hN, (List.nodup_cons.1 (e2 ▸ hn')).2, ?_⟩
    · intro hm
      obtain ⟨x, -, hx⟩ := List.mem_flatMap.1 hm
      rcases mem_cbOfMx hx with e | e
      · injection e with e; exact hne x e
      · cases e
    · rintro a ha b hb rfl
      obtain ⟨x, hx, ha⟩ := List.mem_flatMap.1 ha
      refine hNo x hx ?_
      have : a ∈ c.cb := by rw [e2]; exact List.mem_cons_of_mem _ hb
      rcases mem_cbOfMx ha with rfl | rfl
      · exact hc.made x this
      · exact hc.inner x this
  · rw [List.nodup_cons, List.mem_append, List.nodup_append]
    refine ⟨not_or.2 ⟨?_, hht⟩, hN.map (fun a b e => by injection e), (List.nodup_cons.1 (e1 ▸ hn)).2, ?_⟩
    · intro hm
      obtain ⟨x, -, hx⟩ := List.mem_map.1 hm
      exact hne x hx.symm
    · rintro a ha b hb rfl
      obtain ⟨x, hx, rfl⟩ := List.mem_map.1 ha
      exact hNo x hx (mem_chain.2 (by rw [e1]; exact List.mem_cons_of_mem _ hb))
  · rw [e1]
    exact (List.sublist_append_right ..).cons_cons _
  · rw [e2]
    exact (List.sublist_append_right ..).cons_cons _
  · intro m hm
    obtain ⟨a, r, h1, h2, -, h3⟩ := lineage_split hcl m
    have ha : a.Sublist N := by rw [h2]; exact (rowOrder_lineage hm).filter _
    have hr : (r.map Cls.mx ++ mroEnd).Sublist t ∧ (r.flatMap cbOfMx ++ cbEnd).Sublist u := by
      rcases h3 with rfl | ⟨y, hy, rfl⟩
      · exact ⟨f1, f2⟩
      · exact htail y (of_decide_eq_true hy)
    rw [h1, List.map_append, List.flatMap_append, List.append_assoc, List.append_assoc]
    exact ⟨((ha.map _).append hr.1).cons _, ((ha.flatMap _).append hr.2).cons _⟩
  · exact ((hms.map _).trans (List.sublist_append_left ..)).cons_cons _
  · exact ((made_sublist ms).trans ((hms.flatMap _).trans (List.sublist_append_left ..))).cons_cons _

/-- A behaviour that the class has already changes nothing. -/
theorem Full.fits {c : Klass} {n : Nat} {m : Mx} (hc : c.Full) (hf : c.Fresh n) (hm : m ∈ c.chain) : c.Fits n [m] := by
  obtain ⟨h, t, u, e1, e2, hh, f1, f2⟩ := hc.first
  have hne : ∀ m, h ≠ Cls.mx m := by rintro m rfl; rcases hh with hh | hh <;> cases hh
  refine ⟨hf, ⟨h, t, e1, ?_⟩, ⟨_, u, e2, ?_⟩, ?_⟩
  · have := mem_chain.1 hm
    rw [e1] at this
    rcases List.mem_cons.1 this with e | this
    · exact absurd e.symm (hne m)
    · exact List.singleton_sublist.2 this
  · have : CbCls.made (.mx m) ∈ c.cb := (hc.lines m hm).2.subset
      (List.mem_append_left _ (List.mem_flatMap.2 ⟨m, lineage_self m, List.mem_cons_self ..⟩))
    rw [e2] at this
    rcases List.mem_cons.1 this with e | this
    · injection e with e; exact absurd e.symm (hne m)
    · exact List.singleton_sublist.2 this
  · intro x hx k hk
    rw [List.mem_singleton] at hx
    subst hx
    rw [ofMx_eq] at hk
    cases hk
    exact hc.lines _ hm

/-- When behaviours can be set. -/
theorem extend_orderly {n : Nat} {c k : Klass} {ms : List Mx} (h : extend n c ms = .ok k) (hc : c.Fresh n) : DerivedFirst ms := by
  have hf := extend_fits h hc
  obtain ⟨t, u, e1, e2, n1, n2, s1, s2, s3, -⟩ := extend_parts h
  obtain ⟨h', t', e3, hs⟩ := hf.heads
  rw [e1] at e3
  cases e3
  unfold DerivedFirst
  rw [List.pairwise_iff_forall_sublist]
  intro a b hab hmem
  have hb : b ∈ ms := hab.subset (by simp)
  have x1 : [Cls.mx a, Cls.mx b].Sublist t := (hab.map Cls.mx).trans hs
  have x2 : ((lineage b).map Cls.mx).Sublist t := (List.sublist_append_left ..).trans (s3 b hb).1
  by_cases hne : a = b
  · subst hne
    exact absurd (x1.nodup n1) (by simp)
  · have x3 : [b, a].Sublist (lineage b) := by
      obtain ⟨s, hs⟩ := lineage_head b
      rw [hs] at hmem ⊢
      rcases List.mem_cons.1 hmem with e | hmem
      · exact absurd e hne
      · exact (List.singleton_sublist.2 hmem).cons_cons _
    have x4 : [Cls.mx b, Cls.mx a].Sublist t := (x3.map Cls.mx).trans x2
    clear x2 x3 hs s3 hf s1 s2 e1
    induction t with
    | nil => cases x1
    | cons y t ih =>
      rw [List.nodup_cons] at n1
      cases x1 with
      | cons _ x1 =>
        cases x4 with
        | cons _ x4 => exact ih n1.2 x1 x4
        | cons_cons _ x4 => exact n1.1 (x1.subset (by simp))
      | cons_cons _ x1 =>
        cases x4 with
        | cons _ x4 => exact n1.1 (x4.subset (by simp))
        | cons_cons _ x4 => exact hne rfl

end Klass

theorem Entity.setName_full {env : Env} {custom : Option Custom} {e : Entity} {v : Val}
    (h : e.klass.Full) : (e.setName env custom v).2.klass.Full := by
  unfold setName
  split
  · split <;> exact h
  · split
    · split
      · exact h
      · split
        · exact h
        · split
          · exact h
          · dsimp only
            split
            · exact h
            · rename_i k hk
              exact Klass.extend_full hk h
    · exact h

theorem Reachable.full {env : Env} {w : World} (h : Reachable env w) (r : Ref) : (w.heap r).klass.Full := by
  refine h.entity (P := fun e => e.klass.Full) Klass.entity_full ?_ ?_ (fun _ _ h => h) (fun _ _ h => h) r
  · rintro env l e ⟨custom, kw, he⟩
    obtain ⟨-, -, name, position, number, e', -, -, -, hs, hf⟩ := Entity.new_ok.1 he
    obtain ⟨pos, dir, cb, a, -, -, -, -, rfl⟩ := Entity.finish_ok.1 hf
    have := Entity.setName_full (env := env) (custom := custom) (v := name)
      (e := Entity.raw0 l kw number) Klass.entity_full
    rw [hs] at this
    exact this
  · intro env e e' he heff
    cases heff with
    | rotate n a d =>
      obtain ⟨_, _, _, hf⟩ := Entity.rotate_frame e n a d
      rw [hf]
      exact he
    | setName c v => exact Entity.setName_full he
    | setPos p => exact he
    | setDir v d hd => exact he
    | setClass base ms k hb hk =>
      refine Klass.extend_full hk ?_
      rcases hb with rfl | rfl
      · exact he
      · exact Klass.entity_full
    | setNumber n => exact he
    | setOri v o h ht => exact he
    | setAttr k v => obtain ⟨_, hf⟩ := Entity.setAttr_frame env e k v; rw [hf]; exact he
    | setControl k v => obtain ⟨_, hf⟩ := Entity.setControl_frame env e k v; rw [hf]; exact he
    | newControl v => obtain ⟨_, hf⟩ := Entity.newControl_frame env e v; rw [hf]; exact he

/-- The behaviours of a class made from others. -/
theorem Klass.made_of {n : Nat} {c k : Klass} {ms : List Mx} (h : Klass.extend n c ms = .ok k) (hc : c.Fresh n) :
    k.chain.Nodup ∧ ms.Sublist k.chain ∧ (∀ m ∈ ms, (lineage m).Sublist k.chain) ∧ c.chain.Sublist k.chain := by
  refine ⟨(Klass.extend_chain h).1, ?_, fun m hm => ?_, (Klass.extend_chain h).2.1⟩
  · obtain ⟨_, t, e1, hs⟩ := (Klass.extend_fits h hc).heads
    refine Klass.chain_sub_of (e := []) ?_
    rw [List.append_nil, e1]
    exact hs.cons _
  · obtain ⟨t, u, e1, -, -, -, -, -, s3, -⟩ := Klass.extend_parts h
    refine Klass.chain_sub_of (e := mroEnd) ?_
    rw [e1]
    exact (s3 m hm).1.cons _

/-! ## The operations -/

theorem setEnt_setEnt (w : World) (r : Ref) (e e' : Entity) : (w.setEnt r e).setEnt r e' = w.setEnt r e' := by
  unfold World.setEnt
  congr 1
  funext s
  dsimp only
  split <;> rfl


theorem run_addMixins (r : Ref) (ms : List Mx) (w : World) :
    (Op.addMixins r ms).run w = (((w.heap r).addMixins ms).1, w.setEnt r ((w.heap r).addMixins ms).2) := by
  rw [Op.run.eq_def]
  rfl

theorem run_setMixins (r : Ref) (ms : List Mx) (w : World) :
    (Op.setMixins r ms).run w = (((w.heap r).setMixins ms).1, w.setEnt r ((w.heap r).setMixins ms).2) := by
  rw [Op.run.eq_def]
  rfl

theorem addMixins_of {w : World} {r : Ref} {ms : List Mx} {k : Klass}
    (h : Klass.extend (w.heap r).depth (w.heap r).klass ms = .ok k) : (Op.addMixins r ms).run w =
      (.ok (), w.setEnt r { w.heap r with klass := k, depth := (w.heap r).depth + 1 }) := by
  rw [run_addMixins]
  unfold Entity.addMixins
  rw [h]

theorem setMixins_of {w : World} {r : Ref} {ms : List Mx} {k : Klass}
    (h : Klass.extend (w.heap r).depth Klass.entity ms = .ok k) : (Op.setMixins r ms).run w =
      (.ok (), w.setEnt r { w.heap r with klass := k, depth := (w.heap r).depth + 1 }) := by
  rw [run_setMixins]
  unfold Entity.setMixins
  rw [h]

theorem addMixins_ok {w w' : World} {r : Ref} {ms : List Mx} (h : (Op.addMixins r ms).run w = (.ok (), w')) :
    ∃ k, Klass.extend (w.heap r).depth (w.heap r).klass ms = .ok k ∧
      w' = w.setEnt r { w.heap r with klass := k, depth := (w.heap r).depth + 1 } := by
  cases hk : Klass.extend (w.heap r).depth (w.heap r).klass ms with
  | error x =>
    rw [run_addMixins] at h
    unfold Entity.addMixins at h
    rw [hk] at h
    cases h
  | ok k =>
    rw [addMixins_of hk] at h
    cases h
    exact ⟨k, rfl, rfl⟩

theorem setMixins_ok {w w' : World} {r : Ref} {ms : List Mx} (h : (Op.setMixins r ms).run w = (.ok (), w')) :
    ∃ k, Klass.extend (w.heap r).depth Klass.entity ms = .ok k ∧
      w' = w.setEnt r { w.heap r with klass := k, depth := (w.heap r).depth + 1 } := by
  cases hk : Klass.extend (w.heap r).depth Klass.entity ms with
  | error x =>
    rw [run_setMixins] at h
    unfold Entity.setMixins at h
    rw [hk] at h
    cases h
  | ok k =>
    rw [setMixins_of hk] at h
    cases h
    exact ⟨k, rfl, rfl⟩

theorem onlyClass_setEnt (w : World) (r : Ref) (k : Klass) (n : Nat) :
    OnlyClass w (w.setEnt r { w.heap r with klass := k, depth := n }) r := by
  refine ⟨⟨rfl, rfl, rfl, fun s hs => ?_⟩, ?_⟩
  · rw [setEnt_heap, if_neg hs]
  · rw [setEnt_heap, if_pos rfl]

/-! ## Exports -/

theorem Klass.nrConnections_eq {k k' : Klass} (h : (.Combinator : Mx) ∈ k'.chain ↔ (.Combinator : Mx) ∈ k.chain) :
    k'.nrConnections = k.nrConnections := by
  have : k'.has .Combinator = k.has .Combinator := by
    unfold Klass.has
    rw [Bool.eq_iff_iff, List.contains_iff_mem, List.contains_iff_mem, ← mem_chain, ← mem_chain, h]
  unfold Klass.nrConnections
  rw [this]

/-- The wires of an entity are exported the same if numbers and kinds of connectors are the same. -/
theorem connections_same {w w' : World} (hbp : w'.bp = w.bp) (hauto : ∀ s, (w'.heap s).auto = (w.heap s).auto)
    (hnr : ∀ s, (w'.heap s).klass.nrConnections = (w.heap s).klass.nrConnections) {r : Ref}
    (hlayer : (w'.heap r).layer = (w.heap r).layer) : (connectionsToJson r w').1 = (connectionsToJson r w).1 := by
  have hother : otherAuto w'.heap = otherAuto w.heap := by
    funext c
    unfold otherAuto
    cases c.toE with
    | none => rfl
    | some t => simp only [hauto]
  have hstep : wireStep w'.heap r = wireStep w.heap r := by
    funext o c
    unfold wireStep wireRef
    cases c.toE with
    | none => rfl
    | some t => simp only [hauto, hnr]
  have hg : (getConnections r w').1 = (getConnections r w).1 ∧
      (getConnections r w').2.heap = w'.heap ∧ (getConnections r w).2.heap = w.heap := by
    unfold getConnections
    rw [hlayer, hbp]
    cases (w.heap r).layer with
    | none => exact ⟨rfl, rfl, rfl⟩
    | some b =>
      dsimp only
      rw [show (w'.setBp b { w.bp b with conns := (w.bp b).conns.map (fun c => if c.attachedTo r then c.orientate r else c) }).heap = w'.heap from rfl,
        show (w.setBp b { w.bp b with conns := (w.bp b).conns.map (fun c => if c.attachedTo r then c.orientate r else c) }).heap = w.heap from rfl,
        hother]
      cases List.mapM (fun c => do return ((← otherAuto w.heap c), c)) (((w.bp b).conns.filter (·.attachedTo r)).map (·.orientate r)) with
      | error e => exact ⟨rfl, rfl, rfl⟩
      | ok keyed => dsimp only; split <;> exact ⟨rfl, rfl, rfl⟩
  unfold connectionsToJson
  rw [M.bind_eq, M.bind_eq]
  obtain ⟨h1, h2, h3⟩ := hg
  revert h1 h2 h3
  cases getConnections r w' with
  | mk x v' =>
    cases getConnections r w with
    | mk y v =>
      intro h1 h2 h3
      dsimp only at h1 h2 h3
      subst h1
      cases x with
      | error e => rfl
      | ok cs =>
        dsimp only
        rw [M.bind_get, M.bind_get, h2, h3, hstep]
        rfl

/-- An export is the wires and the rest. -/
theorem entToJson_fst (r : Ref) (w : World) : (entToJson r w).1 = match (connectionsToJson r w).1 with
    | .error x => .error x
    | .ok o => match (w.heap r).emitRest w.env (baseObj (w.heap r) (if o.isEmpty then none else some (wireJson o))) with
      | .error x => .error x
      | .ok d => .ok (.dict d) := by
  unfold entToJson
  rw [M.bind_get, M.bind_eq]
  cases connectionsToJson r w with
  | mk x v =>
    cases x with
    | error e => rfl
    | ok o =>
      dsimp only
      rw [M.bind_eq, M.lift_eq]
      have e : (if o.isEmpty = true then
          [("entity_number", autoVal (w.heap r).auto), ("name", Val.str (w.heap r).name), ("position", (w.heap r).pos.toJson)]
        else [("entity_number", autoVal (w.heap r).auto), ("name", Val.str (w.heap r).name), ("position", (w.heap r).pos.toJson)]
          ++ [("connections", wireJson o)]) = baseObj (w.heap r) (if o.isEmpty then none else some (wireJson o)) := by
        unfold baseObj
        split <;> simp
      rw [e]
      cases (w.heap r).emitRest w.env _ <;> rfl

theorem emitChain_all {env : Env} {dir : Direction} {ms : List Mx} {a : Kw} (h : ∀ m ∈ ms, ∃ out, mxEmit env m a dir = .ok out)
    (obj : Dict) : ∃ o, emitChain env dir ms a obj = .ok o := by
  induction ms generalizing obj with
  | nil => exact ⟨obj, rfl⟩
  | cons m ms ih =>
    obtain ⟨out, ho⟩ := h m (List.mem_cons_self ..)
    unfold emitChain
    rw [ho]
    exact ih (fun m' hm => h m' (List.mem_cons_of_mem _ hm)) _

theorem emitChain_mem {env : Env} {dir : Direction} {ms : List Mx} {a : Kw} {obj o : Dict}
    (h : emitChain env dir ms a obj = .ok o) : ∀ m ∈ ms, ∃ out, mxEmit env m a dir = .ok out := by
  induction ms generalizing obj with
  | nil => intro m hm; cases hm
  | cons m ms ih =>
    unfold emitChain at h
    split at h
    · cases h
    · rename_i out ho
      intro m' hm
      rcases List.mem_cons.1 hm with rfl | hm
      · exact ⟨out, ho⟩
      · exact ih h m' hm

/-- If one behaviour cannot be exported, the entity cannot. -/
theorem emitChain_one {env : Env} {dir : Direction} {ms : List Mx} {a : Kw} {m : Mx} {x : Exc}
    (h : ∀ m' ∈ ms, m' = m ∨ ∃ out, mxEmit env m' a dir = .ok out) (hm : m ∈ ms) (hx : mxEmit env m a dir = .error x)
    (obj : Dict) : emitChain env dir ms a obj = .error x := by
  induction ms generalizing obj with
  | nil => cases hm
  | cons m' ms ih =>
    unfold emitChain
    rcases h m' (List.mem_cons_self ..) with rfl | ⟨out, ho⟩
    · rw [hx]
    · rw [ho]
      rcases List.mem_cons.1 hm with rfl | hm
      · rw [hx] at ho; cases ho
      · exact ih (fun q hq => h q (List.mem_cons_of_mem _ hq)) hm _

theorem filter_of_sublist {α : Type} [DecidableEq α] {l l' : List α} (h : l.Sublist l') (hn : l'.Nodup) :
    l'.filter (· ∈ l) = l := by
  induction h with
  | slnil => rfl
  | @cons l l' a hs ih =>
    rw [List.nodup_cons] at hn
    rw [List.filter_cons_of_neg (by simpa using fun h => hn.1 (hs.subset h))]
    exact ih hn.2
  | @cons_cons l l' a hs ih =>
    rw [List.nodup_cons] at hn
    rw [List.filter_cons_of_pos (by simp)]
    congr 1
    conv_rhs => rw [← ih hn.2]
    refine List.filter_congr fun x hx => ?_
    have : x ≠ a := by rintro rfl; exact hn.1 hx
    simp [this]

theorem find_of_sublist {α : Type} [DecidableEq α] {l l' : List α} (h : l.Sublist l') (hn : l'.Nodup) {p : α → Bool}
    (hp : ∀ x ∈ l', x ∉ l → p x = false) : l'.find? p = l.find? p := by
  conv_rhs => rw [← filter_of_sublist h hn]
  rw [List.find?_filter]
  clear h hn
  induction l' with
  | nil => rfl
  | cons a l' ih =>
    rw [List.find?_cons, List.find?_cons, ih (fun x hx => hp x (List.mem_cons_of_mem _ hx))]
    have : p a = decide (decide (a ∈ l) = true ∧ p a = true) := by
      by_cases ha : a ∈ l
      · simp [ha]
      · rw [hp a (List.mem_cons_self ..) ha]; simp
    rw [← this]

/-- What `self.__entity.OPERATOR` is does not depend on behaviours that do not have it. -/
theorem seenBy_of {k k' : Klass} (h : k.chain.Sublist k'.chain) (hn : k'.chain.Nodup)
    (hp : ∀ x ∈ k'.chain, x ∉ k.chain → x ≠ .Arithmetic ∧ x ≠ .Decider ∧ x ≠ .Combinator) (c : Cb) :
    c.seenBy k' = c.seenBy k := by
  have : k'.first (fun m => m = .Arithmetic || m = .Decider || m = .Combinator) =
      k.first (fun m => m = .Arithmetic || m = .Decider || m = .Combinator) :=
    find_of_sublist h hn (fun x hx hx' => by simp [hp x hx hx'])
  unfold Cb.seenBy Klass.ctx
  rw [this]

/-- An entity with another class and other attributes. -/
def Entity.given (e : Entity) (K : Klass) (a : Attrs) : Entity := { e with klass := K, depth := e.depth + 1, attrs := a }

theorem emitKeys_control (m : Mx) : "control_behavior" ∉ emitKeys m := by cases m <;> decide

theorem given_error {env : Env} {e : Entity} {K : Klass} {m : Mx} {obj d : Dict} {x : Exc} (he : e.emitRest env obj = .ok d)
    (hmem : ∀ q, q ∈ K.chain ↔ q ∈ e.klass.chain ∨ q = m) (hx : mxEmit env m (Dict.get? e.attrs) e.dir = .error x)
    (obj' : Dict) : (e.given K e.attrs).emitRest env obj' = .error x := by
  obtain ⟨o1, g1, -⟩ := emitRest_ok.1 he
  have hall := emitChain_mem g1
  have := emitChain_one (ms := K.chain) (a := Dict.get? e.attrs) (dir := e.dir)
    (fun q hq => ((hmem q).1 hq).elim (fun h => .inr (hall q h)) .inl) ((hmem m).2 (.inr rfl)) hx obj'
  unfold Entity.emitRest Entity.given
  dsimp only
  rw [this]
  rfl

theorem given_ok {env : Env} {e : Entity} {K : Klass} {m : Mx} {k : String} {v : Val} {c : Option Val} {d : Dict} {a : Attrs}
    (hok : e.klass.Ok) (hKok : K.Ok) (he : e.emitRest env (baseObj e c) = .ok d)
    (hmem : ∀ q, q ∈ K.chain ↔ q ∈ e.klass.chain ∨ q = m) (hm : m ∉ e.klass.chain)
    (hseen : ∀ c : Cb, c.seenBy K = c.seenBy e.klass)
    (hkeys : emitKeys m = [k]) (howner : ∀ q, k ∈ mxAttrs q → q = m) (hkc : k ≠ "control_behavior")
    (ha : ∀ k', k' ≠ k → Dict.get? a k' = Dict.get? e.attrs k') (hx : mxEmit env m (Dict.get? a) e.dir = .ok [(k, v)]) :
    ∃ d', (e.given K a).emitRest env (baseObj (e.given K a) c) = .ok d' ∧ List.lookup k d' = some v ∧
      ∀ k', k' ≠ k → List.lookup k' d' = List.lookup k' d := by
  obtain ⟨o1, g1, g2⟩ := emitRest_ok.1 he
  have hall := emitChain_mem g1
  have hsame : ∀ q ∈ e.klass.chain, mxEmit env q (Dict.get? a) e.dir = mxEmit env q (Dict.get? e.attrs) e.dir := by
    intro q hq
    by_cases hqr : q = .Rotatable
    · subst hqr; rfl
    · exact mxEmit_congr hqr (fun k' hk' => ha k' (fun e => hm ((howner q (e ▸ hk')) ▸ hq)))
  obtain ⟨o2, f1⟩ := emitChain_all (env := env) (dir := e.dir) (ms := K.chain) (a := Dict.get? a) (by
    intro q hq
    rcases (hmem q).1 hq with h | rfl
    · rw [hsame q h]; exact hall q h
    · exact ⟨_, hx⟩) (baseObj (e.given K a) c)
  have hex : ∃ d', (e.given K a).emitRest env (baseObj (e.given K a) c) = .ok d' ∧
      List.lookup "control_behavior" d' = List.lookup "control_behavior" d := by
    have l1 : List.lookup "control_behavior" o1 = List.lookup "control_behavior" o2 := by
      rw [emitChain_lookup g1 (fun m _ => emitKeys_control m), emitChain_lookup f1 (fun m _ => emitKeys_control m)]
      rfl
    rcases g2 with ⟨h1, rfl⟩ | ⟨cb, dd, h1, h2, rfl⟩
    · exact ⟨o2, emitRest_ok.2 ⟨o2, f1, .inl ⟨h1, rfl⟩⟩, l1.symm⟩
    · refine ⟨_, emitRest_ok.2 ⟨o2, f1, .inr ⟨cb, dd, h1, ?_, rfl⟩⟩, ?_⟩
      · show cbEmitChain env (cb.seenBy K).ctx _ _ _ = _
        rw [hseen]
        exact h2
      · split
        · exact l1.symm
        · rw [lookup_set, lookup_set, if_pos rfl, if_pos rfl]
  obtain ⟨d', hd', hctl⟩ := hex
  have hm' : m ∈ (e.given K a).klass.chain := (hmem m).2 (.inr rfl)
  refine ⟨d', hd', ?_, fun k' hk' => ?_⟩
  · obtain ⟨out, h1, h2⟩ := emitRest_owned (e := e.given K a) hKok hd' hm'
    replace h1 : mxEmit env m (Dict.get? a) e.dir = .ok out := h1
    rw [hx] at h1
    cases h1
    rw [h2 k (by rw [hkeys]; simp) hkc]
    simp
  · by_cases hc : k' = "control_behavior"
    · rw [hc, hctl]
    · by_cases hq : ∃ q ∈ e.klass.chain, k' ∈ emitKeys q
      · obtain ⟨q, hq, hk⟩ := hq
        obtain ⟨out, h1, h2⟩ := emitRest_owned (e := e.given K a) hKok hd' ((hmem q).2 (.inl hq))
        obtain ⟨out', h3, h4⟩ := emitRest_owned hok he hq
        replace h1 : mxEmit env q (Dict.get? a) e.dir = .ok out := h1
        rw [hsame q hq, h3] at h1
        cases h1
        rw [h2 k' hk hc, h4 k' hk hc]
      · rw [emitRest_foreign hd' (fun q hq' hk => ?_) hc, emitRest_foreign he (fun q hq' hk => hq ⟨q, hq', hk⟩) hc]
        · rfl
        · rcases (hmem q).1 hq' with h | rfl
          · exact hq ⟨q, h, hk⟩
          · rw [hkeys, List.mem_singleton] at hk
            exact hk' hk

theorem connections_given {w : World} {r : Ref} {K : Klass} {a : Attrs}
    (hnr : K.nrConnections = (w.heap r).klass.nrConnections) :
    (connectionsToJson r (w.setEnt r ((w.heap r).given K a))).1 = (connectionsToJson r w).1 := by
  refine connections_same (w := w) (w' := w.setEnt r ((w.heap r).given K a)) rfl ?_ ?_ ?_
  · intro s
    rw [setEnt_heap]
    split
    · rename_i hq; subst hq; rfl
    · rfl
  · intro s
    rw [setEnt_heap]
    split
    · rename_i hq; subst hq; exact hnr
    · rfl
  · rw [setEnt_heap, if_pos rfl]
    rfl

/-- Without `OPERATOR` the control behaviour of a combinator is never written. -/
theorem cbEmit_orphan {env : Env} {ctx : CbCtx} {ms : List Mx} {a : Kw} {obj d : Dict} (hno : ctx.noOperator = true)
    (hm : .Combinator ∈ ms) (h : cbEmitChain env ctx ms a obj = .ok d) : False := by
  induction ms generalizing obj with
  | nil => cases hm
  | cons m ms ih =>
    unfold cbEmitChain at h
    split at h
    · cases h
    · rename_i o ho
      rcases List.mem_cons.1 hm with rfl | hm
      · unfold cbEmit1 combinatorEmit operatorRead at ho
        dsimp only at ho
        obtain ⟨op, h1, -⟩ := bind_eq_ok.1 ho
        split at h1
        · cases h1
        · rw [if_pos hno] at h1
          cases h1
      · exact ih hm h

end Verif
