import Verif.Spec.Tables
import Verif.Proofs.World
import Verif.Proofs.Dict
import Verif.Proofs.Order
import Mathlib.Data.List.Induction
import Verif.Props.Sample
/-!
# Property C37: prototype data
-/
set_option autoImplicit false

namespace Verif
open Spec

/-- Everything but one table is as before. -/
def SameExcept (t : Table) (w w' : World) : Prop :=
  (∀ u, u ≠ t → w'.env.table u = w.env.table u) ∧ w'.env.defaults = w.env.defaults ∧ w'.heap = w.heap ∧
    w'.next = w.next ∧ w'.bp = w.bp

/-- Setting prototype data replaces the table and nothing else. -/
theorem C37_replace (t : Table) (d : Dict) (w : World) : ∃ w', setProtos t d false w = (.ok (), w') ∧
    w'.env.table t = d ∧ SameExcept t w w' := by
  refine ⟨_, rfl, ?_, ?_, ?_, rfl, rfl, rfl⟩
  · cases t <;> rfl
  · intro u hu
    cases t <;> cases u <;> first | rfl | exact absurd rfl hu
  · cases t <;> rfl

/-- With `append`, names in the new data win, the others keep their entry. -/
theorem C37_append (t : Table) (d : Dict) (hd : (d.map (·.1)).Nodup) (w : World) :
    ∃ w', setProtos t d true w = (.ok (), w') ∧ SameExcept t w w' ∧
      (∀ k v, List.lookup k d = some v → List.lookup k (w'.env.table t) = some v) ∧
      ∀ k, List.lookup k d = none → List.lookup k (w'.env.table t) = List.lookup k (w.env.table t) := by
  refine ⟨_, rfl, ⟨?_, ?_, rfl, rfl, rfl⟩, ?_, ?_⟩
  · intro u hu
    cases t <;> cases u <;> first | rfl | exact absurd rfl hu
  · cases t <;> rfl
  · intro k v hv
    rw [show Env.table _ t = setAll (w.env.table t) d by cases t <;> rfl, lookup_setAll hd, hv]
  · intro k hk
    rw [show Env.table _ t = setAll (w.env.table t) d by cases t <;> rfl, lookup_setAll hd, hk]

/-- Any sequence of updates of the five tables: an entry of a table is the one of the latest update of that
table that mentions it, unless a replacement came after; updates of other tables do not matter. -/
theorem C37_sequence (us : List (Table × Dict × Bool)) (hus : ∀ u ∈ us, (u.2.1.map (·.1)).Nodup) (w : World)
    (t : Table) (k : String) :
    List.lookup k ((us.foldl (fun w u => (setProtos u.1 u.2.1 u.2.2 w).2) w).env.table t) =
      finalEntry k (List.lookup k (w.env.table t)) ((us.filter (·.1 = t)).map (·.2)).reverse := by
  induction us using List.reverseRecOn with
  | nil => rfl
  | append_singleton us u ih =>
    obtain ⟨t', d, a⟩ := u
    have ih := ih (fun u hu => hus u (List.mem_append_left _ hu))
    have hd : (d.map (·.1)).Nodup := hus (t', d, a) (List.mem_append_right _ (List.mem_singleton.2 rfl))
    rw [List.foldl_append, List.filter_append, List.map_append, List.reverse_append]
    generalize List.foldl _ w us = v at ih ⊢
    simp only [List.foldl_cons, List.foldl_nil]
    by_cases e : t' = t
    · subst e
      simp only [List.filter_cons, List.filter_nil, decide_true, if_true, List.map_cons, List.map_nil,
        List.reverse_cons, List.reverse_nil, List.nil_append, List.cons_append, finalEntry]
      cases a with
      | false =>
        obtain ⟨w', hw, ht, -⟩ := C37_replace t' d v
        rw [hw, ht]
        cases List.lookup k d <;> rfl
      | true =>
        obtain ⟨w', hw, -, h1, h2⟩ := C37_append t' d hd v
        rw [hw]
        cases hk : List.lookup k d with
        | some x => exact h1 k x hk
        | none => rw [h2 k hk, ih]; rfl
    · simp only [List.filter_cons, List.filter_nil, e, decide_false, Bool.false_eq_true, if_false, List.map_nil,
        List.reverse_nil, List.nil_append]
      rw [← ih]
      cases a with
      | false =>
        obtain ⟨w', hw, -, h, -⟩ := C37_replace t' d v
        rw [hw, h t (Ne.symm e)]
      | true =>
        obtain ⟨w', hw, ⟨h, -⟩, -⟩ := C37_append t' d hd v
        rw [hw, h t (Ne.symm e)]

example : ((([("x", .int 1), ("y", .int 2)] : Dict)).map (·.1)).Nodup := by decide

/-- `import_prototype_data` with a file that has all five tables updates all five. -/
theorem C37_import (data : Dict) (append : Bool) (tab : Table → Dict)
    (h : ∀ t, List.lookup (fileKey t) data = some (.dict (tab t))) (w : World) :
    ∃ w', importProtos (.dict data) append w = (.ok (), w') ∧ w'.heap = w.heap ∧ w'.next = w.next ∧
      w'.bp = w.bp ∧ ∀ t, w'.env.table t = if append then setAll (w.env.table t) (tab t) else tab t := by
  have hs : ∀ (t : Table) v, importTable (.dict data) append (fileKey t) t v = setProtos t (tab t) append v := by
    intro t v
    have : (Val.dict data).subscript (fileKey t) = .ok (.dict (tab t)) := by
      show Dict.getItem data (fileKey t) = _
      exact (lookup_getItem ..).2 (h t)
    unfold importTable
    rw [this]
    rfl
  have e1 := hs .entity; have e2 := hs .recipe; have e3 := hs .item; have e4 := hs .signal; have e5 := hs .tile
  simp only [fileKey] at e1 e2 e3 e4 e5
  unfold importProtos
  simp only [M.bind_eq, e1, e2, e3, e4, e5, setProtos, M.modify_eq]
  refine ⟨_, rfl, rfl, rfl, rfl, fun t => ?_⟩
  cases t <;> rfl

/-- If the first table is missing, nothing is updated. Missing for the full claim ("all five or none"): files
in which a later table is missing; for these the claim is false (`C37_import_false`). -/
theorem C37_import_none_partial (data : Dict) (append : Bool) (h : List.lookup "entity" data = none) (w : World) :
    importProtos (.dict data) append w = (.error .keyError, w) := by
  have : (Val.dict data).subscript "entity" = .error .keyError := by
    show Dict.getItem data "entity" = _
    unfold Dict.getItem Dict.get?
    rw [h]
  unfold importProtos
  rw [M.bind_eq]
  unfold importTable
  rw [this]
  rfl

/-- A file without recipes: the call raises `KeyError` after the entity table was replaced. -/
theorem C37_import_false (data d : Dict) (append : Bool) (he : List.lookup "entity" data = some (.dict d))
    (hr : List.lookup "recipe" data = none) (w : World) : ∃ w',
    importProtos (.dict data) append w = (.error .keyError, w') ∧
      w'.env.table .entity = (if append then setAll (w.env.table .entity) d else d) ∧
      ∀ t, t ≠ .entity → w'.env.table t = w.env.table t := by
  have h1 : (Val.dict data).subscript "entity" = .ok (.dict d) := (lookup_getItem ..).2 he
  have h2 : (Val.dict data).subscript "recipe" = .error .keyError := by
    show Dict.getItem data "recipe" = _
    unfold Dict.getItem Dict.get?
    rw [hr]
  have e1 : ∀ v, importTable (.dict data) append "entity" .entity v = setProtos .entity d append v := by
    intro v
    unfold importTable
    rw [h1]
    rfl
  have e2 : ∀ v, importTable (.dict data) append "recipe" .recipe v = (.error .keyError, v) := by
    intro v
    unfold importTable
    rw [h2]
    rfl
  unfold importProtos
  simp only [M.bind_eq, e1, e2, setProtos, M.modify_eq]
  refine ⟨_, rfl, rfl, fun t ht => ?_⟩
  cases t <;> first | rfl | exact absurd rfl ht

/-- In general: if `t` is the first table that is missing, the call raises `KeyError`, the tables before it are updated,
and it and those after it are not. -/
theorem C37_import_missing (data : Dict) (append : Bool) (tab : Table → Dict) (t : Table)
    (ht : List.lookup (fileKey t) data = none)
    (h : ∀ u, fileRank u < fileRank t → List.lookup (fileKey u) data = some (.dict (tab u))) (w : World) :
    ∃ w', importProtos (.dict data) append w = (.error .keyError, w') ∧ w'.heap = w.heap ∧ w'.next = w.next ∧
      w'.bp = w.bp ∧ ∀ u, w'.env.table u = if fileRank u < fileRank t then
        (if append then setAll (w.env.table u) (tab u) else tab u) else w.env.table u := by
  have hs : ∀ (u : Table), fileRank u < fileRank t → ∀ v,
      importTable (.dict data) append (fileKey u) u v = setProtos u (tab u) append v := by
    intro u hu v
    have : (Val.dict data).subscript (fileKey u) = .ok (.dict (tab u)) := (lookup_getItem ..).2 (h u hu)
    unfold importTable
    rw [this]
    rfl
  have hm : ∀ v, importTable (.dict data) append (fileKey t) t v = (.error .keyError, v) := by
    intro v
    have : (Val.dict data).subscript (fileKey t) = .error .keyError := by
      show Dict.getItem data (fileKey t) = _
      unfold Dict.getItem Dict.get?
      rw [ht]
    unfold importTable
    rw [this]
    rfl
  have e1 := hs .entity; have e2 := hs .recipe; have e3 := hs .item; have e4 := hs .signal; have e5 := hs .tile
  unfold importProtos
  cases t <;> simp only [fileKey, fileRank, Nat.reduceLT, forall_const, Nat.lt_irrefl] at hm e1 e2 e3 e4 e5 <;>
    simp only [M.bind_eq, hm, e1, e2, e3, e4, e5, setProtos, M.modify_eq] <;>
    refine ⟨_, rfl, rfl, rfl, rfl, fun u => ?_⟩ <;> cases u <;> rfl

/-- The same with `append`, if the entry of `t` is there and is not a dict: `TypeError`. -/
theorem C37_import_malformed (data : Dict) (tab : Table → Dict) (t : Table) (x : Val) (hx : ∀ d, x ≠ .dict d)
    (ht : List.lookup (fileKey t) data = some x)
    (h : ∀ u, fileRank u < fileRank t → List.lookup (fileKey u) data = some (.dict (tab u))) (w : World) :
    ∃ w', importProtos (.dict data) true w = (.error .typeError, w') ∧ w'.heap = w.heap ∧ w'.next = w.next ∧
      w'.bp = w.bp ∧ ∀ u, w'.env.table u = if fileRank u < fileRank t then setAll (w.env.table u) (tab u)
        else w.env.table u := by
  have hs : ∀ (u : Table), fileRank u < fileRank t → ∀ v,
      importTable (.dict data) true (fileKey u) u v = setProtos u (tab u) true v := by
    intro u hu v
    have : (Val.dict data).subscript (fileKey u) = .ok (.dict (tab u)) := (lookup_getItem ..).2 (h u hu)
    unfold importTable
    rw [this]
    rfl
  have hm : ∀ v, importTable (.dict data) true (fileKey t) t v = (.error .typeError, v) := by
    intro v
    have : (Val.dict data).subscript (fileKey t) = .ok x := (lookup_getItem ..).2 ht
    unfold importTable
    rw [this]
    cases x <;> first | rfl | exact absurd rfl (hx _)
  have e1 := hs .entity; have e2 := hs .recipe; have e3 := hs .item; have e4 := hs .signal; have e5 := hs .tile
  unfold importProtos
  cases t <;> simp only [fileKey, fileRank, Nat.reduceLT, forall_const, Nat.lt_irrefl] at hm e1 e2 e3 e4 e5 <;>
    simp only [M.bind_eq, hm, e1, e2, e3, e4, e5, setProtos, M.modify_eq] <;>
    refine ⟨_, rfl, rfl, rfl, rfl, fun u => ?_⟩ <;> cases u <;> rfl

example : ∃ (data : Dict) (tab : Table → Dict) (x : Val), (∀ d, x ≠ .dict d) ∧
    List.lookup (fileKey .recipe) data = some x ∧
    ∀ u, fileRank u < fileRank .recipe → List.lookup (fileKey u) data = some (.dict (tab u)) :=
  ⟨[("recipe", .list []), ("entity", .dict [])], fun _ => [], .list [], (fun _ h => by cases h), rfl,
    fun u => by cases u <;> decide⟩

example : ∃ (data : Dict) (tab : Table → Dict), List.lookup (fileKey .item) data = none ∧
    ∀ u, fileRank u < fileRank .item → List.lookup (fileKey u) data = some (.dict (tab u)) :=
  ⟨[("tile", .dict []), ("recipe", .dict []), ("entity", .dict [])], fun _ => [], rfl, fun u => by cases u <;> decide⟩

example : ∃ data : Dict, ∃ d, List.lookup "entity" data = some (.dict d) ∧ List.lookup "recipe" data = none ∧
    d ≠ Sample.env.entities := ⟨[("entity", .dict [])], [], rfl, rfl, by decide +kernel⟩

example : ∃ data : Dict, ∀ t, List.lookup (fileKey t) data = some (.dict []) :=
  ⟨[("entity", .dict []), ("recipe", .dict []), ("item", .dict []), ("signal", .dict []), ("tile", .dict [])],
    fun t => by cases t <;> rfl⟩

end Verif
