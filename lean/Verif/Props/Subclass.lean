import Verif.Spec.Subclass
import Verif.Spec.Tables
import Verif.Proofs.Dict
import Verif.Proofs.Order
import Verif.Props.Sample
/-!
# C78: prototype data of classes derived from `Blueprint`
-/
set_option autoImplicit false

namespace Verif
open Spec

private theorem importRest_world (mro : Nat → List Nat) (c : Nat) (data : Val) (append : Bool) :
    ∀ (l : List (String × Table)) (s : Family), (Family.importRest mro c data append l s).2.world = s.world
  | [], _ => rfl
  | (key, t) :: l, s => by
    unfold Family.importRest Family.importTableOn
    rcases data.subscript key with x | v
    · rfl
    · cases v <;> first | rfl | exact importRest_world mro c data append l _

private theorem run_world (mro : Nat → List Nat) (a : Act) (s : Family) (h : ∀ op, a ≠ .call op) :
    (a.run mro s).2.world = s.world := by
  cases a with
  | call op => exact absurd rfl (h op)
  | setOn c t data append => rfl
  | importOn c data append => exact importRest_world ..

/-- Setting or importing prototype data on a derived class has no effect on what the library does: each call of any
history has the outcome, and the objects end up in the state, as if these calls had not been made. -/
theorem C78_unread (mro : Nat → List Nat) : ∀ (l : List Act) (s : Family),
    libraryOutcomes l (Act.history mro l s).1 = (calls (libraryCalls l) s.world).1 ∧
    (Act.history mro l s).2.world = (calls (libraryCalls l) s.world).2
  | [], _ => ⟨rfl, rfl⟩
  | a :: l, s => by
    cases a with
    | call op =>
      obtain ⟨h1, h2⟩ := C78_unread mro l ((Act.call op).run mro s).2
      exact ⟨congrArg (((op.run s.world).1) :: ·) h1, h2⟩
    | setOn c t data append =>
      exact C78_unread mro l ((Act.setOn c t data append).run mro s).2
    | importOn c data append =>
      have hw : ((Act.importOn c data append).run mro s).2.world = s.world :=
        run_world mro _ s (fun _ h => by cases h)
      obtain ⟨h1, h2⟩ := C78_unread mro l ((Act.importOn c data append).run mro s).2
      rw [hw] at h1 h2
      exact ⟨h1, h2⟩

private theorem table_self {mro : Nat → List Nat} {c : Nat} {l : List Nat} (hl : mro c = c :: l) (s : Family) (t : Table)
    (d : Dict) (append : Bool) :
    (s.setOn mro c t d append).table mro c t = if append then mergeTables (s.table mro c t) d else d := by
  have h : (mro c).findSome? (fun e => (s.setOn mro c t d append).own e t) =
      some (if append then mergeTables (s.table mro c t) d else d) := by
    have e : (s.setOn mro c t d append).own c t = some (if append then mergeTables (s.table mro c t) d else d) :=
      if_pos ⟨rfl, rfl⟩
    rw [hl, List.findSome?_cons, e]
  show ((mro c).findSome? (fun e => (s.setOn mro c t d append).own e t)).getD _ = _
  rw [h]
  rfl

/-- The table of a derived class after it was set: the new data or, with `append`, the table the class had or inherited,
where the names in the new data win. -/
theorem C78_set {mro : Nat → List Nat} {c : Nat} (hc : (mro c).head? = some c) (t : Table) (d : Dict)
    (hd : (d.map (·.1)).Nodup) (append : Bool) (s : Family) (k : String) :
    List.lookup k ((s.setOn mro c t d append).table mro c t) =
      finalEntry k (List.lookup k (s.table mro c t)) [(d, append)] := by
  obtain ⟨l, hl⟩ : ∃ l, mro c = c :: l := by
    cases h : mro c with
    | nil => rw [h] at hc; cases hc
    | cons a l => rw [h] at hc; cases hc; exact ⟨l, rfl⟩
  have e := table_self hl s t d append
  rw [e]
  unfold finalEntry finalEntry
  cases append with
  | false =>
    simp only [Bool.false_eq_true, if_false]
    cases List.lookup k d <;> rfl
  | true =>
    simp only [if_true]
    show List.lookup k (setAll _ _) = _
    rw [lookup_setAll hd]
    cases List.lookup k d <;> rfl

/-- The other tables of the class, and the tables of `Blueprint` and of the classes that do not derive from it, are
unaffected. -/
theorem C78_only (mro : Nat → List Nat) (c : Nat) (t : Table) (d : Dict) (append : Bool) (s : Family) :
    (∀ u, (s.setOn mro c t d append).world.env.table u = s.world.env.table u) ∧
    (∀ e u, u ≠ t → (s.setOn mro c t d append).table mro e u = s.table mro e u) ∧
    ∀ e u, c ∉ mro e → (s.setOn mro c t d append).table mro e u = s.table mro e u := by
  have key : ∀ (u : Table) (l : List Nat), (u ≠ t ∨ c ∉ l) →
      l.findSome? (fun d' => (s.setOn mro c t d append).own d' u) = l.findSome? (fun d' => s.own d' u) := by
    intro u l
    induction l with
    | nil => intro _; rfl
    | cons a l ih =>
      intro h
      have hne : ¬ (a = c ∧ u = t) := by
        rintro ⟨rfl, rfl⟩
        rcases h with h | h
        · exact h rfl
        · exact h List.mem_cons_self
      have e : (s.setOn mro c t d append).own a u = s.own a u := if_neg hne
      have h' : u ≠ t ∨ c ∉ l := h.imp id (fun h hl => h (List.mem_cons_of_mem _ hl))
      rw [List.findSome?_cons, List.findSome?_cons, ih h', e]
  refine ⟨fun _ => rfl, fun e u h => ?_, fun e u h => ?_⟩
  · unfold Family.table
    rw [key u _ (.inl h)]
    rfl
  · unfold Family.table
    rw [key u _ (.inr h)]
    rfl

/-- A class without a table of its own sees the one of `Blueprint`, also after calls that change it. -/
theorem C78_inherits {mro : Nat → List Nat} {s : Family} {c : Nat} {t : Table} (h : Inherits mro s c t) (ops : List Op) :
    (Act.history mro (ops.map .call) s).2.table mro c t = (calls ops s.world).2.env.table t := by
  have key : ∀ (ops : List Op) (s : Family), (Act.history mro (ops.map .call) s).2 = ⟨(calls ops s.world).2, s.own⟩ := by
    intro ops
    induction ops with
    | nil => intro s; rfl
    | cons op ops ih => intro s; exact ih _
  rw [key]
  unfold Family.table
  have : (mro c).findSome? (fun d => s.own d t) = none := by
    rw [List.findSome?_eq_none_iff]
    exact h
  rw [this]
  rfl

/-- A class that has a table of its own keeps it: no call on `Blueprint` changes it, even if the table was appended to the
one of `Blueprint`. -/
theorem C78_frozen {mro : Nat → List Nat} {s : Family} {c : Nat} {t : Table} (h : ¬ Inherits mro s c t) (ops : List Op) :
    (Act.history mro (ops.map .call) s).2.table mro c t = s.table mro c t := by
  have key : ∀ (ops : List Op) (s : Family), (Act.history mro (ops.map .call) s).2 = ⟨(calls ops s.world).2, s.own⟩ := by
    intro ops
    induction ops with
    | nil => intro s; rfl
    | cons op ops ih => intro s; exact ih _
  rw [key]
  unfold Family.table
  rcases hf : (mro c).findSome? (fun d => s.own d t) with _ | x
  · exact absurd (List.findSome?_eq_none_iff.1 hf) h
  · simp only [hf, Option.getD_some]

/-- Importing a file on a derived class sets the five tables of the class, as C37 says of `Blueprint`. -/
theorem C78_import {mro : Nat → List Nat} {c : Nat} (hc : (mro c).head? = some c) (data : Dict) (append : Bool)
    (tab : Table → Dict) (h : ∀ t, List.lookup (fileKey t) data = some (.dict (tab t))) (s : Family) :
    ∃ s', s.importOn mro c (.dict data) append = (.ok (), s') ∧ s'.world = s.world ∧
      ∀ t, s'.table mro c t = if append then setAll (s.table mro c t) (tab t) else tab t := by
  obtain ⟨l, hl⟩ : ∃ l, mro c = c :: l := by
    cases h : mro c with
    | nil => rw [h] at hc; cases hc
    | cons a l => rw [h] at hc; cases hc; exact ⟨l, rfl⟩
  have hsub : ∀ t, (Val.dict data).subscript (fileKey t) = .ok (.dict (tab t)) := fun t => (lookup_getItem ..).2 (h t)
  have e1 := hsub .entity; have e2 := hsub .recipe; have e3 := hsub .item; have e4 := hsub .signal; have e5 := hsub .tile
  simp only [fileKey] at e1 e2 e3 e4 e5
  have self := fun s t d => table_self hl s t d append
  have other : ∀ (s : Family) t d u, u ≠ t → (s.setOn mro c t d append).table mro c u = s.table mro c u :=
    fun s t d u hu => (C78_only mro c t d append s).2.1 c u hu
  refine ⟨((((s.setOn mro c .entity (tab .entity) append).setOn mro c .recipe (tab .recipe) append).setOn mro c .item
      (tab .item) append).setOn mro c .signal (tab .signal) append).setOn mro c .tile (tab .tile) append, ?_, rfl, ?_⟩
  · unfold Family.importOn
    simp only [Family.importRest, Family.importTableOn, e1, e2, e3, e4, e5]
  · intro t
    cases t
    · rw [other _ _ _ _ (by decide), other _ _ _ _ (by decide), other _ _ _ _ (by decide), other _ _ _ _ (by decide), self]
      rfl
    · rw [other _ _ _ _ (by decide), other _ _ _ _ (by decide), other _ _ _ _ (by decide), self,
        other _ _ _ _ (by decide)]
      rfl
    · rw [other _ _ _ _ (by decide), other _ _ _ _ (by decide), self, other _ _ _ _ (by decide),
        other _ _ _ _ (by decide)]
      rfl
    · rw [other _ _ _ _ (by decide), self, other _ _ _ _ (by decide), other _ _ _ _ (by decide),
        other _ _ _ _ (by decide)]
      rfl
    · rw [self, other _ _ _ _ (by decide), other _ _ _ _ (by decide), other _ _ _ _ (by decide),
        other _ _ _ _ (by decide)]
      rfl

/-! ## The expected use is not possible -/

/-- One derived class, `0`. -/
def Sample.derived : Nat → List Nat := fun c => [c]

def Sample.emptyFamily : Family := ⟨World.init { Sample.env with entities := [] }, fun _ _ => none⟩

/-- The data of a derived class is not used by the derived class either: after the names of the sample data were set on it,
it has them, but placing a belt fails. -/
theorem C78_false : ¬ ∀ (mro : Nat → List Nat) (c : Nat) (s : Family) (d : Dict) (b : BpId) (n : String), (mro c).head? = some c →
    List.lookup n ((s.setOn mro c .entity d false).table mro c .entity) =
      some (Sample.proto "transport-belt" (Sample.box (-1/2) (-1/2) (1/2) (1/2))) →
    ((Act.call (.make b (Sample.ent n 0 0))).run mro (s.setOn mro c .entity d false)).1 = .ok () := by
  intro H
  have := H Sample.derived 0 Sample.emptyFamily Sample.env.entities 0 "belt" rfl (by decide +kernel)
  revert this
  decide +kernel

/-- On `Blueprint` itself it succeeds. -/
example : ((Act.history Sample.derived [.call (.setProtos .entity Sample.env.entities false),
    .call (.make 0 (Sample.ent "belt" 0 0))] Sample.emptyFamily).1) = [.ok (), .ok ()] := by decide +kernel

/-- A history with both kinds of calls. -/
example : libraryCalls [.setOn 0 .entity Sample.env.entities false, .call (.make 0 (Sample.ent "belt" 0 0)),
    .importOn 0 .none true, .call (.toJson 0)] = [.make 0 (Sample.ent "belt" 0 0), .toJson 0] := rfl

example : Inherits Sample.derived Sample.emptyFamily 0 .entity ∧
    ¬ Inherits Sample.derived (Sample.emptyFamily.setOn Sample.derived 0 .entity [] true) 0 .entity := by
  refine ⟨fun _ _ => rfl, fun h => ?_⟩
  have := h 0 (by simp [Sample.derived])
  cases this

/-- Class `1` derives from class `0` and sees its table. -/
example : ((Sample.emptyFamily.setOn (fun c => if c = 1 then [1, 0] else [c]) 0 .entity Sample.env.entities false).table
    (fun c => if c = 1 then [1, 0] else [c]) 1 .entity) = Sample.env.entities := rfl

end Verif
