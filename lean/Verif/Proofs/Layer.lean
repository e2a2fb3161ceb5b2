import Verif.Proofs.Order
/-!
# Helper lemmas: what the layer calls do
-/
set_option autoImplicit false

namespace Verif
open Spec

theorem World.ext {w w' : World} (h1 : w.env = w'.env) (h2 : w.heap = w'.heap) (h3 : w.next = w'.next)
    (h4 : w.bp = w'.bp) : w = w' := by
  cases w; cases w'; simp_all

/-- The world just before `sort()` in `add`. -/
def World.listed (w : World) (b : BpId) (r : Ref) : World :=
  (w.setBp b { w.bp b with objs := (w.bp b).objs ++ [r] }).setEnt r { w.heap r with layer := some b }

theorem layerAdd_new {w : World} {b : BpId} {r : Ref}
    (hl : (w.heap r).layer = none ∨ (w.heap r).layer = some b) (hn : r ∉ (w.bp b).objs) :
    layerAdd b (.ent r) w = (.ok (), (w.listed b r).sort b) := by
  unfold layerAdd
  have : ¬ ((w.heap r).layer ≠ none ∧ (w.heap r).layer ≠ some b) := by
    rintro ⟨h1, h2⟩
    rcases hl with hl | hl
    · exact h1 hl
    · exact h2 hl
  dsimp only
  rw [if_neg this, if_neg hn]
  rfl

@[simp] theorem listed_objs (w : World) (b : BpId) (r : Ref) :
    ((w.listed b r).bp b).objs = (w.bp b).objs ++ [r] := by simp [World.listed]

theorem listed_bp_other {w : World} {b c : BpId} {r : Ref} (h : c ≠ b) : (w.listed b r).bp c = w.bp c := by
  simp [World.listed, setBp_bp, h]

theorem listed_heap_other {w : World} {b : BpId} {r s : Ref} (h : s ≠ r) :
    (w.listed b r).heap s = w.heap s := by simp [World.listed, setEnt_heap, h]

theorem listed_heap_self (w : World) (b : BpId) (r : Ref) :
    (w.listed b r).heap r = { w.heap r with layer := some b } := by simp [World.listed]

theorem listed_nodup {w : World} (h : Owned w) {b : BpId} {r : Ref} (hn : r ∉ (w.bp b).objs) :
    ((w.listed b r).bp b).objs.Nodup := by
  rw [listed_objs]
  simp only [List.nodup_append, h.nodup b, true_and]
  refine ⟨by simp, ?_⟩
  intro a ha x hx
  rw [List.mem_singleton.1 hx]
  intro e; subst e; exact hn ha

theorem layerAdd_cases {w w' : World} {b : BpId} {r : Ref} (h : layerAdd b (.ent r) w = (.ok (), w')) :
    ((w.heap r).layer = none ∨ (w.heap r).layer = some b) ∧
    ((r ∈ (w.bp b).objs ∧ w' = w) ∨ (r ∉ (w.bp b).objs ∧ w' = (w.listed b r).sort b)) := by
  by_cases hl : (w.heap r).layer = none ∨ (w.heap r).layer = some b
  · refine ⟨hl, ?_⟩
    by_cases hn : r ∈ (w.bp b).objs
    · left
      refine ⟨hn, ?_⟩
      unfold layerAdd at h
      dsimp only at h
      rw [if_neg (by rintro ⟨h1, h2⟩; rcases hl with hl | hl <;> contradiction), if_pos hn] at h
      simpa using h.symm
    · right
      refine ⟨hn, ?_⟩
      rw [layerAdd_new hl hn] at h
      simpa using h.symm
  · exfalso
    rw [not_or] at hl
    unfold layerAdd at h
    dsimp only at h
    rw [if_pos ⟨hl.1, hl.2⟩] at h
    simp at h

/-- The world after dropping the entities `rs`. -/
def World.without (w : World) (b : BpId) (rs : List Ref) : World :=
  { w with
    heap := fun s => if s ∈ rs then { w.heap s with layer := none } else w.heap s
    bp := fun c => if c = b then { w.bp b with objs := (w.bp b).objs.filter (· ∉ rs) } else w.bp c }

theorem without_nil (w : World) (b : BpId) : w.without b [] = w := by
  refine World.ext rfl ?_ rfl ?_
  · funext s; simp [World.without]
  · funext c
    simp only [World.without]
    split
    · rename_i e; subst e
      have : (w.bp c).objs.filter (fun x => decide (x ∉ ([] : List Ref))) = (w.bp c).objs := by
        rw [List.filter_eq_self]; simp
      rw [this]
    · rfl

theorem layerDrop_mem {w : World} {b : BpId} {r : Ref} (hn : (w.bp b).objs.Nodup)
    (h : r ∈ (w.bp b).objs) : layerDrop b r w = (.ok (), w.without b [r]) := by
  unfold layerDrop
  rw [if_pos h]
  dsimp only
  congr 1
  refine World.ext rfl ?_ rfl ?_
  · funext s
    simp only [World.without, setEnt_heap, setBp_heap, List.mem_singleton]
    by_cases e : s = r
    · subst e; simp
    · simp [e]
  · funext c
    simp only [World.without, setEnt_bp, setBp_bp]
    split
    · rw [List.Nodup.erase_eq_filter hn]
      congr 2
      funext x
      by_cases e : x = r <;> simp [e]
    · rfl

theorem without_cons {w : World} {b : BpId} {r : Ref} {rs : List Ref} :
    (w.without b [r]).without b rs = w.without b (r :: rs) := by
  refine World.ext rfl ?_ rfl ?_
  · funext s
    simp only [World.without, List.mem_singleton, List.mem_cons]
    by_cases e : s = r <;> by_cases e' : s ∈ rs <;> simp [e, e']
  · funext c
    simp only [World.without]
    split
    · simp only [if_true, List.filter_filter]
      congr 2
      funext x
      by_cases e : x = r <;> by_cases e' : x ∈ rs <;> simp [e, e']
    · simp

theorem dropAll {w : World} {b : BpId} {rs : List Ref} (hn : (w.bp b).objs.Nodup) (hr : rs.Nodup)
    (h : ∀ r ∈ rs, r ∈ (w.bp b).objs) :
    M.forEach (layerDrop b) rs w = (.ok (), w.without b rs) := by
  induction rs generalizing w with
  | nil => rw [without_nil]; rfl
  | cons r rs ih =>
    show (layerDrop b r >>= fun _ => M.forEach (layerDrop b) rs) w = _
    rw [M.bind_ok (layerDrop_mem hn (h r (List.mem_cons_self ..)))]
    have hr' := List.nodup_cons.1 hr
    rw [ih, without_cons]
    · simp only [World.without, if_true]
      exact hn.filter _
    · exact hr'.2
    · intro s hs
      simp only [World.without, if_true, List.mem_filter, List.mem_singleton, decide_eq_true_eq]
      refine ⟨h s (List.mem_cons_of_mem _ hs), ?_⟩
      rintro rfl
      exact hr'.1 hs

theorem layerGet_vec (b : BpId) (p : Vec) (w : World) :
    layerGet b (.vec p) w = (filterCollides w.env w.heap (.vec p) (w.bp b).objs, w) := rfl

/-- Rotating entities leaves the blueprints alone. -/
theorem entRotate_rest (n : Int) (a : Operand) (d : DirArg) (r : Ref) (w : World) :
    (entRotate n a d r w).2.bp = w.bp ∧ (entRotate n a d r w).2.next = w.next ∧
      (entRotate n a d r w).2.env = w.env := ⟨rfl, rfl, rfl⟩

theorem forEach_entRotate_rest (n : Int) (a : Operand) (d : DirArg) (l : List Ref) (w : World) :
    (M.forEach (entRotate n a d) l w).2.bp = w.bp ∧
      (M.forEach (entRotate n a d) l w).2.next = w.next ∧
      (M.forEach (entRotate n a d) l w).2.env = w.env := by
  have : Keeps (fun v => v.bp = w.bp ∧ v.next = w.next ∧ v.env = w.env) (M.forEach (entRotate n a d) l) :=
    Keeps.forEach (fun r => ⟨fun v hv => hv⟩) l
  exact this.1 w ⟨rfl, rfl, rfl⟩

theorem layerRotate_ok {b : BpId} {n : Int} {a : Option Operand} {d : Option DirArg} {w w' : World}
    (h : layerRotate b n a d w = (.ok (), w')) :
    ∃ v, M.forEach (entRotate n (a.getD (.vec ⟨.int 0, .int 0⟩)) (d.getD (.int Direction.CLOCKWISE)))
      (w.bp b).objs w = (.ok (), v) ∧ w' = v.sort b ∧ v.bp = w.bp ∧ v.next = w.next ∧ v.env = w.env := by
  unfold layerRotate at h
  rw [M.bind_get, M.bind_eq_ok] at h
  obtain ⟨⟨⟩, v, hv, h⟩ := h
  have := forEach_entRotate_rest n (a.getD (.vec ⟨.int 0, .int 0⟩)) (d.getD (.int Direction.CLOCKWISE))
    (w.bp b).objs w
  rw [hv] at this
  simp only [M.modify_eq, Prod.mk.injEq, true_and] at h
  exact ⟨v, hv, h.symm, this⟩

/-- `b` differs from what it was at most in its tiles. -/
theorem bpRotate_ok {b : BpId} {n : Int} {a : Option Operand} {d : Option DirArg} {w w' : World}
    (h : bpRotate b n a d w = (.ok (), w')) :
    ∃ v ts, layerRotate b n a d w = (.ok (), v) ∧ w' = v.setBp b { v.bp b with tiles := ts } := by
  unfold bpRotate at h
  rw [M.bind_eq_ok] at h
  obtain ⟨⟨⟩, v, hv, h⟩ := h
  rw [M.bind_eq_ok] at h
  obtain ⟨⟨⟩, v', hv', h⟩ := h
  refine ⟨v, sortBy (fun s t => posLe s.pos t.pos) (tilesRotateAux n a d (v.bp b).tiles).2, hv, ?_⟩
  simp only [tilesRotate, Prod.mk.injEq] at hv'
  rw [← hv'.2] at h
  simp only [tilesSort, modBp_eq, Prod.mk.injEq, true_and, setBp_bp_self] at h
  rw [← h]
  refine World.ext rfl rfl rfl ?_
  · funext c
    simp only [setBp_bp]
    split <;> rfl

theorem Spec.InOrder.congr {w w' : World} {b : BpId} {l : List Ref} (h : InOrder w b l)
    (ho : (w'.bp b).objs = (w.bp b).objs) (hh : w'.heap = w.heap) : InOrder w' b l := by
  obtain ⟨h1, h2, h3, h4⟩ := h
  refine ⟨?_, ?_, ?_, ?_⟩
  · rw [ho]; exact h1
  · rw [ho, hh]; exact h2
  · rw [ho, hh]; exact h3
  · rw [hh]
    intro i hi
    have hi' : i < (w.bp b).objs.length := by rwa [ho] at hi
    have : (w'.bp b).objs[i] = (w.bp b).objs[i] := by simp [ho]
    rw [this]
    exact h4 i hi'

end Verif
