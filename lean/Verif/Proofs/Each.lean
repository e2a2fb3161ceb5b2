import Verif.Proofs.Layer
/-!
# Helper lemmas: a loop that changes one entity after the other
-/
set_option autoImplicit false

namespace Verif

/-- A call that reads and changes one entity. -/
def perEnt (step : Entity → Except Exc Unit × Entity) (r : Ref) : M Unit := fun w =>
  ((step (w.heap r)).1, w.setEnt r (step (w.heap r)).2)

/-- The world after `step` on the entities of a list. -/
def World.each (w : World) (step : Entity → Except Exc Unit × Entity) (l : List Ref) : World :=
  { w with heap := fun s => if s ∈ l then (step (w.heap s)).2 else w.heap s }

theorem each_nil (w : World) (step : Entity → Except Exc Unit × Entity) : w.each step [] = w := by
  unfold World.each
  simp

theorem each_cons (w : World) (step : Entity → Except Exc Unit × Entity) {r : Ref} {l : List Ref} (h : r ∉ l) :
    (w.setEnt r (step (w.heap r)).2).each step l = w.each step (r :: l) := by
  refine World.ext rfl ?_ rfl rfl
  funext s
  show (if s ∈ l then (step ((w.setEnt r _).heap s)).2 else (w.setEnt r _).heap s) = _
  rw [setEnt_heap]
  show _ = if s ∈ r :: l then (step (w.heap s)).2 else w.heap s
  by_cases e : s = r
  · subst e
    simp [h]
  · simp [e]

theorem forEach_perEnt_ok {step : Entity → Except Exc Unit × Entity} {l : List Ref} (hn : l.Nodup)
    {w w' : World} : M.forEach (perEnt step) l w = (.ok (), w') ↔
      (∀ r ∈ l, (step (w.heap r)).1 = .ok ()) ∧ w' = w.each step l := by
  induction l generalizing w with
  | nil =>
    rw [each_nil]
    show ((.ok (), w) : Except Exc Unit × World) = _ ↔ _
    simp [eq_comm]
  | cons r l ih =>
    rw [List.nodup_cons] at hn
    show (perEnt step r >>= fun _ => M.forEach (perEnt step) l) w = _ ↔ _
    rw [M.bind_unit_ok]
    constructor
    · rintro ⟨v, hv, h⟩
      simp only [perEnt, Prod.mk.injEq] at hv
      obtain ⟨h1, rfl⟩ := hv
      obtain ⟨h2, rfl⟩ := (ih hn.2).1 h
      refine ⟨?_, each_cons w step hn.1⟩
      intro s hs
      rcases List.mem_cons.1 hs with rfl | hs
      · exact h1
      · have := h2 s hs
        rwa [setEnt_heap, if_neg (fun e => hn.1 (by rw [← e]; exact hs))] at this
    · rintro ⟨h, rfl⟩
      refine ⟨_, by rw [perEnt, h r (List.mem_cons_self ..)], (ih hn.2).2 ⟨?_, (each_cons w step hn.1).symm⟩⟩
      intro s hs
      rw [setEnt_heap, if_neg (fun e => hn.1 (by rw [← e]; exact hs))]
      exact h s (List.mem_cons_of_mem _ hs)

theorem forEach_perEnt_error {step : Entity → Except Exc Unit × Entity} {l : List Ref} (hn : l.Nodup)
    {w w' : World} {e : Exc} : M.forEach (perEnt step) l w = (.error e, w') ↔
      ∃ pre r post, l = pre ++ r :: post ∧ (∀ s ∈ pre, (step (w.heap s)).1 = .ok ()) ∧
        (step (w.heap r)).1 = .error e ∧ w' = w.each step (pre ++ [r]) := by
  induction l generalizing w with
  | nil =>
    show ((.ok (), w) : Except Exc Unit × World) = _ ↔ _
    simp
  | cons r l ih =>
    rw [List.nodup_cons] at hn
    show (perEnt step r >>= fun _ => M.forEach (perEnt step) l) w = _ ↔ _
    rw [M.bind_eq]
    unfold perEnt
    cases hs : (step (w.heap r)).1 with
    | error x =>
      dsimp only
      constructor
      · intro h
        cases h
        refine ⟨[], r, l, rfl, by simp, hs, ?_⟩
        rw [← each_nil (w.setEnt r _) step, each_cons w step (by simp)]
        rfl
      · rintro ⟨pre, s, post, h1, h2, h3, rfl⟩
        cases pre with
        | nil =>
          simp only [List.nil_append, List.cons.injEq] at h1
          obtain ⟨rfl, rfl⟩ := h1
          rw [hs] at h3
          cases h3
          rw [List.nil_append, ← each_cons w step (by simp), each_nil]
        | cons a pre =>
          simp only [List.cons_append, List.cons.injEq] at h1
          obtain ⟨rfl, rfl⟩ := h1
          have := h2 r (List.mem_cons_self ..)
          rw [hs] at this
          cases this
    | ok u =>
      dsimp only
      have ih := ih hn.2 (w := w.setEnt r (step (w.heap r)).2)
      unfold perEnt at ih
      rw [ih]
      constructor
      · rintro ⟨pre, s, post, rfl, h2, h3, rfl⟩
        have hpre : r ∉ pre ++ [s] := fun h => hn.1 (by
          rcases List.mem_append.1 h with h | h
          · exact List.mem_append_left _ h
          · rw [List.mem_singleton] at h
            exact List.mem_append_right _ (by rw [h]; exact List.mem_cons_self ..))
        refine ⟨r :: pre, s, post, rfl, ?_, ?_, each_cons w step hpre⟩
        · intro t ht
          rcases List.mem_cons.1 ht with rfl | ht
          · exact hs
          · have := h2 t ht
            rwa [setEnt_heap, if_neg (fun e => hpre (by rw [← e]; exact List.mem_append_left _ ht))] at this
        · rwa [setEnt_heap, if_neg (fun e => hpre (by rw [← e]; simp))] at h3
      · rintro ⟨pre, s, post, h1, h2, h3, rfl⟩
        cases pre with
        | nil =>
          simp only [List.nil_append, List.cons.injEq] at h1
          obtain ⟨rfl, rfl⟩ := h1
          rw [hs] at h3
          cases h3
        | cons a pre =>
          simp only [List.cons_append, List.cons.injEq] at h1
          obtain ⟨rfl, rfl⟩ := h1
          have hpre : r ∉ pre ++ [s] := fun h => hn.1 (by
            rcases List.mem_append.1 h with h | h
            · exact List.mem_append_left _ h
            · rw [List.mem_singleton] at h
              exact List.mem_append_right _ (by rw [h]; exact List.mem_cons_self ..))
          refine ⟨pre, s, post, rfl, ?_, ?_, (each_cons w step hpre).symm⟩
          · intro t ht
            rw [setEnt_heap, if_neg (fun e => hpre (by rw [← e]; exact List.mem_append_left _ ht))]
            exact h2 t (List.mem_cons_of_mem _ ht)
          · rw [setEnt_heap, if_neg (fun e => hpre (by rw [← e]; simp))]
            exact h3

end Verif
