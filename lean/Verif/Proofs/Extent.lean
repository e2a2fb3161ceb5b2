import Verif.Spec.Extent
import Verif.Proofs.Order
import Verif.Model.Blueprint
import Mathlib.Data.List.Forall2
/-!
# Helper lemmas: the loop of `maximum_values`
-/
set_option autoImplicit false

namespace Verif
open Spec

theorem Num.trunc_mono {a b : Num} (h : a.val ≤ b.val) : a.trunc ≤ b.trunc := by
  rw [trunc_eq, trunc_eq]
  split
  · rename_i h0
    rw [if_pos (Rat.le_trans h0 h)]
    exact Rat.floor_monotone h
  · rename_i h0
    split
    · rename_i h1
      have h2 : a.val.ceil ≤ 0 := Rat.ceil_le_iff.2 (by simp only [Rat.intCast_zero]; grind)
      have h3 : 0 ≤ b.val.floor := Rat.le_floor_iff.2 (by simpa using h1)
      omega
    · exact Rat.ceil_le_iff.2 (Rat.le_trans h Rat.le_ceil)

theorem Num.trunc_spec (a : Num) : TowardZero a.val a.trunc := by
  rw [trunc_eq]
  unfold TowardZero
  split
  · rename_i h
    left
    refine ⟨h, Rat.floor_le _, ?_⟩
    have := Rat.lt_floor_add_one a.val
    rwa [Rat.intCast_add] at this
  · rename_i h
    right
    have hc : a.val.ceil - 1 < a.val.ceil := by omega
    refine ⟨by grind, ?_, Rat.le_ceil⟩
    have : ¬ a.val ≤ ((a.val.ceil - 1 : Int) : Rat) := by
      intro h'
      have := Rat.ceil_le_iff.2 h'
      omega
    rw [Rat.intCast_sub] at this
    simp only [Rat.intCast_one] at this
    grind

theorem towardZero_unique {q : Rat} {y z : Int} (hy : TowardZero q y) (hz : TowardZero q z) : y = z := by
  unfold TowardZero at hy hz
  have key : (y : Rat) < (z : Rat) + 1 ∧ (z : Rat) < (y : Rat) + 1 := by grind
  have h1 : y < z + 1 := by exact_mod_cast key.1
  have h2 : z < y + 1 := by exact_mod_cast key.2
  omega

theorem towardZero_int {y z : Int} (h : TowardZero (z : Rat) y) : y = z := by
  refine towardZero_unique h ?_
  unfold TowardZero
  grind

theorem boundStep_max (acc : Option Int) (v : Num) :
    boundStep (fun v m => m.lt v) acc v = some (match acc with | none => v.trunc | some m => max m v.trunc) := by
  cases acc with
  | none => rfl
  | some m =>
    unfold boundStep
    dsimp only
    split
    · rename_i h
      rw [Num.lt_iff] at h
      have := Num.trunc_mono (a := .int m) (b := v) (Rat.le_of_lt h)
      change m ≤ v.trunc at this
      congr 1
      omega
    · rename_i h
      rw [Num.lt_iff] at h
      have := Num.trunc_mono (a := v) (b := .int m) (by grind)
      change v.trunc ≤ m at this
      congr 1
      omega

theorem boundStep_min (acc : Option Int) (v : Num) :
    boundStep (fun v m => v.lt m) acc v = some (match acc with | none => v.trunc | some m => min m v.trunc) := by
  cases acc with
  | none => rfl
  | some m =>
    unfold boundStep
    dsimp only
    split
    · rename_i h
      rw [Num.lt_iff] at h
      have := Num.trunc_mono (a := v) (b := .int m) (Rat.le_of_lt h)
      change v.trunc ≤ m at this
      congr 1
      omega
    · rename_i h
      rw [Num.lt_iff] at h
      have := Num.trunc_mono (a := .int m) (b := v) (by grind)
      change m ≤ v.trunc at this
      congr 1
      omega

theorem foldMax {l : List Num} {acc : Option Int} (h : acc ≠ none ∨ l ≠ []) :
    ∃ m, l.foldl (boundStep (fun v m => m.lt v)) acc = some m ∧
      (acc = some m ∨ ∃ v ∈ l, v.trunc = m) ∧ (∀ v ∈ l, v.trunc ≤ m) ∧ ∀ a, acc = some a → a ≤ m := by
  induction l generalizing acc with
  | nil =>
    cases acc with
    | none => simp at h
    | some a => exact ⟨a, rfl, .inl rfl, by simp, by rintro _ ⟨⟩; exact Int.le_refl _⟩
  | cons v l ih =>
    rw [List.foldl_cons, boundStep_max]
    clear h
    obtain ⟨m, h1, h2, h3, h4⟩ := ih (acc := some (match acc with | none => v.trunc | some m => max m v.trunc))
      (.inl (by simp))
    refine ⟨m, h1, ?_, ?_, ?_⟩
    · rcases h2 with h2 | ⟨u, hu, h2⟩
      · cases acc with
        | none => right; exact ⟨v, List.mem_cons_self .., by simpa using h2⟩
        | some a =>
          simp only [Option.some.injEq] at h2
          by_cases ha : a ≤ v.trunc
          · right; exact ⟨v, List.mem_cons_self .., by omega⟩
          · left; rw [Option.some.injEq]; omega
      · right; exact ⟨u, List.mem_cons_of_mem _ hu, h2⟩
    · have := h4 _ rfl
      intro u hu
      rcases List.mem_cons.1 hu with rfl | hu
      · cases acc <;> simp only at this <;> omega
      · exact h3 u hu
    · rintro a rfl
      have := h4 _ rfl
      simp only at this
      omega

theorem foldMin {l : List Num} {acc : Option Int} (h : acc ≠ none ∨ l ≠ []) :
    ∃ m, l.foldl (boundStep (fun v m => v.lt m)) acc = some m ∧
      (acc = some m ∨ ∃ v ∈ l, v.trunc = m) ∧ (∀ v ∈ l, m ≤ v.trunc) ∧ ∀ a, acc = some a → m ≤ a := by
  induction l generalizing acc with
  | nil =>
    cases acc with
    | none => simp at h
    | some a => exact ⟨a, rfl, .inl rfl, by simp, by rintro _ ⟨⟩; exact Int.le_refl _⟩
  | cons v l ih =>
    rw [List.foldl_cons, boundStep_min]
    clear h
    obtain ⟨m, h1, h2, h3, h4⟩ := ih (acc := some (match acc with | none => v.trunc | some m => min m v.trunc))
      (.inl (by simp))
    refine ⟨m, h1, ?_, ?_, ?_⟩
    · rcases h2 with h2 | ⟨u, hu, h2⟩
      · cases acc with
        | none => right; exact ⟨v, List.mem_cons_self .., by simpa using h2⟩
        | some a =>
          simp only [Option.some.injEq] at h2
          by_cases ha : v.trunc ≤ a
          · right; exact ⟨v, List.mem_cons_self .., by omega⟩
          · left; rw [Option.some.injEq]; omega
      · right; exact ⟨u, List.mem_cons_of_mem _ hu, h2⟩
    · have := h4 _ rfl
      intro u hu
      rcases List.mem_cons.1 hu with rfl | hu
      · cases acc <;> simp only at this <;> omega
      · exact h3 u hu
    · rintro a rfl
      have := h4 _ rfl
      simp only at this
      omega

/-- The corners of a box are the borders. -/
theorem corners_borders {env : Env} {e : Entity} {p q : Vec} (hd : 0 ≤ e.dir.n)
    (hp : e.topLeft env = .ok p) (hq : e.bottomRight env = .ok q) {x0 y0 x1 y1 : Rat} :
    Borders env e x0 y0 x1 y1 ↔ x0 = p.x.val ∧ y0 = p.y.val ∧ x1 = q.x.val ∧ y1 = q.y.val := by
  unfold Entity.topLeft at hp
  unfold Entity.bottomRight at hq
  simp only [bind_eq_ok, pure_eq_ok, Except.ok.injEq] at hp hq
  obtain ⟨⟨lt, rb⟩, hb, rfl⟩ := hp
  obtain ⟨⟨lt', rb'⟩, hb', rfl⟩ := hq
  rw [hb] at hb'
  cases hb'
  obtain ⟨a, b, hp, hbox⟩ := Entity.box_ok.1 hb
  have hbx := Entity.protoBox_ok.1 hp
  have hti := Entity.transposed_iff hd
  unfold Borders
  simp only [Vec.addV, Num.val_add]
  constructor
  · rintro ⟨_, _, _, _, hb', h⟩
    obtain ⟨rfl, rfl, rfl, rfl⟩ := Entity.HasBox.unique hbx hb'
    rcases h with ⟨ht, h⟩ | ⟨ht, h⟩
    · rw [if_neg (fun h => ht (hti.1 h))] at hbox
      simp only [Prod.mk.injEq] at hbox
      obtain ⟨rfl, rfl⟩ := hbox
      exact h
    · rw [if_pos (hti.2 ht)] at hbox
      simp only [Prod.mk.injEq] at hbox
      obtain ⟨rfl, rfl⟩ := hbox
      exact h
  · intro h
    refine ⟨_, _, _, _, hbx, ?_⟩
    by_cases ht : Transposed e.dir
    · rw [if_pos (hti.2 ht)] at hbox
      simp only [Prod.mk.injEq] at hbox
      obtain ⟨rfl, rfl⟩ := hbox
      exact .inr ⟨ht, h⟩
    · rw [if_neg (fun h => ht (hti.1 h))] at hbox
      simp only [Prod.mk.injEq] at hbox
      obtain ⟨rfl, rfl⟩ := hbox
      exact .inl ⟨ht, h⟩

theorem corners_total {env : Env} {e : Entity} (h : ∃ x0 y0 x1 y1, HasBox env e.name x0 y0 x1 y1) :
    ∃ p q, e.topLeft env = .ok p ∧ e.bottomRight env = .ok q := by
  obtain ⟨x0, y0, x1, y1, h⟩ := h
  have hp := (Entity.protoBox_ok (p := ⟨x0, y0⟩) (q := ⟨x1, y1⟩)).2 h
  simp [Entity.topLeft, Entity.bottomRight, Entity.box, hp]

theorem extentAux_ok {env : Env} {es : List Entity} {x x' : Extent} : extentAux env es x = .ok x' ↔
    ∃ cs : List (Vec × Vec),
      List.Forall₂ (fun e c => e.topLeft env = .ok c.1 ∧ e.bottomRight env = .ok c.2) es cs ∧
      x' = { maxx := (cs.map (·.2.x)).foldl (boundStep (fun v m => m.lt v)) x.maxx,
             minx := (cs.map (·.1.x)).foldl (boundStep (fun v m => v.lt m)) x.minx,
             maxy := (cs.map (·.2.y)).foldl (boundStep (fun v m => m.lt v)) x.maxy,
             miny := (cs.map (·.1.y)).foldl (boundStep (fun v m => v.lt m)) x.miny } := by
  induction es generalizing x with
  | nil =>
    constructor
    · intro h
      simp only [extentAux, Except.ok.injEq] at h
      exact ⟨[], .nil, by rw [← h]; rfl⟩
    · rintro ⟨cs, h, rfl⟩
      cases h
      rfl
  | cons e es ih =>
    simp only [extentAux, bind_eq_ok]
    constructor
    · rintro ⟨p, hp, q, hq, h⟩
      obtain ⟨cs, h1, rfl⟩ := ih.1 h
      exact ⟨(p, q) :: cs, .cons ⟨hp, hq⟩ h1, rfl⟩
    · rintro ⟨cs, h, rfl⟩
      cases h with
      | cons hc h1 => exact ⟨_, hc.1, _, hc.2, ih.2 ⟨_, h1, rfl⟩⟩

theorem extentAux_total {env : Env} {es : List Entity} (x : Extent)
    (h : ∀ e ∈ es, ∃ x0 y0 x1 y1, HasBox env e.name x0 y0 x1 y1) : ∃ x', extentAux env es x = .ok x' := by
  induction es generalizing x with
  | nil => exact ⟨x, rfl⟩
  | cons e es ih =>
    obtain ⟨p, q, hp, hq⟩ := corners_total (h e (List.mem_cons_self ..))
    rw [extentAux, hp, hq]
    exact ih _ (fun e he => h e (List.mem_cons_of_mem _ he))

end Verif
