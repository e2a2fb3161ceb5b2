import Verif.Model.Printed
import Verif.Spec.Printed
import Verif.Proofs.Json
import Verif.Model.Defaults
/-!
# Helper lemmas: printed forms
-/
set_option autoImplicit false

namespace Verif
open Spec Json

/-- A separator character that does not occur behind it can be found from the end. -/
theorem split_last {c : Char} {a b x y : List Char} (hx : c ∉ x) (hy : c ∉ y) (h : a ++ c :: x = b ++ c :: y) :
    a = b ∧ x = y := by
  have h' := congrArg List.reverse h
  simp only [List.reverse_append, List.reverse_cons, List.append_assoc, List.cons_append, List.nil_append] at h'
  have key : ∀ (u v p q : List Char), c ∉ u → c ∉ v → u ++ c :: p = v ++ c :: q → u = v ∧ p = q := by
    intro u
    induction u with
    | nil =>
      intro v p q _ hv e
      cases v with
      | nil => injection e with _ e; exact ⟨rfl, e⟩
      | cons d v => injection e with e _; exact absurd (e ▸ List.mem_cons_self ..) hv
    | cons d u ih =>
      intro v p q hu hv e
      cases v with
      | nil => injection e with e _; exact absurd (e ▸ List.mem_cons_self ..) hu
      | cons d' v =>
        injection e with e1 e2
        obtain ⟨h1, h2⟩ := ih v p q (fun hm => hu (List.mem_cons_of_mem _ hm))
          (fun hm => hv (List.mem_cons_of_mem _ hm)) e2
        exact ⟨by rw [e1, h1], h2⟩
  obtain ⟨h1, h2⟩ := key x.reverse y.reverse a.reverse b.reverse (by simpa using hx) (by simpa using hy) h'
  exact ⟨List.reverse_inj.1 h2, List.reverse_inj.1 h1⟩

theorem num_dumps (f : FloatText) (n : Num) : Printed.num f n = dumps f (.num n) := by
  cases n <;> simp [Printed.num, dumps]

theorem num_inj {f : FloatText} {n m : Num} (hn : PrintedExactly f n) (hm : PrintedExactly f m)
    (h : Printed.num f n = Printed.num f m) : n = m := by
  rw [num_dumps, num_dumps] at h
  have pn : Plain f (.num n) := by cases n <;> simpa [Plain, PrintedExactly] using hn
  have pm : Plain f (.num m) := by cases m <;> simpa [Plain, PrintedExactly] using hm
  have h1 := loads_dumps pn
  rw [h, loads_dumps pm] at h1
  injection h1 with h1
  injection h1 with h1
  exact h1.symm

/-- The characters of numbers. -/
def NumChar (c : Char) : Prop := c.isDigit = true ∨ c ∈ ['-', '+', '.', 'e', 'E']

theorem intText_chars (z : Int) : ∀ c ∈ intText z, NumChar c := by
  have hd : ∀ n c, c ∈ Nat.toDigits 10 n → NumChar c :=
    fun n c hc => .inl (Nat.isDigit_of_mem_toDigits (by decide) (by decide) hc)
  intro c hc
  unfold intText at hc
  split at hc
  · rcases List.mem_cons.1 hc with rfl | hc
    · exact .inr (by decide)
    · exact hd _ c hc
  · exact hd _ c hc

theorem num_chars {f : FloatText} {n : Num} (hn : PrintedExactly f n) : ∀ c ∈ Printed.num f n, NumChar c := by
  cases n with
  | int z => exact intText_chars z
  | flt q =>
    obtain ⟨sg, i, fr, ex, he, hsg, hi, hfr, hex, -⟩ := hn.1
    intro c hc
    change c ∈ f.repr q at hc
    rw [he] at hc
    have hdig : ∀ {l : List Char}, IntLit l → c ∈ l → NumChar c := by
      intro l hl hc
      rcases hl with rfl | ⟨c0, r, rfl, -, h0, hr⟩
      · simp at hc; subst hc; exact .inl (by decide)
      · rcases List.mem_cons.1 hc with rfl | hc
        · exact .inl h0
        · exact .inl (hr c hc)
    rcases List.mem_append.1 hc with hc | hc
    · rcases List.mem_append.1 hc with hc | hc
      · rcases List.mem_append.1 hc with hc | hc
        · rcases hsg with rfl | rfl
          · cases hc
          · simp at hc; subst hc; exact .inr (by decide)
        · exact hdig hi hc
      · rcases hfr with rfl | ⟨ds, rfl, hds⟩
        · cases hc
        · rcases List.mem_cons.1 hc with rfl | hc
          · exact .inr (by decide)
          · exact .inl (hds.2 c hc)
    · rcases hex with rfl | ⟨c0, s, ds, rfl, h0, hs, hds⟩
      · cases hc
      · rcases List.mem_append.1 hc with hc | hc
        · rcases List.mem_cons.1 hc with rfl | hc
          · rcases h0 with rfl | rfl <;> exact .inr (by decide)
          · rcases hs with rfl | rfl | rfl
            · cases hc
            all_goals simp at hc; subst hc; exact .inr (by decide)
        · exact .inl (hds.2 c hc)

theorem num_not {f : FloatText} {n : Num} (hn : PrintedExactly f n) {c : Char} (hc : ¬ NumChar c) :
    c ∉ Printed.num f n := fun h => hc (num_chars hn c h)

theorem blank_not : ¬ NumChar ' ' := by unfold NumChar; decide
theorem colon_not : ¬ NumChar ':' := by unfold NumChar; decide
theorem paren_not : ¬ NumChar '(' := by unfold NumChar; decide

/-- A vector printed at the end of a text. -/
theorem vec_inj {f : FloatText} {v w : Vec} (hx : PrintedExactly f v.x) (hy : PrintedExactly f v.y) (hx' : PrintedExactly f w.x)
    (hy' : PrintedExactly f w.y) {a b : List Char}
    (h : a ++ Printed.vec f v = b ++ Printed.vec f w) : a = b ∧ v = w := by
  unfold Printed.vec at h
  have e : ∀ (a : List Char) (x y : Num), a ++ ("<Vector (".toList ++ Printed.num f x ++ ", ".toList ++
      Printed.num f y ++ ")>".toList) =
      ((a ++ "<Vector ".toList) ++ '(' :: (Printed.num f x ++ [','])) ++ ' ' :: (Printed.num f y) ++ ")>".toList := by
    intro a x y; simp
  rw [e, e] at h
  have h1 := List.append_cancel_right h
  obtain ⟨h2, h3⟩ := split_last (num_not hy blank_not) (num_not hy' blank_not) h1
  have hp : ∀ {n : Num}, PrintedExactly f n → '(' ∉ Printed.num f n ++ [','] := by
    intro n hn hm
    rcases List.mem_append.1 hm with hm | hm
    · exact num_not hn paren_not hm
    · exact absurd hm (by decide)
  obtain ⟨h4, h5⟩ := split_last (hp hx) (hp hx') h2
  refine ⟨List.append_cancel_right h4, ?_⟩
  have := num_inj hx hx' (List.append_cancel_right h5)
  have h6 := num_inj hy hy' h3
  cases v; cases w
  dsimp only at this h6
  rw [this, h6]

theorem dir_cases (a : Int) : Direction.new a = ⟨0⟩ ∨ Direction.new a = ⟨1⟩ ∨ Direction.new a = ⟨2⟩ ∨
    Direction.new a = ⟨3⟩ ∨ Direction.new a = ⟨4⟩ ∨ Direction.new a = ⟨5⟩ ∨ Direction.new a = ⟨6⟩ ∨
    Direction.new a = ⟨7⟩ := by
  simp only [Direction.new, Direction.mk.injEq]
  omega

theorem printed_rows (l : List (String × String)) (s : String) {v : Val}
    (h : List.lookup s (l.map (fun p => (p.1, Val.dict [("type", .str p.2)]))) = some v) :
    ∃ t, (s, t) ∈ l ∧ v = .dict [("type", .str t)] := by
  induction l with
  | nil => cases h
  | cons p l ih =>
    rw [List.map_cons, List.lookup_cons] at h
    split at h
    · rename_i hp
      injection h with h
      have hp := eq_of_beq hp
      subst hp
      exact ⟨p.2, List.mem_cons_self .., h.symm⟩
    · obtain ⟨t, hm, hv⟩ := ih h
      exact ⟨t, List.mem_cons_of_mem _ hm, hv⟩

theorem nameStr_default {env : Env} (ht : env.defaults = defaultTable) {s : String}
    (hs : nameStr env (.str s) = .ok (.str s)) :
    ∃ t, (s, t) ∈ defaultNames ∧ List.lookup s env.defaults = some (.dict [("type", .str t)]) := by
  rw [nameStr] at hs
  split at hs
  · rename_i h
    cases hl : List.lookup s env.defaults with
    | none =>
      unfold Dict.getD Dict.get? at h
      rw [hl] at h
      cases h
    | some v =>
      have hl' := hl
      rw [ht] at hl'
      obtain ⟨t, hm, rfl⟩ := printed_rows _ _ hl'
      exact ⟨t, hm, rfl⟩
  · cases hs

end Verif
