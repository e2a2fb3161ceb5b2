import Verif.Proofs.LuaParse
import Verif.Proofs.LuaFuel
import Verif.Props.LuaJson
/-!
# C73: what the gatherer writes, its own reader reads back
-/
set_option autoImplicit false

namespace Verif
open Spec Lua Json

/-- Everything made of booleans, strings, numbers and tables is written without error and read back; keys of objects
that were numbers are strings afterwards. -/
theorem C73_read {num : Rat → List Char} {tonumber : List Char → Option Rat} {x : LVal} (h : Storable num tonumber x) :
    ∃ text y, stringify num 0 x = some text ∧ parseText tonumber text = some y ∧ ReadBack num x y := by
  obtain ⟨text, y, h1, h2, h3⟩ := stringify_reads h 0
  exact ⟨text, y, h1, parseText_of_reads h2, h3⟩

/-- What is read back is the value that was written exactly if no table other than a list has a number as a key. -/
theorem C73_same_iff {num : Rat → List Char} {tonumber : List Char → Option Rat} {x : LVal}
    (h : Storable num tonumber x) :
    (∃ text y, stringify num 0 x = some text ∧ parseText tonumber text = some y ∧ SameLua x y) ↔ NoNumberKeys x := by
  obtain ⟨text, y, h1, h2, h3⟩ := C73_read h
  constructor
  · rintro ⟨text', y', h1', h2', h4⟩
    rw [h1] at h1'
    cases h1'
    rw [h2] at h2'
    cases h2'
    exact h3.noNumberKeys h4 h
  · exact fun hn => ⟨text, y, h1, h2, h3.same hn h⟩

/-- A table with the only key `2` is written as an object with the key `"2"`, and comes back with a string for a key. -/
theorem C73_number_key_false {num : Rat → List Char} {tonumber : List Char → Option Rat} {q : Rat} {x : LVal}
    (hq : ExactNum num tonumber q) (h1 : q ≠ 1) (h : Storable num tonumber x) :
    ∃ text y, stringify num 0 (.table [(.num q, x)]) = some text ∧
      parseText tonumber text = some (.table [(.str (String.ofList (num q)), y)]) ∧ ReadBack num x y ∧
      ¬ SameLua (.table [(.num q, x)]) (.table [(.str (String.ofList (num q)), y)]) := by
  have hst : Storable num tonumber (.table [(.num q, x)]) := by
    refine .table _ (by simp) ?_ ?_ ?_
    · intro p hp; cases List.mem_singleton.1 hp; exact fun e => nomatch e
    · intro p hp r hr; cases List.mem_singleton.1 hp; cases hr; exact hq
    · intro p hp; cases List.mem_singleton.1 hp; exact h
  obtain ⟨text, z, e1, e2, e3⟩ := C73_read hst
  have hl : ¬ IsList [(Key.num q, x)] := by
    intro hl
    have := hl 1 (Nat.le_refl _) (Nat.le_refl _)
    simp at this
    exact h1 this.symm
  cases e3 with
  | list _ _ hl' => exact absurd hl' hl
  | object _ t' src _ hnd hk hsrc hv =>
    have hkeys : ∀ k, k ∈ t'.map (·.1) ↔ k = .str (String.ofList (num q)) := by
      intro k
      rw [hk]
      simp [asKey, eq_comm]
    match t', hnd, hkeys, hsrc, hv, e2 with
    | [], _, hkeys, _, _, _ => exact absurd ((hkeys _).2 rfl) (by simp)
    | [(k, y)], _, hkeys, hsrc, hv, e2 =>
      have hke := (hkeys k).1 (by simp)
      subst hke
      have h5 := hv _ _ List.mem_cons_self
      have h6 := (hsrc (.str (String.ofList (num q))) (by simp)).1
      rw [List.mem_singleton] at h6
      rw [h6] at h5
      refine ⟨text, y, e1, e2, h5, ?_⟩
      intro hs
      cases hs with
      | table _ _ _ hk' _ => exact absurd ((hk' (.num q)).1 (by simp)) (by simp)
    | (k, y) :: (k', y') :: t'', hnd, hkeys, _, _, _ =>
      have a := (hkeys k).1 (by simp)
      have b := (hkeys k').1 (by simp)
      rw [a, b] at hnd
      simp at hnd

/-- Every string comes back, also those that Python's reader refuses. -/
theorem C73_string (num : Rat → List Char) (tonumber : List Char → Option Rat) (s : String) :
    ∃ text, stringify num 0 (.str s) = some text ∧ parseText tonumber text = some (.str s) := by
  obtain ⟨text, y, h1, h2, h3⟩ := C73_read (num := num) (tonumber := tonumber) (.str s)
  cases h3
  exact ⟨text, h1, h2⟩

/-- The text which Python reads as `v` is read by the gatherer as the value it stands for. -/
theorem C73_both {f : FloatText} {num : Rat → List Char} {tonumber : List Char → Option Rat} {x : LVal} {v : Val}
    (h : StandsFor f num x v) (hs : Storable num tonumber x) (hn : NoNumberKeys x) :
    ∃ text y, stringify num 0 x = some text ∧ loads f text = .ok v ∧ parseText tonumber text = some y ∧ SameLua x y := by
  obtain ⟨text, y, h1, h2, h3⟩ := (C73_same_iff hs).2 hn
  obtain ⟨text', h4, h5⟩ := C58_read h
  rw [h1] at h4
  cases h4
  exact ⟨text, y, h1, h5, h2, h3⟩

/-- `nil` is written as `null`, and `null` is read as the empty table `json.null`, which is written as an object. -/
theorem C73_null (num : Rat → List Char) (tonumber : List Char → Option Rat) (tv : Nat) :
    ∃ text, stringify num tv .nil = some text ∧ parseText tonumber text = some (.table []) :=
  ⟨_, rfl, rfl⟩

/-- Reading any text ends: the bound on the number of nested and successive calls is never reached, so that the result
is the same with every larger bound. -/
theorem C73_ends (tonumber : List Char → Option Rat) (s : List Char) (n : Nat) (h : 2 * s.length + 1 ≤ n) :
    (parse tonumber n none s).bind (·.1) = parseText tonumber s := by
  unfold parseText
  rw [parse_fuel tonumber h, parse_fuel tonumber (Nat.le_succ _)]

example : (parse (fun _ => none) 1000 none "[[[[".toList).bind (·.1) = parseText (fun _ => none) "[[[[".toList :=
  C73_ends _ _ _ (by decide)

/-- A value is read from a part of the text that is not empty. -/
theorem C73_consumes {tonumber : List Char → Option Rat} {n : Nat} {stop : Option Char} {s r : List Char}
    {x : Option LVal} (h : parse tonumber n stop s = some (x, r)) : r.length < s.length :=
  (parse_lt tonumber n).1 _ _ _ _ h

namespace Sample

/-- `tostring` and `tonumber` for single digits. -/
def digitText (q : Rat) : List Char := Json.intText q.num

def digitNum (s : List Char) : Option Rat :=
  match s with
  | [c] => if c.isDigit then some (c.toNat - 48 : Nat) else none
  | _ => none

/-- Numbers, strings that need escapes, booleans as keys, lists in the wrong order, empty tables. -/
def gathered : LVal :=
  .table [(.str "a\t/\"", .table [(.num 2, .str "x\\"), (.num 1, .bool false)]), (.bool true, .table []),
    (.str "n", .num 7)]

theorem digit_exact : ExactNum digitText digitNum 7 ∧ ExactNum digitText digitNum 1 ∧ ExactNum digitText digitNum 2 := by
  have h : ∀ q : Rat, ∀ c : Char, digitText q = [c] → c.isDigit = true → digitNum [c] = some q →
      ExactNum digitText digitNum q := by
    intro q c h1 h2 h3
    rw [ExactNum, h1]
    exact ⟨⟨[], [c], [], [], rfl, .inl rfl, ⟨by simp, by simpa using h2⟩, .inl rfl, .inl rfl⟩, h3⟩
  exact ⟨h 7 '7' (by decide +kernel) (by decide) (by decide +kernel),
    h 1 '1' (by decide +kernel) (by decide) (by decide +kernel),
    h 2 '2' (by decide +kernel) (by decide) (by decide +kernel)⟩

theorem gathered_storable : Storable digitText digitNum gathered := by
  refine .table _ (by decide +kernel) (by decide +kernel) (by
    intro p hp q hq
    simp only [List.mem_cons, List.not_mem_nil, or_false] at hp
    rcases hp with rfl | rfl | rfl <;> cases hq) ?_
  intro p hp
  simp only [List.mem_cons, List.not_mem_nil, or_false] at hp
  rcases hp with rfl | rfl | rfl
  · refine .table _ (by decide +kernel) (by decide +kernel) ?_ ?_
    · intro p hp q hq
      simp only [List.mem_cons, List.not_mem_nil, or_false] at hp
      rcases hp with rfl | rfl <;> cases hq
      · exact digit_exact.2.2
      · exact digit_exact.2.1
    · intro p hp
      simp only [List.mem_cons, List.not_mem_nil, or_false] at hp
      rcases hp with rfl | rfl
      · exact .str _
      · exact .bool _
  · exact .table _ (by simp) (by simp) (by simp) (by simp)
  · exact .num _ digit_exact.1

theorem gathered_noNumberKeys : NoNumberKeys gathered := by
  refine .table _ (.inr (by
    intro p hp q hq
    simp only [List.mem_cons, List.not_mem_nil, or_false] at hp
    rcases hp with rfl | rfl | rfl <;> cases hq)) ?_
  intro p hp
  simp only [List.mem_cons, List.not_mem_nil, or_false] at hp
  rcases hp with rfl | rfl | rfl
  · refine .table _ (.inl ?_) ?_
    · intro i h1 h2
      simp at h2
      have : i = 1 ∨ i = 2 := by omega
      rcases this with rfl | rfl <;> decide +kernel
    · intro p hp
      simp only [List.mem_cons, List.not_mem_nil, or_false] at hp
      rcases hp with rfl | rfl
      · exact .str _
      · exact .bool _
  · exact .table _ (.inr (by simp)) (by simp)
  · exact .num _

end Sample

example : ∃ text y, stringify Sample.digitText 0 Sample.gathered = some text ∧
    parseText Sample.digitNum text = some y ∧ SameLua Sample.gathered y :=
  (C73_same_iff Sample.gathered_storable).2 Sample.gathered_noNumberKeys

example : ∃ text y, stringify Sample.digitText 0 (.table [(.num 2, .bool true)]) = some text ∧
    parseText Sample.digitNum text = some (.table [(.str (String.ofList (Sample.digitText 2)), y)]) ∧
    ReadBack Sample.digitText (.bool true) y ∧
    ¬ SameLua (.table [(.num 2, .bool true)]) (.table [(.str (String.ofList (Sample.digitText 2)), y)]) :=
  C73_number_key_false Sample.digit_exact.2.2 (by decide +kernel) (.bool true)

/-- What is read from the text, as it is written again. -/
def Sample.reread (s : String) : Option String :=
  ((parseText Sample.digitNum s.toList).bind (stringify Sample.digitText 0)).map String.ofList

/-- `2` and `"2"` become the same key; one of the two values is lost. -/
example : ((stringify Sample.digitText 0 (.table [(.num 2, .bool true), (.str "2", .bool false)])).map
    String.ofList).bind Sample.reread = some "{\n  \"2\" : false\n}" := by decide +kernel

/-- Read with a trailing comma, with text after the value, and not read: missing commas, colons and quotes. -/
example : Sample.reread "[1, {\"a\":2},] x" = some "[\n  1,\n  {\n    \"a\" : 2\n  }\n]" := by decide +kernel

example : Sample.reread "[1 2]" = none ∧ Sample.reread "{\"a\" 1}" = none ∧ Sample.reread "\"a" = none ∧
    Sample.reread "[1" = none ∧ Sample.reread "" = none := by decide +kernel

/-- A text that Python reads as well. -/
example (f : FloatText) : ∃ text y, stringify Sample.digitText 0 (.table [(.str "a", .bool true)]) = some text ∧
    loads f text = .ok (.dict [("a", .bool true)]) ∧ parseText Sample.digitNum text = some y ∧
    SameLua (.table [(.str "a", .bool true)]) y := by
  refine C73_both ?_ ?_ ?_
  · exact .object _ _ rfl (by simp) (by simp [Printable]) (by simp; exact .bool true)
  · exact .table _ (by simp) (by simp) (by simp) (by simp; exact .bool true)
  · exact .table _ (.inr (by simp)) (by simp; exact .bool true)

end Verif
