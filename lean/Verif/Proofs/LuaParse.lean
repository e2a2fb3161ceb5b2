import Verif.Spec.LuaParse
import Verif.Proofs.LuaJson
import Mathlib.Data.List.TakeDrop
import Mathlib.Tactic.Choose
/-!
# Helper lemmas: `json.parse` reads what `json.stringify` writes
-/
set_option autoImplicit false

namespace Verif.Lua
open Spec

/-! ## Characters -/

theorem digit_not_space {c : Char} (h : c.isDigit = true) : isSpace c = false := by
  cases hw : isSpace c with
  | false => rfl
  | true =>
    simp only [isSpace, Bool.or_eq_true, decide_eq_true_eq] at hw
    rcases hw with ((((rfl | rfl) | rfl) | rfl) | rfl) | rfl <;> exact absurd h (by decide)

theorem skipSpace_all {ws : List Char} (h : ∀ c ∈ ws, isSpace c = true) (r : List Char) :
    skipSpace (ws ++ r) = skipSpace r := by
  unfold skipSpace
  exact List.dropWhile_append_of_pos h

theorem skipSpace_cons {c : Char} (h : isSpace c = false) (r : List Char) : skipSpace (c :: r) = c :: r := by
  unfold skipSpace
  rw [List.dropWhile_cons_of_neg (by rw [h]; simp)]

theorem parse_skip (tn : List Char → Option Rat) {ws : List Char} (h : ∀ c ∈ ws, isSpace c = true) (n : Nat)
    (e : Option Char) (r : List Char) : parse tn n e (ws ++ r) = parse tn n e r := by
  cases n with
  | zero => rw [parse, parse]
  | succ n => rw [parse, parse, skipSpace_all h]

theorem parseArr_skip (tn : List Char → Option Rat) {ws : List Char} (h : ∀ c ∈ ws, isSpace c = true) (n : Nat)
    (a : List LVal) (b : Bool) (r : List Char) : parseArr tn n a b (ws ++ r) = parseArr tn n a b r := by
  cases n with
  | zero => rw [parseArr, parseArr]
  | succ n => rw [parseArr, parseArr, parse_skip tn h]

theorem parseObj_skip (tn : List Char → Option Rat) {ws : List Char} (h : ∀ c ∈ ws, isSpace c = true) (n : Nat)
    (a : List (Key × LVal)) (b : Bool) (r : List Char) : parseObj tn n a b (ws ++ r) = parseObj tn n a b r := by
  cases n with
  | zero => rw [parseObj, parseObj]
  | succ n => rw [parseObj, parseObj, parse_skip tn h]

theorem space_tabs (n : Nat) : ∀ c ∈ tabs n, isSpace c = true := by
  intro c hc
  rw [List.eq_of_mem_replicate hc]
  rfl

theorem space_nl_tabs (n : Nat) : ∀ c ∈ '\n' :: tabs n, isSpace c = true := by
  intro c hc
  rcases List.mem_cons.1 hc with rfl | hc
  · decide
  · exact space_tabs n c hc

/-! ## Strings -/

theorem parseStr_esc (c : Char) (r : List Char) :
    parseStr (esc c ++ r) = (parseStr r).map (fun p => (c :: p.1, p.2)) := by
  unfold esc
  repeat' (split; · rename_i h; subst h; rfl)
  rename_i h1 h2 h3 h4 h5 h6 h7 h8
  rw [List.singleton_append, parseStr.eq_def]
  split
  · rename_i e; cases e
  · rename_i e; cases e; exact absurd rfl h2
  · rename_i e; cases e; exact absurd rfl h1
  · rename_i e; cases e; exact absurd rfl h1
  · rename_i e; cases e; rfl

theorem parseStr_escaped (s r : List Char) : parseStr (escapeStr s ++ '"' :: r) = some (s, r) := by
  rw [escapeStr_eq]
  induction s with
  | nil => rfl
  | cons c s ih => rw [List.flatMap_cons, List.append_assoc, parseStr_esc, ih]; rfl

theorem parseStr_plain {s : List Char} (h : ∀ c ∈ s, c ≠ '"' ∧ c ≠ '\\') (r : List Char) :
    parseStr (s ++ '"' :: r) = some (s, r) := by
  induction s with
  | nil => rfl
  | cons c s ih =>
    have hc := h c List.mem_cons_self
    rw [List.cons_append, parseStr.eq_def]
    split
    · rename_i e; cases e
    · rename_i e; cases e; exact absurd rfl hc.1
    · rename_i e; exact absurd (List.cons.inj e).1 hc.2
    · rename_i e; exact absurd (List.cons.inj e).1 hc.2
    · rename_i e; cases e; rw [ih (fun c hc => h c (List.mem_cons_of_mem _ hc))]; rfl

/-! ## Numbers -/

/-- What may follow a value. -/
def After (r : List Char) : Prop := ∀ c ∈ r.head?, c = ',' ∨ c = ' ' ∨ c = '\n'

theorem span_digits {ds r : List Char} (h : ∀ x ∈ ds, x.isDigit = true) (hr : ∀ c ∈ r.head?, c.isDigit = false) :
    (ds ++ r).span Char.isDigit = (ds, r) := by
  rw [List.span_eq_takeWhile_dropWhile, List.takeWhile_append_of_pos h, List.dropWhile_append_of_pos h]
  cases r with
  | nil => simp
  | cons c r =>
    have := hr c rfl
    rw [List.takeWhile_cons_of_neg (by rw [this]; simp), List.dropWhile_cons_of_neg (by rw [this]; simp), List.append_nil]

theorem optional_none {p : Char → Bool} {r : List Char} (h : ∀ c ∈ r.head?, p c = false) : optional p r = ([], r) := by
  cases r with
  | nil => rfl
  | cons c r => rw [optional, h c rfl]; rfl

theorem head?_append_of {a r : List Char} {P : Char → Prop} (ha : ∀ c ∈ a.head?, P c) (hr : a = [] → ∀ c ∈ r.head?, P c) :
    ∀ c ∈ (a ++ r).head?, P c := by
  cases a with
  | nil => exact hr rfl
  | cons x a => exact ha

theorem After.not {r : List Char} (h : After r) {p : Char → Bool} (h1 : p ',' = false) (h2 : p ' ' = false)
    (h3 : p '\n' = false) : ∀ c ∈ r.head?, p c = false := by
  intro c hc
  rcases h c hc with rfl | rfl | rfl <;> assumption

theorem matchNum_numeral {l r : List Char} (h : Numeral l) (hr : After r) : matchNum (l ++ r) = some (l, r) := by
  obtain ⟨sg, i, fr, ex, rfl, hsg, ⟨hi0, hi⟩, hfr, hex⟩ := h
  -- the exponent
  have he : ∀ p : Char → Bool, p 'e' = false → p 'E' = false → p ',' = false → p ' ' = false → p '\n' = false →
      ∀ c ∈ (ex ++ r).head?, p c = false := by
    intro p e1 e2 e3 e4 e5
    rcases hex with rfl | ⟨c, s, ds, rfl, hc, -, -⟩
    · exact hr.not e3 e4 e5
    · intro x hx
      cases hx
      rcases hc with rfl | rfl <;> assumption
  have hf : ∀ p : Char → Bool, p '.' = false → p 'e' = false → p 'E' = false → p ',' = false → p ' ' = false →
      p '\n' = false → ∀ c ∈ (fr ++ (ex ++ r)).head?, p c = false := by
    intro p e0 e1 e2 e3 e4 e5
    rcases hfr with rfl | ⟨ds, rfl, -⟩
    · exact he p e1 e2 e3 e4 e5
    · intro x hx
      cases hx
      exact e0
  have hI : ∀ c ∈ (i ++ (fr ++ (ex ++ r))).head?, decide (c = '-') = false := by
    cases i with
    | nil => exact absurd rfl hi0
    | cons d i =>
      intro x hx
      cases hx
      have := hi d List.mem_cons_self
      cases hd : decide (d = '-') with
      | false => rfl
      | true => rw [of_decide_eq_true hd] at this; exact absurd this (by decide)
  have hsign : optional (· = '-') (sg ++ (i ++ (fr ++ (ex ++ r)))) = (sg, i ++ (fr ++ (ex ++ r))) := by
    rcases hsg with rfl | rfl
    · exact optional_none hI
    · rfl
  have hwhole : (i ++ (fr ++ (ex ++ r))).span Char.isDigit = (i, fr ++ (ex ++ r)) :=
    span_digits hi (hf Char.isDigit rfl rfl rfl rfl rfl rfl)
  have hexp : ∃ a b c, ex = a ++ (b ++ c) ∧
      optional (fun c => c = 'e' || c = 'E') (ex ++ r) = (a, b ++ (c ++ r)) ∧
      optional (fun c => c = '+' || c = '-') (b ++ (c ++ r)) = (b, c ++ r) ∧ (c ++ r).span Char.isDigit = (c, r) := by
    have hd : ∀ c ∈ r.head?, Char.isDigit c = false := hr.not rfl rfl rfl
    rcases hex with rfl | ⟨c, s, ds, rfl, hc, hs, hds0, hds⟩
    · exact ⟨[], [], [], rfl, optional_none (hr.not rfl rfl rfl), optional_none (hr.not rfl rfl rfl),
        span_digits (by simp) hd⟩
    · refine ⟨[c], s, ds, by simp, ?_, ?_, span_digits hds hd⟩
      · rcases hc with rfl | rfl <;> simp [optional]
      · rcases hs with rfl | rfl | rfl
        · refine optional_none ?_
          cases ds with
          | nil => exact absurd rfl hds0
          | cons d ds =>
            intro x hx
            cases hx
            have := hds d List.mem_cons_self
            cases hd : (decide (d = '+') || decide (d = '-')) with
            | false => rfl
            | true =>
              rw [Bool.or_eq_true, decide_eq_true_eq, decide_eq_true_eq] at hd
              rcases hd with rfl | rfl <;> exact absurd this (by decide)
        · rfl
        · rfl
  obtain ⟨a, b, c, rfl, x1, x2, x3⟩ := hexp
  have hne : i.isEmpty = false := by
    cases i with
    | nil => exact absurd rfl hi0
    | cons _ _ => rfl
  have hfrac : ∃ d ds, fr = d ++ ds ∧ optional (· = '.') (fr ++ ((a ++ (b ++ c)) ++ r)) = (d, ds ++ ((a ++ (b ++ c)) ++ r)) ∧
      (ds ++ ((a ++ (b ++ c)) ++ r)).span Char.isDigit = (ds, (a ++ (b ++ c)) ++ r) := by
    have hd := he Char.isDigit rfl rfl rfl rfl rfl
    rcases hfr with rfl | ⟨ds, rfl, -, hds⟩
    · exact ⟨[], [], rfl, optional_none (he _ rfl rfl rfl rfl rfl), span_digits (by simp) hd⟩
    · exact ⟨['.'], ds, rfl, rfl, span_digits hds hd⟩
  obtain ⟨d, ds, rfl, y1, y2⟩ := hfrac
  have e : sg ++ (i ++ ((d ++ ds) ++ (a ++ (b ++ c)))) ++ r = sg ++ (i ++ ((d ++ ds) ++ ((a ++ (b ++ c)) ++ r))) := by simp
  unfold matchNum
  rw [e, hsign]
  dsimp only
  rw [hwhole]
  dsimp only
  rw [hne, y1]
  dsimp only
  rw [y2]
  dsimp only
  rw [x1]
  dsimp only
  rw [x2]
  dsimp only
  rw [x3]
  simp

theorem numeral_head {l : List Char} (h : Numeral l) : ∃ c t, l = c :: t ∧ (c = '-' ∨ c.isDigit = true) := by
  obtain ⟨sg, i, fr, ex, rfl, hsg, ⟨hi0, hi⟩, -, -⟩ := h
  rcases hsg with rfl | rfl
  · cases i with
    | nil => exact absurd rfl hi0
    | cons d i => exact ⟨d, _, rfl, .inr (hi d List.mem_cons_self)⟩
  · exact ⟨'-', _, rfl, .inl rfl⟩

theorem numeral_plain {l : List Char} (h : Numeral l) : ∀ c ∈ l, c ≠ '"' ∧ c ≠ '\\' := by
  have dig : ∀ c : Char, c.isDigit = true → c ≠ '"' ∧ c ≠ '\\' := by
    intro c hc
    constructor <;> rintro rfl <;> exact absurd hc (by decide)
  obtain ⟨sg, i, fr, ex, rfl, hsg, ⟨-, hi⟩, hfr, hex⟩ := h
  intro c hc
  simp only [List.mem_append] at hc
  rcases hc with hc | hc | hc | hc
  · rcases hsg with rfl | rfl
    · cases hc
    · rw [List.mem_singleton.1 hc]; decide
  · exact dig c (hi c hc)
  · rcases hfr with rfl | ⟨ds, rfl, -, hds⟩
    · cases hc
    · rcases List.mem_cons.1 hc with rfl | hc
      · decide
      · exact dig c (hds c hc)
  · rcases hex with rfl | ⟨e, s, ds, rfl, he, hs, -, hds⟩
    · cases hc
    · simp only [List.cons_append, List.mem_cons, List.mem_append] at hc
      rcases hc with rfl | hc | hc
      · rcases he with rfl | rfl <;> decide
      · rcases hs with rfl | rfl | rfl
        · cases hc
        · rw [List.mem_singleton.1 hc]; decide
        · rw [List.mem_singleton.1 hc]; decide
      · exact dig c (hds c hc)

/-! ## Values -/

/-- The text starts a value and is read as `v`, whichever delimiter is waited for. -/
structure Reads (tn : List Char → Option Rat) (text : List Char) (v : LVal) : Prop where
  head : ∃ c t, text = c :: t ∧ isSpace c = false ∧ c ≠ ']' ∧ c ≠ '}' ∧ c ≠ ',' ∧ c ≠ ':'
  scan : ∀ n e r, (∀ c ∈ e, c = ']' ∨ c = '}') → After r → text.length ≤ n → parse tn n e (text ++ r) = some (some v, r)

theorem reads_str {tn : List Char → Option Rat} {t s : List Char} (h : ∀ r, parseStr (t ++ '"' :: r) = some (s, r)) :
    Reads tn (quote t) (.str (String.ofList s)) where
  head := ⟨'"', _, rfl, by decide, by decide, by decide, by decide, by decide⟩
  scan n e r he _ hn := by
    cases n with
    | zero => simp [quote] at hn
    | succ n =>
      unfold quote
      rw [List.cons_append, List.append_assoc, parse, skipSpace_cons (by decide)]
      dsimp only
      rw [if_neg (by decide), if_neg (by decide), if_pos rfl, List.singleton_append, h r]
      rfl

theorem reads_num {tn : List Char → Option Rat} {t : List Char} {q : Rat} (h : Numeral t) (hq : tn t = some q) :
    Reads tn t (.num q) := by
  obtain ⟨c, t', rfl, hc⟩ := numeral_head h
  have hne : ∀ d : Char, d ≠ '-' → d.isDigit = false → c ≠ d := by
    rintro d h1 h2 rfl
    rcases hc with rfl | hc
    · exact h1 rfl
    · rw [hc] at h2; cases h2
  have hs : isSpace c = false := by
    rcases hc with rfl | hc
    · decide
    · exact digit_not_space hc
  refine ⟨⟨c, t', rfl, hs, hne _ (by decide) (by decide), hne _ (by decide) (by decide), hne _ (by decide) (by decide),
    hne _ (by decide) (by decide)⟩, fun n e r _ hr hn => ?_⟩
  cases n with
  | zero => simp at hn
  | succ n =>
    rw [List.cons_append, parse, skipSpace_cons hs]
    dsimp only
    rw [if_neg (hne _ (by decide) (by decide)), if_neg (hne _ (by decide) (by decide)),
      if_neg (hne _ (by decide) (by decide)), if_pos, parseNum, ← List.cons_append, matchNum_numeral h hr]
    · simp [hq]
    · rcases hc with rfl | hc
      · decide
      · rw [hc]; simp

theorem reads_bool (tn : List Char → Option Rat) (b : Bool) :
    Reads tn (if b then ['t', 'r', 'u', 'e'] else ['f', 'a', 'l', 's', 'e']) (.bool b) where
  head := by cases b <;> exact ⟨_, _, rfl, by decide, by decide, by decide, by decide, by decide⟩
  scan n e r he _ hn := by
    cases n with
    | zero => cases b <;> simp at hn
    | succ n =>
      have h : ∀ c : Char, c ≠ ']' → c ≠ '}' → ¬ some c = e := by
        rintro c h1 h2 rfl
        rcases he c rfl with h | h
        · exact h1 h
        · exact h2 h
      cases b
      · show parse tn (n + 1) e ('f' :: 'a' :: 'l' :: 's' :: 'e' :: r) = _
        rw [parse, skipSpace_cons (by decide)]
        dsimp only
        rw [if_neg (by decide), if_neg (by decide), if_neg (by decide), if_neg (by decide),
          if_neg (h _ (by decide) (by decide))]
        rfl
      · show parse tn (n + 1) e ('t' :: 'r' :: 'u' :: 'e' :: r) = _
        rw [parse, skipSpace_cons (by decide)]
        dsimp only
        rw [if_neg (by decide), if_neg (by decide), if_neg (by decide), if_neg (by decide),
          if_neg (h _ (by decide) (by decide))]
        rfl

theorem skipDelim_found {ws : List Char} (hw : ∀ c ∈ ws, isSpace c = true) {d : Char} (hd : isSpace d = false)
    (r : List Char) : skipDelim d (ws ++ d :: r) = (r, true) := by
  unfold skipDelim
  rw [skipSpace_all hw, skipSpace_cons hd]
  simp

theorem skipDelim_missing {ws : List Char} (hw : ∀ c ∈ ws, isSpace c = true) {d c : Char} (hc : isSpace c = false)
    (hne : c ≠ d) (r : List Char) : skipDelim d (ws ++ c :: r) = (c :: r, false) := by
  unfold skipDelim
  rw [skipSpace_all hw, skipSpace_cons hc]
  simp [hne]

theorem parse_stop (tn : List Char → Option Rat) (n : Nat) {d : Char} (h : d = ']' ∨ d = '}') (r : List Char) :
    parse tn (n + 1) (some d) (d :: r) = some (none, r) := by
  rcases h with rfl | rfl <;>
  · rw [parse, skipSpace_cons (by decide)]
    rfl

theorem parseArr_join {tn : List Char → Option Rat} {ws ws' : List Char} (hw : ∀ c ∈ ws, isSpace c = true)
    (hw' : ∀ c ∈ ws', isSpace c = true) {x : List Char} {v : LVal} {ts : List (List Char)} {vs : List LVal}
    (h : Reads tn x v) (hs : List.Forall₂ (Reads tn) ts vs) (n : Nat) (acc : List LVal) (r : List Char)
    (hn : (x ++ (ts.flatMap (fun y => (',' :: ws) ++ y))).length + 1 < n) :
    parseArr tn n acc true (x ++ (ts.flatMap (fun y => (',' :: ws) ++ y) ++ '\n' :: (ws' ++ ']' :: r))) =
      some (some (.table (arrayFrom 1 (acc ++ v :: vs))), r) := by
  induction hs generalizing x v n acc with
  | nil =>
    cases n with
    | zero => omega
    | succ n =>
      cases n with
      | zero => omega
      | succ n =>
      rw [parseArr, h.scan _ _ _ (by simp) (by intro c hc; cases hc; simp) (by simp at hn; omega)]
      have e : skipDelim ',' ('\n' :: (ws' ++ ']' :: r)) = (']' :: r, false) :=
        skipDelim_missing (ws := '\n' :: ws') (by
          intro c hc
          rcases List.mem_cons.1 hc with rfl | hc
          · decide
          · exact hw' c hc) (by decide) (by decide) r
      simp only [List.flatMap_nil, List.nil_append, e, Bool.not_true, Bool.false_eq_true, if_false]
      rw [parseArr]
      cases n with
      | zero =>
        obtain ⟨c, t, rfl, -⟩ := h.head
        simp at hn
        omega
      | succ n => rw [parse_stop tn n (.inl rfl)]
  | cons h1 _ ih =>
    rename_i y u ts us _
    cases n with
    | zero => omega
    | succ n =>
      rw [List.flatMap_cons] at hn ⊢
      simp only [List.length_append, List.length_cons] at hn
      have e : ((',' :: ws) ++ y ++ ts.flatMap (fun y => (',' :: ws) ++ y)) ++ '\n' :: (ws' ++ ']' :: r) =
          [] ++ ',' :: (ws ++ (y ++ (ts.flatMap (fun y => (',' :: ws) ++ y) ++ '\n' :: (ws' ++ ']' :: r)))) := by simp
      rw [e, parseArr, h.scan _ _ _ (by simp) (by intro c hc; cases hc; simp) (by omega)]
      simp only [skipDelim_found (ws := []) (by simp) (show isSpace ',' = false by decide), Bool.not_true,
        Bool.false_eq_true, if_false]
      rw [parseArr_skip tn hw, ih h1 n (acc ++ [v]) (by simp only [List.length_append, List.length_cons] at hn ⊢; omega)]
      simp

theorem reads_array {tn : List Char → Option Rat} {tv : Nat} {ts : List (List Char)} {vs : List LVal} (h0 : ts ≠ [])
    (h : List.Forall₂ (Reads tn) ts vs) : Reads tn (block '[' ']' tv ts) (.table (arrayFrom 1 vs)) where
  head := ⟨_, _, rfl, by decide, by decide, by decide, by decide, by decide⟩
  scan n e r _ _ hn := by
    cases h with
    | nil => exact absurd rfl h0
    | cons h1 h2 =>
      rename_i x v ts vs
      cases n with
      | zero => simp [block] at hn
      | succ n =>
        have e' : block '[' ']' tv (x :: ts) ++ r = '[' :: (('\n' :: tabs (tv + 1)) ++ (x ++
            (ts.flatMap (fun y => (',' :: ('\n' :: tabs (tv + 1))) ++ y) ++ '\n' :: (tabs tv ++ ']' :: r)))) := by
          unfold block joinWith; simp
        rw [e', parse, skipSpace_cons (by decide)]
        dsimp only
        rw [if_neg (by decide), if_pos rfl, parseArr_skip tn (space_nl_tabs _),
          parseArr_join (space_nl_tabs (tv + 1)) (space_tabs tv) h1 h2 n [] r (by
          unfold block joinWith at hn
          simp only [List.length_cons, List.length_append, List.cons_append] at hn ⊢
          omega)]
        rfl

/-- `t` is the text of a key with its value. -/
def PairReads (tn : List Char → Option Rat) (t : List Char) (p : LVal × LVal) : Prop :=
  ∃ k x, t = k ++ (' ' :: ':' :: ' ' :: x) ∧ Reads tn k p.1 ∧ Reads tn x p.2

/-- The pairs, set one after the other. -/
def setKeys (obj : List (Key × LVal)) (l : List (LVal × LVal)) : List (Key × LVal) :=
  l.foldl (fun o p => setKey o (keyOf p.1) p.2) obj

theorem parseObj_join {tn : List Char → Option Rat} {ws ws' : List Char} (hw : ∀ c ∈ ws, isSpace c = true)
    (hw' : ∀ c ∈ ws', isSpace c = true) {y : List Char} {p : LVal × LVal} {ts : List (List Char)}
    {ps : List (LVal × LVal)} (h : PairReads tn y p) (hs : List.Forall₂ (PairReads tn) ts ps) (n : Nat)
    (obj : List (Key × LVal)) (r : List Char) (hn : (y ++ (ts.flatMap (fun y => (',' :: ws) ++ y))).length + 1 < n) :
    parseObj tn n obj true (y ++ (ts.flatMap (fun y => (',' :: ws) ++ y) ++ '\n' :: (ws' ++ '}' :: r))) =
      some (some (.table (setKeys obj (p :: ps))), r) := by
  induction hs generalizing y p n obj with
  | nil =>
    obtain ⟨k, x, rfl, hk, hx⟩ := h
    cases n with
    | zero => omega
    | succ n =>
      cases n with
      | zero => omega
      | succ n =>
      simp only [List.length_append, List.length_cons, List.flatMap_nil, List.length_nil] at hn
      have e' : (k ++ (' ' :: ':' :: ' ' :: x)) ++ (List.flatMap (fun y => (',' :: ws) ++ y) [] ++ '\n' :: (ws' ++ '}' :: r)) =
          k ++ ([' '] ++ ':' :: ([' '] ++ (x ++ '\n' :: (ws' ++ '}' :: r)))) := by simp
      rw [e', parseObj, hk.scan _ _ _ (by simp) (by intro c hc; cases hc; simp) (by omega)]
      simp only [skipDelim_found (ws := [' ']) (by simp [isSpace]) (show isSpace ':' = false by decide), Bool.not_true,
        Bool.false_eq_true, if_false]
      rw [parse_skip tn (ws := [' ']) (by simp [isSpace]),
        hx.scan _ _ _ (by simp) (by intro c hc; cases hc; simp) (by omega)]
      have e : skipDelim ',' ('\n' :: (ws' ++ '}' :: r)) = ('}' :: r, false) :=
        skipDelim_missing (ws := '\n' :: ws') (by
          intro c hc
          rcases List.mem_cons.1 hc with rfl | hc
          · decide
          · exact hw' c hc) (by decide) (by decide) r
      simp only [e]
      rw [parseObj]
      cases n with
      | zero => omega
      | succ n => rw [parse_stop tn n (.inr rfl)]; rfl
  | cons h1 _ ih =>
    rename_i y' p' ts us _
    obtain ⟨k, x, rfl, hk, hx⟩ := h
    cases n with
    | zero => omega
    | succ n =>
      rw [List.flatMap_cons] at hn ⊢
      simp only [List.length_append, List.length_cons] at hn
      have e' : (k ++ (' ' :: ':' :: ' ' :: x)) ++ (((',' :: ws) ++ y' ++ ts.flatMap (fun y => (',' :: ws) ++ y)) ++
            '\n' :: (ws' ++ '}' :: r)) =
          k ++ ([' '] ++ ':' :: ([' '] ++ (x ++ ([] ++ ',' :: (ws ++ (y' ++
            (ts.flatMap (fun y => (',' :: ws) ++ y) ++ '\n' :: (ws' ++ '}' :: r)))))))) := by simp
      rw [e', parseObj, hk.scan _ _ _ (by simp) (by intro c hc; cases hc; simp) (by omega)]
      simp only [skipDelim_found (ws := [' ']) (by simp [isSpace]) (show isSpace ':' = false by decide), Bool.not_true,
        Bool.false_eq_true, if_false]
      rw [parse_skip tn (ws := [' ']) (by simp [isSpace]),
        hx.scan _ _ _ (by simp) (by intro c hc; cases hc; simp) (by omega)]
      simp only [skipDelim_found (ws := []) (by simp) (show isSpace ',' = false by decide)]
      rw [parseObj_skip tn hw, ih h1 n _ (by simp only [List.length_append, List.length_cons] at hn ⊢; omega)]
      rfl

theorem reads_object {tn : List Char → Option Rat} {tv : Nat} {ts : List (List Char)} {ps : List (LVal × LVal)}
    (h : List.Forall₂ (PairReads tn) ts ps) : Reads tn (block '{' '}' tv ts) (.table (setKeys [] ps)) where
  head := ⟨_, _, rfl, by decide, by decide, by decide, by decide, by decide⟩
  scan n e r _ _ hn := by
    cases n with
    | zero => simp [block] at hn
    | succ n =>
      cases h with
      | nil =>
        have e' : block '{' '}' tv [] ++ r = '{' :: (('\n' :: tabs (tv + 1)) ++ (('\n' :: tabs tv) ++ '}' :: r)) := by
          unfold block joinWith; simp
        rw [e', parse, skipSpace_cons (by decide)]
        dsimp only
        rw [if_pos rfl, parseObj_skip tn (space_nl_tabs _), parseObj_skip tn (space_nl_tabs _)]
        simp only [block, joinWith, List.length_cons, List.length_append] at hn
        obtain ⟨n, rfl⟩ : ∃ m, n = m + 2 := ⟨n - 2, by omega⟩
        rw [parseObj, parse_stop tn n (.inr rfl)]
        rfl
      | cons h1 h2 =>
        rename_i x v ts vs
        have e' : block '{' '}' tv (x :: ts) ++ r = '{' :: (('\n' :: tabs (tv + 1)) ++ (x ++
            (ts.flatMap (fun y => (',' :: ('\n' :: tabs (tv + 1))) ++ y) ++ '\n' :: (tabs tv ++ '}' :: r)))) := by
          unfold block joinWith; simp
        rw [e', parse, skipSpace_cons (by decide)]
        dsimp only
        rw [if_pos rfl, parseObj_skip tn (space_nl_tabs _),
          parseObj_join (space_nl_tabs (tv + 1)) (space_tabs tv) h1 h2 n [] r (by
          unfold block joinWith at hn
          simp only [List.length_cons, List.length_append, List.cons_append] at hn ⊢
          omega)]

/-! ## Tables -/

theorem setKey_keys (t : List (Key × LVal)) (k : Key) (v : LVal) (l : Key) :
    l ∈ (setKey t k v).map (·.1) ↔ l ∈ t.map (·.1) ∨ l = k := by
  induction t with
  | nil => simp [setKey]
  | cons p t ih =>
    obtain ⟨m, u⟩ := p
    rw [setKey]
    split
    · rename_i e; subst e; simp only [List.map_cons, List.mem_cons]; grind
    · simp only [List.map_cons, List.mem_cons, ih]; grind

theorem setKey_nodup {t : List (Key × LVal)} (h : (t.map (·.1)).Nodup) (k : Key) (v : LVal) :
    ((setKey t k v).map (·.1)).Nodup := by
  induction t with
  | nil => simp [setKey]
  | cons p t ih =>
    obtain ⟨m, u⟩ := p
    rw [List.map_cons, List.nodup_cons] at h
    rw [setKey]
    split
    · rw [List.map_cons, List.nodup_cons]; exact h
    · rename_i hne
      rw [List.map_cons, List.nodup_cons]
      refine ⟨fun hm => ?_, ih h.2⟩
      rcases (setKey_keys _ _ _ _).1 hm with hm | hm
      · exact h.1 hm
      · exact hne hm

theorem setKey_mem {t : List (Key × LVal)} {k : Key} {v : LVal} {p : Key × LVal} (h : p ∈ setKey t k v) :
    p ∈ t ∨ p = (k, v) := by
  induction t with
  | nil => simp only [setKey, List.mem_singleton] at h; exact .inr h
  | cons q t ih =>
    obtain ⟨m, u⟩ := q
    rw [setKey] at h
    split at h
    · rename_i e
      subst e
      rcases List.mem_cons.1 h with h | h
      · exact .inr h
      · exact .inl (List.mem_cons_of_mem _ h)
    · rcases List.mem_cons.1 h with h | h
      · exact .inl (h ▸ List.mem_cons_self)
      · rcases ih h with h | h
        · exact .inl (List.mem_cons_of_mem _ h)
        · exact .inr h

theorem setKeys_keys (obj : List (Key × LVal)) (l : List (LVal × LVal)) (k : Key) :
    k ∈ (setKeys obj l).map (·.1) ↔ k ∈ obj.map (·.1) ∨ ∃ p ∈ l, keyOf p.1 = k := by
  induction l generalizing obj with
  | nil => simp [setKeys]
  | cons p l ih =>
    rw [setKeys, List.foldl_cons]
    have := ih (setKey obj (keyOf p.1) p.2)
    rw [setKeys] at this
    rw [this, setKey_keys]
    simp only [List.mem_cons, exists_eq_or_imp]
    grind

theorem setKeys_nodup {obj : List (Key × LVal)} (h : (obj.map (·.1)).Nodup) (l : List (LVal × LVal)) :
    ((setKeys obj l).map (·.1)).Nodup := by
  induction l generalizing obj with
  | nil => exact h
  | cons p l ih => exact ih (setKey_nodup h _ _)

theorem setKeys_mem {obj : List (Key × LVal)} {l : List (LVal × LVal)} {q : Key × LVal} (h : q ∈ setKeys obj l) :
    q ∈ obj ∨ ∃ p ∈ l, q = (keyOf p.1, p.2) := by
  induction l generalizing obj with
  | nil => exact .inl h
  | cons p l ih =>
    rcases ih h with h | ⟨p', h1, h2⟩
    · rcases setKey_mem h with h | h
      · exact .inl h
      · exact .inr ⟨p, List.mem_cons_self, h⟩
    · exact .inr ⟨p', List.mem_cons_of_mem _ h1, h2⟩

theorem arrayFrom_eq (i : Nat) (xs : List LVal) : arrayFrom i xs = tableFrom i xs := by
  induction xs generalizing i with
  | nil => rfl
  | cons x xs ih => rw [arrayFrom, tableFrom, ih]

theorem tableFrom_of_mem {xs : List LVal} {i : Nat} {p : Key × LVal} (h : p ∈ tableFrom i xs) :
    ∃ j, ∃ hj : j < xs.length, p = (.num ((i + j : Nat) : Rat), xs[j]) := by
  induction xs generalizing i with
  | nil => cases h
  | cons x xs ih =>
    rw [tableFrom, List.mem_cons] at h
    rcases h with rfl | h
    · exact ⟨0, by simp, rfl⟩
    · obtain ⟨j, hj, rfl⟩ := ih h
      refine ⟨j + 1, by simpa using hj, ?_⟩
      rw [show i + 1 + j = i + (j + 1) by omega]
      rfl

theorem num_keys_nodup (i n : Nat) : ((List.range' i n).map (fun n : Nat => Key.num (n : Rat))).Nodup := by
  refine List.Nodup.map ?_ (List.nodup_range')
  intro a b hab
  injection hab with hab
  exact Rat.natCast_inj.1 hab

/-- A list has no other keys. -/
theorem isList_keys {α : Type} {t : List (Key × α)} (h : IsList t) :
    ((List.range' 1 t.length).map (fun n : Nat => Key.num (n : Rat))).Perm (t.map (·.1)) := by
  refine (List.subperm_of_subset (num_keys_nodup _ _) ?_).perm_of_length_le ?_
  · intro k hk
    obtain ⟨i, hi, rfl⟩ := List.mem_map.1 hk
    rw [List.mem_range'] at hi
    obtain ⟨j, hj, rfl⟩ := hi
    exact h _ (by omega) (by omega)
  · simp

theorem kindLoop_some {α : Type} {obj : List (Key × α)} {l : List (Key × α)} {i j : Nat} (h : kindLoop obj i l = some j) :
    ∀ m, i ≤ m → m < i + l.length → Key.num (m : Rat) ∈ obj.map (·.1) := by
  induction l generalizing i with
  | nil => intro m h1 h2; simp at h2; omega
  | cons p l ih =>
    rw [kindLoop] at h
    split at h
    · rename_i hg
      intro m h1 h2
      by_cases e : m = i
      · subst e
        obtain ⟨v, hv⟩ := Option.isSome_iff_exists.1 hg
        exact List.mem_map.2 ⟨_, mem_of_get? hv, rfl⟩
      · exact ih h m (by omega) (by simp at h2; omega)
    · cases h

/-- `kind_of` says `'array'` for the lists that are not empty. -/
theorem isArray_iff {α : Type} {t : List (Key × α)} (hnd : (t.map (·.1)).Nodup) : isArray t = true ↔ t ≠ [] ∧ IsList t := by
  constructor
  · intro h
    unfold isArray at h
    split at h
    · rename_i i hk
      refine ⟨?_, fun m h1 h2 => kindLoop_some hk m h1 (by omega)⟩
      rintro rfl
      cases hk
      simp at h
    · cases h
  · rintro ⟨h0, h⟩
    have hg : ∀ i : Nat, i < t.length → ∃ v, (Key.num ((i + 1 : Nat) : Rat), v) ∈ t := by
      intro i hi
      obtain ⟨⟨k, v⟩, h1, h2⟩ := List.mem_map.1 (h (i + 1) (by omega) (by omega))
      dsimp only at h2
      exact ⟨v, h2 ▸ h1⟩
    unfold isArray
    rw [kindLoop_array t 1 (fun j h1 h2 => by
      obtain ⟨i, rfl⟩ : ∃ i, j = i + 1 := ⟨j - 1, by omega⟩
      obtain ⟨v, hv⟩ := hg i (by omega)
      rw [get?_of_mem hnd hv]
      rfl)]
    have : t.length ≠ 0 := fun e => h0 (List.length_eq_zero_iff.1 e)
    exact decide_eq_true (by omega)

/-- The key, written and read as a value. -/
def keyBack (num : Rat → List Char) : Key → LVal
  | .str s => .str s
  | .num q => .str (String.ofList (num q))
  | .bool b => .bool b
  | .other => .other

theorem keyOf_keyBack (num : Rat → List Char) (k : Key) : keyOf (keyBack num k) = asKey num k := by cases k <;> rfl

theorem key_reads {num : Rat → List Char} {tn : List Char → Option Rat} {k : Key} (h : k ≠ .other)
    (hq : ∀ q, k = .num q → ExactNum num tn q) : ∃ text, keyText num k = some text ∧ Reads tn text (keyBack num k) := by
  cases k with
  | str s =>
    refine ⟨_, rfl, ?_⟩
    have := reads_str (tn := tn) (fun r => parseStr_escaped s.toList r)
    rw [String.ofList_toList] at this
    exact this
  | num q => exact ⟨_, rfl, reads_str (fun r => parseStr_plain (numeral_plain (hq q rfl).1) r)⟩
  | bool b =>
    cases b
    · exact ⟨_, rfl, reads_bool tn false⟩
    · exact ⟨_, rfl, reads_bool tn true⟩
  | other => exact absurd rfl h

theorem pairs_read {num : Rat → List Char} {tn : List Char → Option Rat} {t : List (Key × LVal)} {X : LVal → List Char}
    {Y : LVal → LVal} (h1 : ∀ p ∈ t, p.1 ≠ .other) (h2 : ∀ p ∈ t, ∀ q, p.1 = .num q → ExactNum num tn q)
    (h3 : ∀ p ∈ t, Reads tn (X p.2) (Y p.2)) :
    ∃ ts, (t.map (fun p => (p.1, X p.2))).mapM (pairText num) = some ts ∧
      List.Forall₂ (PairReads tn) ts (t.map (fun p => (keyBack num p.1, Y p.2))) := by
  induction t with
  | nil => exact ⟨[], rfl, .nil⟩
  | cons p t ih =>
    obtain ⟨ts, e, hts⟩ := ih (fun p hp => h1 p (List.mem_cons_of_mem _ hp)) (fun p hp => h2 p (List.mem_cons_of_mem _ hp))
      (fun p hp => h3 p (List.mem_cons_of_mem _ hp))
    obtain ⟨text, e', hk⟩ := key_reads (h1 p List.mem_cons_self) (h2 p List.mem_cons_self)
    refine ⟨(text ++ (' ' :: ':' :: ' ' :: X p.2)) :: ts, ?_, .cons ⟨text, _, rfl, hk, h3 p List.mem_cons_self⟩ hts⟩
    rw [List.map_cons, List.mapM_cons, e]
    simp [pairText, e']

/-- What is storable is written without error and read back. -/
theorem stringify_reads {num : Rat → List Char} {tn : List Char → Option Rat} {x : LVal} (h : Storable num tn x) :
    ∀ tv, ∃ text y, stringify num tv x = some text ∧ Reads tn text y ∧ ReadBack num x y := by
  induction h with
  | bool b =>
    intro tv
    refine ⟨_, _, ?_, reads_bool tn b, .bool b⟩
    cases b <;> rfl
  | num q h => exact fun tv => ⟨_, _, rfl, reads_num h.1 h.2, .num q⟩
  | str s =>
    intro tv
    have := reads_str (tn := tn) (fun r => parseStr_escaped s.toList r)
    rw [String.ofList_toList] at this
    exact ⟨_, _, rfl, this, .str s⟩
  | table t hnd hother hexact _ ih =>
    intro tv
    have hch : ∃ X : LVal → List Char, ∃ Y : LVal → LVal, ∀ p ∈ t, stringify num (tv + 1) p.2 = some (X p.2) ∧
        Reads tn (X p.2) (Y p.2) ∧ ReadBack num p.2 (Y p.2) := by
      classical
      have h1 : ∀ v : LVal, ∃ xy : List Char × LVal, v ∈ t.map (·.2) →
          stringify num (tv + 1) v = some xy.1 ∧ Reads tn xy.1 xy.2 ∧ ReadBack num v xy.2 := by
        intro v
        by_cases hv : v ∈ t.map (·.2)
        · obtain ⟨p, hp, rfl⟩ := List.mem_map.1 hv
          obtain ⟨text, y, h1, h2, h3⟩ := ih p hp (tv + 1)
          exact ⟨(text, y), fun _ => ⟨h1, h2, h3⟩⟩
        · exact ⟨([], .nil), fun h => absurd h hv⟩
      choose f hf using h1
      exact ⟨fun v => (f v).1, fun v => (f v).2, fun p hp => hf p.2 (List.mem_map.2 ⟨p, hp, rfl⟩)⟩
    obtain ⟨X, Y, hXY⟩ := hch
    have hs := stringifyAll_eq (num := num) (tv := tv + 1) (t := t) (x := X) (fun p hp => (hXY p hp).1)
    have hkeys : (t.map (fun p => (p.1, X p.2))).map (·.1) = t.map (·.1) := by simp [Function.comp_def]
    have harr : isArray (t.map (fun p => (p.1, X p.2))) = true ↔ t ≠ [] ∧ IsList t := by
      rw [isArray_iff (by rw [hkeys]; exact hnd)]
      unfold IsList
      rw [hkeys]
      simp
    by_cases ha : t ≠ [] ∧ IsList t
    · -- a list
      obtain ⟨h0, hl⟩ := ha
      have hg : ∀ i : Nat, ∃ v, i < t.length → (Key.num ((i + 1 : Nat) : Rat), v) ∈ t := by
        intro i
        by_cases hi : i < t.length
        · obtain ⟨⟨k, v⟩, h1, h2⟩ := List.mem_map.1 (hl (i + 1) (by omega) (by omega))
          dsimp only at h2
          exact ⟨v, fun _ => h2 ▸ h1⟩
        · exact ⟨.nil, fun h => absurd h hi⟩
      choose u hu using hg
      have hlen0 : t.length ≠ 0 := fun e => h0 (List.length_eq_zero_iff.1 e)
      obtain ⟨a1, a2⟩ := array_text (t := t.map (fun p => (p.1, X p.2))) (u := fun i => X (u i)) (n := t.length) (by simp)
        hlen0 (by rw [hkeys]; exact hnd) (fun i hi => List.mem_map.2 ⟨_, hu i hi, rfl⟩)
      refine ⟨_, .table (arrayFrom 1 ((List.range t.length).map (fun i => Y (u i)))), by
        rw [stringify, hs, Option.bind_some, tableText, if_pos a1, a2], reads_array ?_ ?_, .list _ _ hl ?_ ?_ ?_⟩
      · intro e
        have := congrArg List.length e
        simp at this
        exact h0 this
      · rw [List.forall₂_iff_get]
        refine ⟨by simp, fun i h1 h2 => ?_⟩
        simp only [List.get_eq_getElem, List.getElem_map, List.getElem_range]
        simp at h1
        exact (hXY _ (hu i h1)).2.1
      · rw [arrayFrom_eq, tableFrom_keys]
        exact num_keys_nodup _ _
      · intro k
        rw [arrayFrom_eq, tableFrom_keys, List.length_map, List.length_range]
        exact (isList_keys hl).mem_iff.symm
      · intro k v v' h1 h2
        rw [arrayFrom_eq] at h2
        obtain ⟨j, hj, e⟩ := tableFrom_of_mem h2
        simp only [List.length_map, List.length_range] at hj
        simp only [List.getElem_map, List.getElem_range, Prod.mk.injEq] at e
        obtain ⟨rfl, rfl⟩ := e
        have h3 := hu j hj
        rw [Nat.add_comm] at h3
        have := (get?_of_mem hnd h1).symm.trans (get?_of_mem hnd h3)
        cases this
        exact (hXY _ h1).2.2
    · -- an object
      obtain ⟨ts, hm, hts⟩ := pairs_read (X := X) (Y := Y) hother hexact (fun p hp => (hXY p hp).2.1)
      have hnot : isArray (t.map (fun p => (p.1, X p.2))) = false := by
        rw [← Bool.not_eq_true, harr]
        exact ha
      refine ⟨_, .table (setKeys [] (t.map (fun p => (keyBack num p.1, Y p.2)))), by
        rw [stringify, hs, Option.bind_some, tableText, hnot, if_neg (by simp), hm, Option.map_some], reads_object hts, ?_⟩
      by_cases h0 : t = []
      · subst h0
        exact .list _ _ (by intro i h1 h2; simp at h2; omega) (by simp [setKeys]) (by simp [setKeys])
          (by intro k v v' h; cases h)
      have hl : ¬ IsList t := fun h => ha ⟨h0, h⟩
      have hk : ∀ k', k' ∈ (setKeys [] (t.map (fun p => (keyBack num p.1, Y p.2)))).map (·.1) ↔
          ∃ k ∈ t.map (·.1), asKey num k = k' := by
        intro k'
        rw [setKeys_keys]
        simp [keyOf_keyBack]
      have hsrc : ∀ k' : Key, ∃ q : Key × LVal, ∀ v',
          (k', v') ∈ setKeys [] (t.map (fun p => (keyBack num p.1, Y p.2))) → q ∈ t ∧ asKey num q.1 = k' ∧
            ReadBack num q.2 v' := by
        intro k'
        by_cases hex : ∃ v', (k', v') ∈ setKeys [] (t.map (fun p => (keyBack num p.1, Y p.2)))
        · obtain ⟨v', hv⟩ := hex
          have hv0 := hv
          rcases setKeys_mem hv with h | ⟨p, hp, e⟩
          · cases h
          · obtain ⟨q, hq, rfl⟩ := List.mem_map.1 hp
            rw [keyOf_keyBack] at e
            cases e
            refine ⟨q, fun v'' hv'' => ⟨hq, rfl, ?_⟩⟩
            have hnd' := setKeys_nodup (obj := []) List.nodup_nil (t.map (fun p => (keyBack num p.1, Y p.2)))
            have := (get?_of_mem hnd' hv0).symm.trans (get?_of_mem hnd' hv'')
            cases this
            exact (hXY q hq).2.2
        · exact ⟨(k', .nil), fun v' h => absurd ⟨v', h⟩ hex⟩
      choose src hsrc using hsrc
      refine .object _ _ src hl (setKeys_nodup (obj := []) List.nodup_nil _) hk ?_ (fun k' v' h => (hsrc k' v' h).2.2)
      intro k' hk'
      obtain ⟨⟨k, v'⟩, hp, rfl⟩ := List.mem_map.1 hk'
      exact ⟨(hsrc _ _ hp).1, (hsrc _ _ hp).2.1⟩

theorem parseText_of_reads {tn : List Char → Option Rat} {text : List Char} {y : LVal} (h : Reads tn text y) :
    parseText tn text = some y := by
  have := h.scan (2 * text.length + 2) none [] (by simp) (by intro c hc; cases hc) (by omega)
  rw [List.append_nil] at this
  rw [parseText, this]
  rfl

/-- Without numbers as keys of objects, what is read back is the same. -/
theorem _root_.Verif.Spec.ReadBack.same {num : Rat → List Char} {tn : List Char → Option Rat} {x y : LVal} (h : ReadBack num x y)
    (hs : NoNumberKeys x) (hd : Storable num tn x) : SameLua x y := by
  induction h with
  | bool b => exact .bool b
  | num q => exact .num q
  | str s => exact .str s
  | list t t' _ hnd hk _ ih =>
    cases hs with
    | table _ _ hv =>
      cases hd with
      | table _ _ _ _ hd =>
      exact .table _ _ hnd hk (fun k v v' h1 h2 => ih k v v' h1 h2 (hv _ h1) (hd _ h1))
  | object t t' src hl hnd hk hsrc _ ih =>
    cases hs with
    | table _ hn hv =>
      cases hd with
      | table _ hnt _ _ hd =>
      have hn := hn.resolve_left hl
      have hid : ∀ p ∈ t, asKey num p.1 = p.1 := by
        intro p hp
        have := hn p hp
        cases hp1 : p.1 with
        | num q => exact absurd hp1 (this q)
        | _ => rfl
      refine .table _ _ hnd ?_ ?_
      · intro k
        rw [hk]
        constructor
        · intro h
          obtain ⟨p, hp, rfl⟩ := List.mem_map.1 h
          exact ⟨_, h, hid p hp⟩
        · rintro ⟨k', h, rfl⟩
          obtain ⟨p, hp, rfl⟩ := List.mem_map.1 h
          rw [hid p hp]
          exact h
      · intro k v v' h1 h2
        have hkm : k ∈ t'.map (·.1) := List.mem_map.2 ⟨_, h2, rfl⟩
        obtain ⟨h3, h4⟩ := hsrc k hkm
        rw [hid _ h3] at h4
        have : src k = (k, v) := by
          have h5 : (k, (src k).2) ∈ t := by
            have := h3
            rw [show src k = ((src k).1, (src k).2) from rfl, h4] at this
            exact this
          have := (get?_of_mem hnt h5).symm.trans (get?_of_mem hnt h1)
          exact Prod.ext h4 (Option.some.inj this)
        have h5 := ih k v' h2
        rw [this] at h5
        exact h5 (hv _ h1) (hd _ h1)

theorem asKey_ne_num (num : Rat → List Char) (k : Key) (q : Rat) : asKey num k ≠ .num q := by
  cases k <;> exact fun h => nomatch h

/-- … and only then. -/
theorem _root_.Verif.Spec.ReadBack.noNumberKeys {num : Rat → List Char} {tn : List Char → Option Rat} {x y : LVal} (h : ReadBack num x y)
    (hs : SameLua x y) (hd : Storable num tn x) : NoNumberKeys x := by
  induction h with
  | bool b => exact .bool b
  | num q => exact .num q
  | str s => exact .str s
  | list t t' hl hnd hk _ ih =>
    cases hs with
    | table _ _ _ _ hv =>
      cases hd with
      | table _ hnt _ _ hd =>
      refine .table _ (.inl hl) (fun p hp => ?_)
      obtain ⟨⟨k, v'⟩, h1, h2⟩ := List.mem_map.1 ((hk p.1).1 (List.mem_map.2 ⟨p, hp, rfl⟩))
      dsimp only at h2
      subst h2
      exact ih _ _ _ hp h1 (hv _ _ _ hp h1) (hd p hp)
  | object t t' src hl hnd hk hsrc _ ih =>
    cases hs with
    | table _ _ _ hk' hv =>
      cases hd with
      | table _ hnt _ _ hd =>
      have hn : ∀ p ∈ t, ∀ q, p.1 ≠ .num q := by
        intro p hp q hq
        have h1 : p.1 ∈ t'.map (·.1) := (hk' p.1).1 (List.mem_map.2 ⟨p, hp, rfl⟩)
        obtain ⟨k, -, h2⟩ := (hk p.1).1 h1
        exact asKey_ne_num num k q (h2.trans hq)
      have hid : ∀ p ∈ t, asKey num p.1 = p.1 := by
        intro p hp
        have := hn p hp
        cases hp1 : p.1 with
        | num q => exact absurd hp1 (this q)
        | _ => rfl
      refine .table _ (.inr hn) (fun p hp => ?_)
      have hm : p.1 ∈ t'.map (·.1) := (hk' p.1).1 (List.mem_map.2 ⟨p, hp, rfl⟩)
      obtain ⟨h3, h4⟩ := hsrc _ hm
      rw [hid _ h3] at h4
      have h5 : src p.1 = p := by
        have h6 : (p.1, (src p.1).2) ∈ t := by
          have := h3
          rw [show src p.1 = ((src p.1).1, (src p.1).2) from rfl, h4] at this
          exact this
        have := (get?_of_mem hnt h6).symm.trans (get?_of_mem hnt (k := p.1) (v := p.2) hp)
        exact Prod.ext h4 (Option.some.inj this)
      obtain ⟨⟨k, v'⟩, h6, h7⟩ := List.mem_map.1 hm
      dsimp only at h7
      subst h7
      have h8 := ih _ _ h6
      rw [h5] at h8
      exact h8 (hv _ _ _ hp h6) (hd p hp)

end Verif.Lua
