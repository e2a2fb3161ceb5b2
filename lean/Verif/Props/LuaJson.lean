import Verif.Proofs.LuaJson
import Verif.Props.Prototypes
/-!
# Property C58: what the data gatherer writes is what Python reads
-/
set_option autoImplicit false

namespace Verif
open Spec Lua Json

/-- C58: data made of tables, strings, numbers and booleans are written without error, and Python reads the text as the
JSON value for which the data stand. -/
theorem C58_read {f : FloatText} {num : Rat → List Char} {x : LVal} {v : Val} (h : StandsFor f num x v) :
    ∃ text, stringify num 0 x = some text ∧ loads f text = .ok v := by
  obtain ⟨text, h1, h2⟩ := stringify_parses h 0
  refine ⟨text, h1, ?_⟩
  have h3 := h2.scan (2 * text.length + 2) [] (fun c hc => by cases hc) (by omega)
  have h4 := h2.skip []
  rw [List.append_nil] at h3 h4
  unfold loads
  rw [h4, h3]
  rfl

/-- Data stand for one JSON value only. -/
theorem C58_unique {f : FloatText} {num : Rat → List Char} {x : LVal} {v v' : Val} (h : StandsFor f num x v)
    (h' : StandsFor f num x v') : v = v' := by
  obtain ⟨t, h1, h2⟩ := C58_read h
  obtain ⟨t', h1', h2'⟩ := C58_read h'
  rw [h1] at h1'
  cases h1'
  rw [h2] at h2'
  exact Except.ok.inj h2'

/-- Every JSON value with exact numbers and printable strings has data standing for it, up to the order of keys and to
empty lists, which cannot be told from empty objects. -/
theorem C58_represent (f : FloatText) (num : Rat → List Char) (v : Val) (h : Writable f num v) :
    ∃ x v', StandsFor f num x v' ∧ SameData v' v := represent f num v h

/-- The way from the game to the prototype tables, in whatever order Lua visits its tables: the file written for the
gathered data is read and imported, and the tables hold the gathered data. -/
theorem C58_import {f : FloatText} {num : Rat → List Char} {g : Game} {x : LVal} {v : Val} (h : StandsFor f num x v)
    (hd : SameData v (.dict (gatherData g))) (w : World) :
    ∃ text w₁ w₂, stringify num 0 x = some text ∧ loads f text = .ok v ∧ importProtos v false w = (.ok (), w₁) ∧
      importProtos (.dict (gatherData g)) false w = (.ok (), w₂) ∧
      ∀ t, SameData (.dict (w₁.env.table t)) (.dict (w₂.env.table t)) := by
  obtain ⟨text, h1, h2⟩ := C58_read h
  let tab : Table → Dict := fun t => match t with
    | .entity => gatherPrototypes g.entity (some gathererTypes) entityFields
    | .recipe => gatherPrototypes g.recipe none recipeFields
    | .item => gatherPrototypes g.item none itemFields
    | .signal => gatherSignalData g
    | .tile => gatherPrototypes g.tile none tileFields
  have ht : ∀ t, List.lookup (fileKey t) (gatherData g) = some (.dict (tab t)) := by intro t; cases t <;> rfl
  obtain ⟨w₂, h3, -, -, -, h4⟩ := C37_import (gatherData g) false tab ht w
  obtain ⟨d, rfl, -, -⟩ := hd.object
  have hs : ∀ t, ∃ e, List.lookup (fileKey t) d = some (.dict e) ∧ SameData (.dict e) (.dict (tab t)) := by
    intro t
    obtain ⟨d', x, e, hx, hxy⟩ := hd.get (ht t)
    cases e
    obtain ⟨e, rfl, -, -⟩ := hxy.object
    exact ⟨e, hx, hxy⟩
  obtain ⟨w₁, h5, -, -, -, h6⟩ := C37_import d false (fun t => (hs t).choose) (fun t => (hs t).choose_spec.1) w
  refine ⟨text, w₁, w₂, h1, h2, h5, h3, fun t => ?_⟩
  rw [h6 t, h4 t]
  exact (hs t).choose_spec.2

/-- After that import every name in the entity table has a type with a row, and can be given to a new entity. -/
theorem C58_supported {f : FloatText} {num : Rat → List Char} {g : Game} {x : LVal} {v : Val} (h : StandsFor f num x v)
    (hd : SameData v (.dict (gatherData g))) (w : World) :
    ∃ text v' w', stringify num 0 x = some text ∧ loads f text = .ok v' ∧ importProtos v' false w = (.ok (), w') ∧
      ∀ name data, List.lookup name w'.env.entities = some data →
        ∃ t ms, data.subscript "type" = .ok (.str t) ∧ prototypeMixins t = some ms ∧
          ∀ e : Entity, e.klass = Klass.entity → ∃ e', e.setName w'.env none (.str name) = (.ok (), e') ∧
            e'.name = name ∧ (e.strict = true → e'.klass.chain = rowOrder ms) := by
  obtain ⟨text, w₁, w₂, h1, h2, h3, h4, h5⟩ := C58_import h hd w
  refine ⟨text, v, w₁, h1, h2, h3, ?_⟩
  intro name data hn
  obtain ⟨w', e1, e2⟩ := C48_gathered g w
  rw [h4] at e1
  cases e1
  obtain ⟨data', hn', hs⟩ := (h5 .entity).get' hn
  obtain ⟨t, ms, ht, hms, -⟩ := e2 name data' hn'
  have ht' : data.subscript "type" = .ok (.str t) := by
    obtain ⟨d', rfl, hl⟩ := subscript_ok.1 ht
    obtain ⟨d, y, rfl, hy, hyt⟩ := hs.get hl
    rw [subscript_ok]
    exact ⟨d, rfl, by rw [← hyt.str]; exact hy⟩
  exact ⟨t, ms, ht', hms, fun e he => C48_named hn ht' hms he⟩

/-- The data gathered from the sample game can be written. -/
theorem Sample.game_writable (f : FloatText) (num : Rat → List Char) :
    Writable f num (.dict (gatherData Sample.game)) := by
  show Writable f num (.dict [("entity", .dict [("belt", .dict [("name", .str "belt"), ("type", .str "transport-belt")])]),
     ("recipe", .dict []), ("signal", .dict [("water", .dict [("name", .str "water"), ("type", .str "fluid")])]),
     ("item", .dict []), ("tile", .dict [])])
  simp only [Writable, WritableDict, and_true]
  unfold Printable
  repeat' apply And.intro
  all_goals decide +kernel

example (f : FloatText) (num : Rat → List Char) :
    ∃ x v, StandsFor f num x v ∧ SameData v (.dict (gatherData Sample.game)) :=
  C58_represent f num _ (Sample.game_writable f num)

/-- Exactly the strings without control characters, apart from those with an escape of their own, are accepted. -/
theorem C58_string_iff (f : FloatText) (num : Rat → List Char) (s : String) :
    (∃ text v, stringify num 0 (.str s) = some text ∧ loads f text = .ok v) ↔ Printable s := by
  constructor
  · rintro ⟨text, v, h1, h2⟩
    cases h1
    refine Classical.byContradiction (fun hs => ?_)
    rw [show loads f (quote (escapeStr s.toList)) = .error .valueError from ?_] at h2
    · cases h2
    · unfold loads quote
      rw [skipWs_cons (by decide)]
      have e : ∀ n, scanVal f (n + 1) ('"' :: (escapeStr s.toList ++ ['"'])) = .error .valueError := by
        intro n
        rw [scanVal.eq_def]
        simp only [scanStr_refused hs]
      rw [e]
  · intro hs
    obtain ⟨text, h1, h2⟩ := C58_read (f := f) (num := num) (.str s hs)
    exact ⟨text, _, h1, h2⟩

example : Printable "a\t\"b\" / ü" ∧ ¬ Printable "\x07" := by unfold Printable; decide +kernel

/-- An empty table is read as an object, also where the game means an empty list. -/
theorem C58_empty (f : FloatText) (num : Rat → List Char) :
    ∃ text, stringify num 0 (.table []) = some text ∧ loads f text = .ok (.dict []) :=
  C58_read (.object [] [] rfl .nil (fun _ h => absurd h (Nat.not_lt_zero _)) (fun _ h => absurd h (Nat.not_lt_zero _)))

/-- Keys that are booleans are written without quotes, and the file is refused. -/
theorem C58_boolean_key (f : FloatText) (num : Rat → List Char) (b : Bool) (y : LVal) (text : List Char)
    (h : stringify num 0 (.table [(.bool b, y)]) = some text) : loads f text = .error .valueError := by
  rw [stringify, stringifyAll] at h
  cases hy : stringify num (0 + 1) y with
  | none => rw [hy] at h; cases h
  | some t =>
    rw [hy] at h
    cases b <;> cases h <;> rfl

/-- Functions and userdata cannot be written. -/
theorem C58_other (num : Rat → List Char) (tv : Nat) : stringify num tv .other = none := by
  rw [stringify]

/-- Tables and arrays, as they are written. -/
example : (stringify (fun _ => ['7']) 0 (.table [(.str "a", .table [(.num 2, .bool true), (.num 1, .str "x/y")]),
      (.str "b", .num 7)])).map String.ofList =
    some "{\n  \"a\" : [\n    \"x\\/y\",\n    true\n  ],\n  \"b\" : 7\n}" := by decide +kernel

example : (stringify (fun _ => []) 0 (.table [(.bool true, .nil)])).map String.ofList = some "{\n  true : null\n}" := by
  decide +kernel

end Verif
