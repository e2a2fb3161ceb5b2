import Verif.Props.Printed
import Verif.Props.Reload
import Verif.Proofs.Shortest
/-!
# Property C09 (and C35, C76) with the floats of Python
-/
set_option autoImplicit false

namespace Verif
open Spec Printed

/-- C09: the text that Python writes for a finite float is a JSON number, and Python reads it as the same float. -/
theorem C09_floats {q : Rat} (h : Binary64 q) : ExactFloat pyFloats q := floats_exact h

/-- C09: … it has no more digits than any decimal that is rounded to the float, at most 17, and of the decimals with so
many digits it is one nearest to the float. -/
theorem C09_shortest {q : Rat} (h : Binary64 q) (h0 : q ≠ 0) : ∃ x n, Decimal (String.ofList (pyFloats.repr q)) x ∧ Rounded x q ∧
    n ≤ 17 ∧ HasDigits n x ∧ ∀ m y, HasDigits m y → ¬ TooLarge y → Rounded y q → n ≤ m ∧ (m = n → |x - q| ≤ |y - q|) := by
  obtain ⟨x, n, h1, h2, h3, h4, h5⟩ := floatRepr_shortest h h0
  obtain ⟨s, m, e, z, v, k, hl, hs, hm, he, hx⟩ := (readDecimal_iff _ _).1 h1
  refine ⟨x, n, ⟨[], s, m, e, [], z, k, v, ?_, by simp, by simp, hs, hm, he, hx⟩, ((toDouble_some _ _).1 h2).2, h3, h4,
    fun m y hy hs hr => h5 m y hy ((toDouble_some _ _).2 ⟨hs, hr⟩)⟩
  rw [String.toList_ofList, List.append_nil]
  exact hl

/-- C09 without an assumption on the texts of floats. -/
theorem C09_python {rt : Runtime} (hf : rt.float = pyFloats) (hz : Lossless rt.zlib) {v : Val} (h : PyJson v) :
    decode rt (encode rt v) = .ok v :=
  C09_roundtrip hz (by rw [hf]; exact plain_of_py v h)

theorem C09_python_injective {rt : Runtime} (hf : rt.float = pyFloats) (hz : Lossless rt.zlib) {v u : Val} (hv : PyJson v)
    (hu : PyJson u) : encode rt v = encode rt u ↔ v = u :=
  C09_injective hz (by rw [hf]; exact plain_of_py v hv) (by rw [hf]; exact plain_of_py u hu)

/-- C35 without it. -/
theorem C35_reload_python_partial {env env2 : Env} {w w1 w2 : World} {b b2 : BpId} {rt : Runtime} {v : Val}
    {s : String} (hf : rt.float = pyFloats) (hz : Lossless rt.zlib) (hrun : SteadyRun env w) (hr : Reloadable w b)
    (hs : toStringBp rt b w = (.ok s, w1)) (hv : (toJson b w).1 = .ok v) (hp : PyJson v)
    (hw2 : Reachable env2 w2) (henv : w2.env = w.env) (hb : w2.bp b2 = {}) (data : Val) (strict : Bool) :
    ∃ w3, construct rt b2 (some s) data none strict w2 = (.ok (), w3) ∧ SameBlueprint w b w3 b2 :=
  C35_reload_string_partial hz hrun hr hs hv (by rw [hf]; exact plain_of_py v hp) hw2 henv hb data strict

/-- C76 without it: the printed form of an entity shows name, position and direction. -/
theorem C76_entity_python {e e' : Entity} (hx : PyNum e.pos.x) (hy : PyNum e.pos.y) (hx' : PyNum e'.pos.x)
    (hy' : PyNum e'.pos.y) :
    entRepr pyFloats e = entRepr pyFloats e' ↔ e.name = e'.name ∧ e.pos = e'.pos ∧ e.dir = e'.dir :=
  C76_entity (printed_of_py _ hx) (printed_of_py _ hy) (printed_of_py _ hx') (printed_of_py _ hy')

theorem C76_vector_python {v w : Vec} (hx : PyNum v.x) (hy : PyNum v.y) (hx' : PyNum w.x) (hy' : PyNum w.y) :
    vec pyFloats v = vec pyFloats w ↔ v = w :=
  C76_vector (printed_of_py _ hx) (printed_of_py _ hy) (printed_of_py _ hx') (printed_of_py _ hy')

theorem C76_color_python {c d : Color} (hc : ∀ n ∈ [c.r, c.g, c.b, c.a], PyNum n) (hd : ∀ n ∈ [d.r, d.g, d.b, d.a], PyNum n) :
    color pyFloats c = color pyFloats d ↔ c = d :=
  C76_color (fun n hn => printed_of_py _ (hc n hn)) (fun n hn => printed_of_py _ (hd n hn))

/-! ### The hypotheses can be met -/

namespace Sample

/-- Python, with a compression that does nothing. -/
def py : Runtime where
  float := pyFloats
  zlib := ⟨id, some⟩

theorem third : Binary64 (6004799503160661 / 18014398509481984) :=
  ⟨6004799503160661, -54, by decide, by decide, by decide, by norm_num⟩

theorem value_python : PyJson (.dict [("a", .list [.flt (6004799503160661 / 18014398509481984), .int 3]), ("b", .none)]) := by
  simp only [PyJson, PyJsonDict, PyJsonList, Val.flt, Val.int, and_true]
  exact ⟨by decide, third⟩

end Sample

theorem Sample.wired_python : PyJson wiredOut := by
  have h : Binary64 (1 / 4) := ⟨1, -2, by decide, by decide, by decide, by norm_num⟩
  simp only [wiredOut, PyJson, PyJsonDict, PyJsonList, pos, sig, locoOut, Val.flt, Val.int, and_true, true_and, h]
  decide +kernel

/-- The hypotheses of `C35_reload_python_partial` are met. -/
example : ∃ w3, construct Sample.py 4 (some (encode Sample.py Sample.wiredOut)) .none none true
      (World.init Sample.env) = (.ok (), w3) ∧ SameBlueprint Sample.wired 0 w3 4 :=
  C35_reload_python_partial (w1 := (toJson 0 Sample.wired).2) rfl (fun _ => rfl) Sample.wired_run Sample.wired_reloadable
    (by
      unfold toStringBp
      rw [M.bind_ok (Sample.run_eq Sample.wired_out)]
      rfl)
    Sample.wired_out Sample.wired_python .init Sample.wired_run.inv.1.symm rfl .none true

/-- `1 / 3` has sixteen digits. -/
example : pyFloats.repr (6004799503160661 / 18014398509481984) = "0.3333333333333333".toList := by decide +kernel

/-- Large and small numbers have an exponent. -/
example : pyFloats.repr (10 ^ 22) = "1e+22".toList ∧ pyFloats.repr (-(10 ^ 15)) = "-1000000000000000.0".toList ∧
    pyFloats.repr (1 / 1024) = "0.0009765625".toList ∧ pyFloats.repr (1 / 2 ^ 20) = "9.5367431640625e-07".toList := by
  decide +kernel

example : Sample.py.float = pyFloats ∧ Lossless Sample.py.zlib ∧
    PyJson (.dict [("a", .list [.flt (6004799503160661 / 18014398509481984), .int 3]), ("b", .none)]) :=
  ⟨rfl, fun _ => rfl, Sample.value_python⟩

example : ∀ n ∈ [Num.int 1, .flt (6004799503160661 / 18014398509481984)], PyNum n := by
  simp only [List.mem_cons, List.not_mem_nil, or_false, forall_eq_or_imp, forall_eq]
  exact ⟨trivial, Sample.third⟩

end Verif
