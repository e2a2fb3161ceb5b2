import Verif.Proofs.Color
/-!
# Property C08: `Color`
-/
set_option autoImplicit false

namespace Verif

open Color

/-- C08: after construction and any history of component assignments, every component is in
`[0, 1]`. -/
theorem C08_in_range (r g b a : Num) (hist : List Color.Assign) :
    (hist.foldl Color.assign (Color.new r g b a)).InRange := by
  have step : ∀ (c : Color) (x : Color.Assign), c.InRange → (c.assign x).InRange := by
    intro c x h
    obtain ⟨h1, h2, h3, h4⟩ := h
    cases x
    · exact ⟨clamp_range _, h2, h3, h4⟩
    · exact ⟨h1, clamp_range _, h3, h4⟩
    · exact ⟨h1, h2, clamp_range _, h4⟩
    · exact ⟨h1, h2, h3, clamp_range _⟩
  have : ∀ c : Color, c.InRange → (hist.foldl Color.assign c).InRange := by
    induction hist with
    | nil => intro c h; exact h
    | cons x xs ih => intro c h; exact ih _ (step c x h)
  exact this _ ⟨clamp_range _, clamp_range _, clamp_range _, clamp_range _⟩

/-- C08: an assignment stores the nearest value in range (so in-range values are kept) and leaves
the other components alone. -/
theorem C08_assign_exact (c : Color) (v : Num) :
    ((c.setR v).r.val = nearest v.val ∧ (c.setR v).g = c.g ∧ (c.setR v).b = c.b ∧ (c.setR v).a = c.a) ∧
    ((c.setG v).g.val = nearest v.val ∧ (c.setG v).r = c.r ∧ (c.setG v).b = c.b ∧ (c.setG v).a = c.a) ∧
    ((c.setB v).b.val = nearest v.val ∧ (c.setB v).r = c.r ∧ (c.setB v).g = c.g ∧ (c.setB v).a = c.a) ∧
    ((c.setA v).a.val = nearest v.val ∧ (c.setA v).r = c.r ∧ (c.setA v).g = c.g ∧ (c.setA v).b = c.b) :=
  ⟨⟨clamp_val v, rfl, rfl, rfl⟩, ⟨clamp_val v, rfl, rfl, rfl⟩, ⟨clamp_val v, rfl, rfl, rfl⟩,
    ⟨clamp_val v, rfl, rfl, rfl⟩⟩

/-- C08: `Color(**c.to_json())` is `c` again, for every constructed colour. -/
theorem C08_roundtrip (c : Color) (h : c.Built) : Color.ofVal c.toJson = .ok c := by
  obtain ⟨r, g, b, a, rfl⟩ := h
  simp [Color.ofVal, Color.toJson, Val.kwargs, Color.ofKwargs, Dict.getD, Dict.get?, List.lookup,
    component, Val.num?, new, bind, Except.bind, pure, Except.pure, clamp_clamp]

/-- C08: keywords other than `r g b a` are rejected, missing ones default to 1. -/
theorem C08_kwargs (d : Dict) (k : String) (hk : k ∈ Dict.keys d) (hn : k ∉ ["r", "g", "b", "a"]) :
    Color.ofVal (.dict d) = .error .typeError := by
  have : d.any (fun p => !(p.1 == "r" || p.1 == "g" || p.1 == "b" || p.1 == "a")) = true := by
    simp only [Dict.keys, List.mem_map] at hk
    obtain ⟨p, hp, rfl⟩ := hk
    rw [List.any_eq_true]
    refine ⟨p, hp, ?_⟩
    simp at hn ⊢
    exact ⟨⟨⟨hn.1, hn.2.1⟩, hn.2.2.1⟩, hn.2.2.2⟩
  simp only [Color.ofVal, Val.kwargs, Color.ofKwargs, this, bind, Except.bind]
  rfl

/-- C08: equality is componentwise equality of values, hence an equivalence. -/
theorem C08_eq (c d : Color) :
    c.eqv d = true ↔ c.r.val = d.r.val ∧ c.g.val = d.g.val ∧ c.b.val = d.b.val ∧ c.a.val = d.a.val := by
  simp [Color.eqv, Num.eq, and_assoc]

example : ([Assign.r (.int 5), .g (.flt (-1/2)), .a (.flt (1/2))].foldl assign (Color.new)).toJson =
    .dict [("r", .int 1), ("g", .int 0), ("b", .int 1), ("a", .flt (1/2))] := by decide +kernel
example : (Color.new (.flt (1/2))).Built := ⟨_, _, _, _, rfl⟩

end Verif
