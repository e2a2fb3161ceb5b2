import Verif.Proofs.RoundTrip
import Verif.Props.Sample
/-!
# Exported settings are imported again (C33, C34)

In full the properties ask that the exported settings of every entity are accepted and exported again, and that
the operands of every combinator survive.  The code fails to do so for some values, shown by the witnesses below;
what is proved here covers every other value and every history of calls.
-/
set_option autoImplicit false

namespace Verif
open Spec

/-! ## C33 -/

/-- C33 in full: whatever is exported for an entity is accepted by an empty blueprint and exported again. -/
def ExportsAgain : Prop := ∀ (env : Env) (w w' : World) (r : Ref) (d : Dict), Reachable env w → r < w.next →
  entToJson r w = (.ok (.dict d), w') →
  ∃ r2 w3 d' w4, layerMake 0 d (World.init w.env) = (.ok r2, w3) ∧ entToJson r2 w3 = (.ok (.dict d'), w4) ∧
    entitySettings d' = entitySettings d

/-- C33.  After any calls that do not rename entities, replace prototype data or set custom mixins, the exported
settings of every strict entity are accepted by every blueprint over the same prototype data (without custom
mixins for that type) and exported again — unless a constant or a filter name cannot be read back. -/
theorem C33_exports_again_partial {env : Env} {w w' w2 : World} {r : Ref} {d : Dict} {b2 : BpId}
    (hrun : SteadyRun env w) (hr : r < w.next) (hs : (w.heap r).strict = true)
    (he : entToJson r w = (.ok (.dict d), w'))
    (hc : ∀ c, (w.heap r).cb = some c → ReadableConstants c) (hf : ReadableNames env (w.heap r) d)
    (henv : w2.env = env) (hw2 : (w2.bp b2).conns = []) (hnc : NoCustom env (w2.bp b2) (w.heap r).name) :
    ∃ r2 w3 d' w4, layerMake b2 d w2 = (.ok r2, w3) ∧ entToJson r2 w3 = (.ok (.dict d'), w4) ∧
      entitySettings d' = entitySettings d := by
  obtain ⟨h1, -, h3⟩ := hrun.inv
  subst h1
  obtain ⟨r2, w3, d', w4, k1, k2, k3, -⟩ := (h3 r hr hs).again he hc hf henv hw2 (henv.symm ▸ hnc)
  exact ⟨r2, w3, d', w4, k1, k2, k3⟩

/-- C33 for one entity made with any keywords, followed by any calls that do not rename it and do not replace
the prototype data. -/
theorem C33_made_exports_again_partial {b b2 : BpId} {kw d : Dict} {w0 w1 w w' w2 : World} {r : Ref}
    (hm : layerMake b kw w0 = (.ok r, w1)) (hs : (w1.heap r).strict = true)
    (hn : NoCustom w0.env (w0.bp b) (w1.heap r).name) (hl : Later r w1 w)
    (he : entToJson r w = (.ok (.dict d), w'))
    (hc : ∀ c, (w.heap r).cb = some c → ReadableConstants c) (hf : ReadableNames w0.env (w.heap r) d)
    (henv : w2.env = w0.env) (hw2 : (w2.bp b2).conns = []) (hnc : NoCustom w0.env (w2.bp b2) (w.heap r).name) :
    ∃ r2 w3 d' w4, layerMake b2 d w2 = (.ok r2, w3) ∧ entToJson r2 w3 = (.ok (.dict d'), w4) ∧
      entitySettings d' = entitySettings d := by
  obtain ⟨h1, h2, h3⟩ := Solid.layerMake hm hs hn
  obtain ⟨-, h5, h6⟩ := SolidP.later h1 h3 hl
  rw [h2] at h5
  obtain ⟨r2, w3, d', w4, k1, k2, k3, -⟩ := Solid.again h6 he hc (h5.symm ▸ hf) (henv.trans h5.symm) hw2
    (henv.symm ▸ hnc)
  exact ⟨r2, w3, d', w4, k1, k2, k3⟩

/-! ### Not every export is accepted again -/

namespace Sample

/-- The settings exported for the first entity of a world, and the settings exported for an entity made of them
in an empty blueprint. -/
def again (env : Env) (w : World) : Except Exc Val × Except Exc Val :=
  match entToJson 0 w with
  | (.ok (.dict d), _) => match layerMake 0 d (World.init env) with
    | (.ok r, w3) => (.ok (.dict (entitySettings d)), (do let v ← (entToJson r w3).1; return .dict (entitySettings (← v.asDict))))
    | (.error e, _) => (.ok (.dict (entitySettings d)), .error e)
  | (x, _) => (x, x)

/-- The world after making one entity. -/
def made (kw : Dict) : World := ((Op.make 0 kw).run (World.init env)).2

theorem made_reachable (kw : Dict) : Reachable env (made kw) := Reachable.step (.make 0 kw) .init trivial

/-- A witness against C33. -/
theorem again_false {w : World} {v : Val} {x : Except Exc Val} (hre : Reachable env w) (h : again env w = (.ok v, x))
    (hx : x ≠ .ok v) (hn : 0 < w.next) (henv : w.env = env) : ¬ ExportsAgain := by
  intro hall
  unfold again at h
  split at h
  · rename_i d w' hd
    obtain ⟨r2, w3, d', w4, h1, h2, h3⟩ := hall env w w' 0 d hre hn hd
    rw [henv] at h1
    rw [h1] at h
    dsimp only at h
    rw [h2] at h
    injection h with ha hb
    injection ha with ha
    apply hx
    rw [← hb, ← ha]
    show Except.ok (Val.dict (entitySettings d')) = _
    rw [h3]
  · have : x = .ok v := by
      injection h with ha hb
      rw [← hb, ha]
    exact hx this

/-- A lamp whose condition has a constant first operand. -/
def lampConst : Dict := ent "lamp" 0 0 ++ [("control_behavior", .dict [("circuit_condition", .dict
  [("first_signal", .int 5), ("comparator", .str ">"), ("constant", .int 3)])])]

/-- A decider that compares a signal with a constant. -/
def decConst : Dict := ent "dec" 0 0 ++ [("control_behavior", .dict [("decider_conditions", .dict
  [("first_signal", sig "A" "virtual"), ("comparator", .str ">"), ("second_constant", .int 3)])])]

/-- A filter whose name is not a text. -/
def insFalse : Dict := ent "ins" 0 0 ++ [("filters", .list [.dict [("index", .int 1), ("name", .bool false)]])]

/-- An entity without prototype data. -/
def ghost : Dict := ent "ghost" 0 0 ++ [("strict", .bool false)]

/-- An assembling machine with a recipe, renamed to a belt. -/
def renamed : World :=
  ((Op.setName 0 (.str "belt")).run (made (ent "asm" 0 0 ++ [("recipe", .str "gear")]))).2

end Sample

/-- C33 does not hold: a constant first operand of a circuit condition is lost. -/
theorem C33_false_condition : ¬ ExportsAgain :=
  Sample.again_false (Sample.made_reachable Sample.lampConst)
    (v := .dict (Sample.ent "lamp" 0 0 ++ [("control_behavior", .dict [("circuit_condition", .dict
      [("comparator", .str ">"), ("first_constant", .int 5), ("constant", .int 3)])])]))
    (x := .ok (.dict (Sample.ent "lamp" 0 0 ++ [("control_behavior", .dict [("circuit_condition", .dict
      [("comparator", .str ">"), ("constant", .int 3)])])])))
    (by decide +kernel) (by decide +kernel) (by decide +kernel) rfl

/-- C33 does not hold: the export of a decider combinator that compares a signal with a constant is refused. -/
theorem C33_false_decider : ¬ ExportsAgain :=
  Sample.again_false (Sample.made_reachable Sample.decConst)
    (v := .dict (Sample.ent "dec" 0 0 ++ [("control_behavior", .dict [("decider_conditions", .dict
      [("comparator", .str ">"), ("first_signal", Sample.sig "A" "virtual"), ("constant", .int 3),
       ("copy_count_from_input", .bool false)])])]))
    (x := .error .typeError)
    (by decide +kernel) (by decide +kernel) (by decide +kernel) rfl

/-- C33 does not hold: a filter name that is not a text is exported as a text that is no signal. -/
theorem C33_false_filter : ¬ ExportsAgain :=
  Sample.again_false (Sample.made_reachable Sample.insFalse)
    (v := .dict (Sample.ent "ins" 0 0 ++ [("filters", .list [.dict [("index", .int 1), ("name", .str "False")]])]))
    (x := .error .unknownSignal)
    (by decide +kernel) (by decide +kernel) (by decide +kernel) rfl

/-- C33 does not hold: `strict=False` is not exported, so an unknown entity is refused. -/
theorem C33_false_strict : ¬ ExportsAgain :=
  Sample.again_false (Sample.made_reachable Sample.ghost) (v := .dict (Sample.ent "ghost" 0 0)) (x := .error .unknownEntity)
    (by decide +kernel) (by decide +kernel) (by decide +kernel) rfl

/-- C33 does not hold: an entity renamed to one of another type keeps its settings, which are then refused. -/
theorem C33_false_rename : ¬ ExportsAgain :=
  Sample.again_false (w := Sample.renamed)
    (Reachable.step (.setName 0 (.str "belt")) (Sample.made_reachable _) (by show 0 < _; decide +kernel))
    (v := .dict (Sample.ent "belt" 0 0 ++ [("recipe", .str "gear")])) (x := .error .typeError)
    (by decide +kernel) (by decide +kernel) (by decide +kernel) rfl

/-- The hypotheses of `C33_exports_again_partial` are met by the arithmetic combinator of the sample blueprint. -/
example : ∃ r2 w3 d' w4, layerMake 3 Sample.ariOut (World.init Sample.env) = (.ok r2, w3) ∧
    entToJson r2 w3 = (.ok (.dict d'), w4) ∧ entitySettings d' = entitySettings Sample.ariOut :=
  C33_exports_again_partial (env := Sample.env) (w := Sample.loaded) (r := 1)
    (.step (.load 0 Sample.data) .init trivial trivial) (by decide +kernel) (by decide +kernel)
    (Sample.run_eq (by decide +kernel))
    (by
      intro c hc
      have : (Sample.loaded.heap 1).cb.all (fun c => c.chain == [.Arithmetic, .Combinator]) = true := by decide +kernel
      rw [hc] at this
      have hch : c.chain = [.Arithmetic, .Combinator] := by simpa using this
      unfold ReadableConstants
      rw [hch]
      exact ⟨fun h => absurd h (by decide), fun h => absurd h (by decide)⟩)
    (fun h => absurd h (by decide +kernel)) rfl rfl
    (fun ty _ => rfl)

/-! ## C34 -/

/-- C34 in full, for one prototype type: an entity made of the export of a combinator of this type has the same
operator, operands and flag. -/
def FunctionKept (ty : String) : Prop := ∀ (env : Env) (w w' : World) (r : Ref) (d : Dict) (c : Cb),
  SteadyRun env w → r < w.next → (w.heap r).strict = true → TypeOf env (w.heap r).name ty →
  (w.heap r).cb = some c → entToJson r w = (.ok (.dict d), w') →
  ∀ (w2 : World) (b2 : BpId), w2.env = env → (w2.bp b2).conns = [] → NoCustom env (w2.bp b2) (w.heap r).name →
  ∃ r2 w3 c', layerMake b2 d w2 = (.ok r2, w3) ∧ (w3.heap r2).cb = some c' ∧ SameFunction c c'

/-- C34 for arithmetic combinators. -/
theorem C34_arithmetic : FunctionKept "arithmetic-combinator" := by
  intro env w w' r d c hrun hr hs ht hcb he w2 b2 henv hw2 hnc
  obtain ⟨h1, -, h3⟩ := hrun.inv
  subst h1
  have hsol := h3 r hr hs
  obtain ⟨k1, k2⟩ := hsol.arithmetic ht
  obtain ⟨r2, w3, d', w4, m1, -, -, -, m5⟩ := hsol.again he (b2 := b2)
    (by
      intro c hc
      obtain ⟨b1, -⟩ := hsol.cb c hc
      unfold ReadableConstants
      rw [b1, k1]
      exact ⟨fun h => absurd h (by decide), fun h => absurd h (by decide)⟩)
    (fun h => absurd h k2) henv hw2 (henv.symm ▸ hnc)
  obtain ⟨c', m6, m7⟩ := m5 (by rw [k1]; decide) c hcb
  exact ⟨r2, w3, c', m1, m6, m7⟩

/-- C34 for decider combinators: the function survives if and only if neither the second operand nor the output is
a constant. -/
theorem C34_decider_iff_partial {env : Env} {w w' w2 : World} {r : Ref} {d : Dict} {c : Cb} {b2 : BpId}
    (hrun : SteadyRun env w) (hr : r < w.next) (hs : (w.heap r).strict = true)
    (ht : TypeOf env (w.heap r).name "decider-combinator") (hcb : (w.heap r).cb = some c)
    (he : entToJson r w = (.ok (.dict d), w')) (henv : w2.env = env) (hw2 : (w2.bp b2).conns = [])
    (hnc : NoCustom env (w2.bp b2) (w.heap r).name) :
    (∃ r2 w3 c', layerMake b2 d w2 = (.ok r2, w3) ∧ (w3.heap r2).cb = some c' ∧ SameFunction c c') ↔
      ¬ ConstantAt c "second" ∧ ¬ ConstantAt c "output" := by
  obtain ⟨h1, -, h3⟩ := hrun.inv
  subst h1
  have hsol := h3 r hr hs
  obtain ⟨k1, -, -, -, k2⟩ := hsol.decider ht
  constructor
  · rintro ⟨r2, w3, c', m1, m2, m3⟩
    exact ⟨fun hk => hsol.deciderLost ht he hcb henv (henv.symm ▸ hnc) m1 m2 (.inl hk) m3,
      fun hk => hsol.deciderLost ht he hcb henv (henv.symm ▸ hnc) m1 m2 (.inr hk) m3⟩
  · intro hk
    obtain ⟨r2, w3, d', w4, m1, -, -, -, m5⟩ := hsol.again he (b2 := b2)
      (by
        intro c' hc
        rw [hcb] at hc
        cases hc
        obtain ⟨b1, -⟩ := hsol.cb c hcb
        unfold ReadableConstants
        rw [b1, k1]
        exact ⟨fun h => absurd h (by decide), fun _ => hk⟩)
      (fun h => absurd h k2) henv hw2 (henv.symm ▸ hnc)
    obtain ⟨c', m6, m7⟩ := m5 (by rw [k1]; decide) c hcb
    exact ⟨r2, w3, c', m1, m6, m7⟩

/-- Decider conditions with a first signal and a `constant`, as the game exports a comparison with a constant, are
never accepted. -/
theorem C34_decider_constant_refused {w w' : World} {b : BpId} {kw x cond : Dict} {r : Ref} {name : String} {v : Val}
    (hn : List.lookup "name" kw = some (.str name)) (ht : TypeOf w.env name "decider-combinator")
    (hs : Strict kw) (hnc : NoCustom w.env (w.bp b) name)
    (hx : List.lookup "control_behavior" kw = some (.dict x))
    (hcond : List.lookup "decider_conditions" x = some (.dict cond))
    (h1 : List.lookup "first_signal" cond ≠ none) (h2 : List.lookup "constant" cond = some v) (hv : v ≠ .none) :
    layerMake b kw w ≠ (.ok r, w') :=
  deciderRefused hn ht hs hnc hx hcond h1 h2 hv

/-- C34 does not hold for decider combinators. -/
theorem C34_false_decider : ¬ FunctionKept "decider-combinator" := by
  intro h
  have hw : SteadyRun Sample.env (Sample.made Sample.decConst) := .step (.make 0 Sample.decConst) .init trivial trivial
  have hcb : ((Sample.made Sample.decConst).heap 0).cb.isSome = true := by decide +kernel
  obtain ⟨c, hc⟩ := Option.isSome_iff_exists.1 hcb
  have hsec : ((Sample.made Sample.decConst).heap 0).cb.all
      (fun c => List.lookup "second" c.attrs == some (.int 3)) = true := by decide +kernel
  rw [hc] at hsec
  have hsec : List.lookup "second" c.attrs = some (.int 3) := by simpa using hsec
  have hname : ((Sample.made Sample.decConst).heap 0).name = "dec" := by decide +kernel
  have ht : TypeOf Sample.env ((Sample.made Sample.decConst).heap 0).name "decider-combinator" := by
    rw [hname]
    exact ⟨_, rfl, rfl⟩
  have hex : ∃ d w', entToJson 0 (Sample.made Sample.decConst) = (.ok (.dict d), w') :=
    ⟨_, _, Sample.run_eq (a := Except.ok (Val.dict
      ([("entity_number", .int 1)] ++ Sample.ent "dec" 0 0 ++ [("control_behavior", .dict [("decider_conditions", .dict
      [("comparator", .str ">"), ("first_signal", Sample.sig "A" "virtual"), ("constant", .int 3),
       ("copy_count_from_input", .bool false)])])]))) (by decide +kernel)⟩
  obtain ⟨d, w', hd⟩ := hex
  have key := C34_decider_iff_partial hw (by decide +kernel) (by decide +kernel) ht hc hd
    (w2 := World.init Sample.env) (b2 := 0) rfl rfl (fun _ _ => rfl)
  exact (key.1 (h _ _ _ _ _ _ hw (by decide +kernel) (by decide +kernel) ht hc hd (World.init Sample.env) 0 rfl rfl
    (fun _ _ => rfl))).1 ⟨3, hsec⟩

/-- A decider with a constant first operand keeps its function. -/
def Sample.decFirst : Dict := Sample.ent "dec" 0 0 ++ [("control_behavior", .dict [("decider_conditions", .dict
  [("constant", .int 3), ("comparator", .str ">"), ("second_signal", Sample.sig "A" "virtual"),
   ("copy_count_from_input", .bool true)])])]

example : ∃ c, ((Sample.made Sample.decFirst).heap 0).cb = some c ∧ ConstantAt c "first" ∧
    ¬ ConstantAt c "second" ∧ ¬ ConstantAt c "output" := by
  have hcb : ((Sample.made Sample.decFirst).heap 0).cb.isSome = true := by decide +kernel
  obtain ⟨c, hc⟩ := Option.isSome_iff_exists.1 hcb
  have hsec : ((Sample.made Sample.decFirst).heap 0).cb.all (fun c => List.lookup "first" c.attrs == some (.int 3) &&
      List.lookup "second" c.attrs == some (.str "A") && List.lookup "output" c.attrs == some .none) = true := by decide +kernel
  rw [hc] at hsec
  simp only [Option.all_some, Bool.and_eq_true, beq_iff_eq] at hsec
  obtain ⟨⟨h1, h2⟩, h3⟩ := hsec
  refine ⟨c, hc, ⟨3, h1⟩, ?_, ?_⟩
  · rintro ⟨z, hz⟩; rw [h2] at hz; cases hz
  · rintro ⟨z, hz⟩; rw [h3] at hz; cases hz

example (r : Ref) (w' : World) : layerMake 0 (Sample.ent "dec" 0 0 ++ [("control_behavior", .dict [("decider_conditions", .dict
    [("first_signal", Sample.sig "A" "virtual"), ("comparator", .str ">"), ("constant", .int 3)])])])
    (World.init Sample.env) ≠ (.ok r, w') :=
  C34_decider_constant_refused (name := "dec") rfl ⟨_, rfl, rfl⟩ (fun v h => by cases h) (fun _ _ => rfl) rfl rfl
    (fun h => by cases h) rfl (fun h => by cases h)

end Verif
