import Verif.Props.Sample
/-!
# The unit tests of the repository, run on the model

These are *tests* of the model, not properties: each `example` is one assertion of `/repo/tests`, evaluated.
They check that the model agrees with what the authors expect of the code.  Not included: `repr`, the
identity test of `copy`, and the tests that read the files in `tests/blueprint_strings`.
-/
set_option autoImplicit false

namespace Verif.RepoTests

/-! ## `tests/test_util.py`: `TestColor` -/

example : Color.new = ⟨.int 1, .int 1, .int 1, .int 1⟩ := by decide +kernel

example : (Color.ofKwargs [("r", .int 0), ("g", .flt (1/4)), ("b", .flt (1/2)), ("a", .flt (3/4))]).map
    (Color.eqv (Color.new (.int 0) (.flt (1/4)) (.flt (1/2)) (.flt (3/4)))) = .ok true := by decide +kernel

example : (Color.ofKwargs [("r", .int 0), ("g", .flt (1/4))]).map
    (Color.eqv (Color.new (.int 0) (.flt (1/4)))) = .ok true := by decide +kernel

example : Color.new (.int 10) (.int 10) (.int 10) (.int 10) = ⟨.int 1, .int 1, .int 1, .int 1⟩ := by
  decide +kernel

example : Color.new (.int (-10)) (.int (-10)) (.int (-10)) (.int (-10)) =
    ⟨.int 0, .int 0, .int 0, .int 0⟩ := by decide +kernel

example : (Color.ofKwargs [("r", .int 0), ("g", .flt (1/4)), ("b", .flt (1/2)), ("a", .flt (3/4))]).map
    Color.toJson =
    .ok (.dict [("r", .int 0), ("g", .flt (1/4)), ("b", .flt (1/2)), ("a", .flt (3/4))]) := by
  decide +kernel

/-! ## `TestDirection` -/

example : (Direction.new 0).n = 0 ∧ (Direction.new 8).n = 0 ∧ (Direction.new 7).n = 7 ∧
    (Direction.new (-1)).n = 7 := by decide

example : ((Direction.new 1).add 1).n = 2 ∧ ((Direction.new 3).add 7).n = 2 := by decide

example : ((Direction.new 3).sub 2).n = 1 ∧ ((Direction.new 1).sub 2).n = 7 := by decide

example : Direction.up.isUp ∧ Direction.right.isRight ∧ Direction.down.isDown ∧ Direction.left.isLeft := by
  decide

example : (Direction.up.rotate 1).isRight ∧
    ((Direction.up.rotate 1).rotate 6 Direction.COUNTER_CLOCKWISE).isLeft ∧
    (((Direction.up.rotate 1).rotate 6 Direction.COUNTER_CLOCKWISE).rotate45 2).isUp := by decide

/-! ## `TestVector` -/

/-- `Vector(x, y)` with integers. -/
def v (x y : Int) : Vec := ⟨.int x, .int y⟩

/-- `self.assertEqual(result, Vector(…))`: equality of vectors ignores the kind of number. -/
def gives (r : Except Exc Vec) (w : Vec) : Bool :=
  match r with
  | .ok u => u.eqv w
  | .error _ => false

example : Vec.new .noneArg = .ok none ∧ Vec.new .nothing = .ok none := by decide +kernel

example : Vec.new (.two (.int 1) (.int 2)) = .ok (some (v 1 2)) ∧
    Vec.new (.one (.tup [.int 1, .int 2])) = .ok (some (v 1 2)) ∧
    Vec.new (.kw [("x", .int 1), ("y", .int 2)]) = .ok (some (v 1 2)) ∧
    Vec.new (.dict [("x", .int 1), ("y", .int 2)]) = .ok (some (v 1 2)) ∧
    Vec.new .both = .error .typeError := by decide +kernel

example : (Vec.ofVal (.dict [("x", .flt (6/5)), ("y", .flt (17/5))])).map (Option.map Vec.toJson) =
    .ok (some (.dict [("x", .flt (6/5)), ("y", .flt (17/5))])) := by decide +kernel

example : Vec.eqOp (v 1 2) (.tup [.int 1, .int 2]) = .ok true ∧
    Vec.eqOp (v 1 2) (.tup [.int 1, .int 2, .int 3]) = .error .valueError := by decide +kernel

example : (v 1 2).xy = v 1 2 ∧ (v 1 2).yx = v 2 1 := by decide

example : gives ((v 1 2).add (.vec (v 1 3))) (v 2 5) ∧ gives ((v 1 2).add (.tup [.int 1, .int 3])) (v 2 5) ∧
    gives ((v 1 2).add (.num (.int 1))) (v 2 3) ∧ gives ((v 1 2).radd (.num (.int 1))) (v 2 3) := by
  decide +kernel

example : gives ((v 2 4).sub (.vec (v 1 2))) (v 1 2) ∧ gives ((v 2 4).sub (.tup [.int 1, .int 2])) (v 1 2) ∧
    gives ((v 2 4).sub (.num (.int 1))) (v 1 3) ∧ gives ((v 1 2).rsub (.num (.int 4))) (v 3 2) := by
  decide +kernel

example : gives ((v 2 4).mul (.vec (v 2 3))) (v 4 12) ∧ gives ((v 2 4).mul (.tup [.int 2, .int 3])) (v 4 12) ∧
    gives ((v 2 4).mul (.num (.int 2))) (v 4 8) ∧ gives ((v 2 4).rmul (.num (.int 2))) (v 4 8) := by
  decide +kernel

example : gives ((v 4 6).truediv (.vec (v 2 4))) ⟨.int 2, .flt (3/2)⟩ ∧
    gives ((v 4 6).truediv (.tup [.int 2, .int 4])) ⟨.int 2, .flt (3/2)⟩ ∧
    gives ((v 4 6).truediv (.num (.int 3))) ⟨.flt (4/3), .int 2⟩ ∧
    gives ((v 2 4).rtruediv (.tup [.int 4, .int 6])) ⟨.int 2, .flt (3/2)⟩ ∧
    gives ((v 2 3).rtruediv (.num (.int 4))) ⟨.int 2, .flt (4/3)⟩ := by decide +kernel

example : gives ((v 3 7).floordiv (.vec (v 2 3))) (v 1 2) ∧
    gives ((v 3 7).floordiv (.tup [.int 2, .int 3])) (v 1 2) ∧
    gives ((v 3 7).floordiv (.num (.int 2))) (v 1 3) ∧
    gives ((v 2 3).rfloordiv (.num (.int 7))) (v 3 2) := by decide +kernel

example : gives ((v 7 8).mod (.vec (v 5 4))) (v 2 0) ∧ gives ((v 7 8).mod (.tup [.int 5, .int 4])) (v 2 0) ∧
    gives ((v 7 8).mod (.num (.int 5))) (v 2 3) ∧
    (v 3 4).rmod (.num (.int 8)) = .ok (some (v 2 0)) := by decide +kernel

example : (Vec.ceil ⟨.flt (6/5), .flt (43/10)⟩).eqv (v 2 5) ∧
    (Vec.floor ⟨.flt (6/5), .flt (43/10)⟩).eqv (v 1 4) := by decide +kernel

example : ((v 1 2).copy).eqv (v 1 2) := by decide +kernel

example : ((v 1 2).rotate 1).eqv (v (-2) 1) ∧ ((v 1 2).rotate (-1)).eqv (v 2 (-1)) := by decide +kernel

/-! ## `tests/test_entity.py`

The prototype data of the test, and the calls of the test one after the other. -/

def half : Val :=
  .dict [("left_top", .dict [("x", .flt (-1/2)), ("y", .flt (-1/2))]),
    ("right_bottom", .dict [("x", .flt (1/2)), ("y", .flt (1/2))])]

def belt : Dict := [("transport-belt",
  .dict [("type", .str "transport-belt"), ("height", .int 1), ("width", .int 1), ("selection_box", half)])]

def underground : Dict := [("underground-belt",
  .dict [("type", .str "underground-belt"), ("height", .int 1), ("width", .int 1), ("selection_box", half)])]

/-- The world after the two calls of `set_entity_prototype_data`. -/
def entityWorld : World :=
  ((Op.setProtos .entity underground true).run
    ((Op.setProtos .entity belt false).run (World.init {})).2).2

/-- The name and the attribute `type` of a newly constructed entity. -/
def made (env : Env) (kw : Dict) : Except Exc (String × Option Val) :=
  (Entity.new env none none kw).map (fun e => (e.name, Dict.get? e.attrs "type"))

example : made {} [] = .error .typeError := by decide +kernel

example : made {} (Sample.ent "transport-belt" 0 0) = .error .unknownEntity := by decide +kernel

example : made ((Op.setProtos .entity belt false).run (World.init {})).2.env
    (Sample.ent "transport-belt" 0 0) = .ok ("transport-belt", none) := by decide +kernel

example : made entityWorld.env (Sample.ent "transport-belt" 0 0) = .ok ("transport-belt", none) := by
  decide +kernel

example : made entityWorld.env (Sample.ent "underground-belt" 0 0 ++ [("type", .str "input")]) =
    .ok ("underground-belt", some (.str "input")) := by decide +kernel

/-! ## `tests/test_blueprint.py` -/

/-- `test_empty_prototype_data` -/
example : (layerMake 0 (Sample.ent "transport-belt" 0 0) (World.init {})).1 = .error .unknownEntity := by
  decide +kernel

def beltEnv : Env := { entities := belt }

/-- `test_prototype_data_import`, `test_make_entity` -/
example : (layerMake 0 (Sample.ent "transport-belt" 0 0) (World.init beltEnv)).1 = .ok 0 ∧
    (layerMake 0 (Sample.ent "transport-belt" 0 0) (World.init beltEnv)).2.bp 0 = { objs := [0] } := by
  decide +kernel

/-- The world after running some calls. -/
def run (ops : List Op) : World := ops.foldl (fun w op => (op.run w).2) (World.init beltEnv)

/-- `test_add_entity` -/
example : (run [.newEntity none (Sample.ent "transport-belt" 0 0)]).next = 1 ∧
    ((run [.newEntity none (Sample.ent "transport-belt" 0 0), .add 0 (.ent 0)]).bp 0).objs = [0] := by
  decide +kernel

/-- `test_del_entity` -/
example : ((run [.make 0 (Sample.ent "transport-belt" 0 0), .delObj 0 0]).bp 0).objs = [] := by
  decide +kernel

/-- `test_getitem` -/
def grid : World :=
  run ((List.range 5).flatMap (fun (x : Nat) => (List.range 5).map (fun (y : Nat) =>
    .make 0 (Sample.ent "transport-belt" x y))))

example : ∀ x ∈ List.range 5, ∀ y ∈ List.range 5,
    (layerGet 0 (.tup [.int x, .int y]) grid).1 = .ok [5 * x + y] := by decide +kernel

/-- The calls of `test_misc`. -/
def misc : World :=
  run [.make 0 (Sample.ent "transport-belt" 1 2), .newEntity none (Sample.ent "transport-belt" 1 0),
    .newEntity none (Sample.ent "transport-belt" 0 1), .newEntity none (Sample.ent "transport-belt" 1 1),
    .newEntity none (Sample.ent "transport-belt" 1 0), .add 0 (.ent 1), .add 0 (.ent 2), .add 0 (.ent 3),
    .add 0 (.ent 4)]

example : (layerGet 0 (.tup [.int 1, .int 0]) misc).1 = .ok [1, 4] := by decide +kernel

example : 1 ∈ (misc.bp 0).objs ∧ 1 ∉ ((layerDrop 0 1 misc).2.bp 0).objs := by decide +kernel

/-- `test_misc` also expects `DuplicateEntity` from adding the first entity a second time; the code returns
silently (see DESIGN.md and `C12_add_listed`). -/
example : (layerAdd 0 (.ent 0) misc).1 = .ok () := by decide +kernel

/-! ## `tests/test_metaclass.py`

The four classes `A`, `B`, `C`, `D` of the test are numbered. -/

/-- `object`, the base of a class statement without bases; it has no `ControlBehavior`. -/
def object : Klass := ⟨[.object], []⟩

/-- `class A(metaclass=ControlBehaviorMeta)` … `class D(C)`, each with a nested `class ControlBehavior`. -/
def classes : Except Exc (Klass × Klass × Klass × Klass) := do
  let a ← Klass.make (.dyn 0) true [object]
  let b ← Klass.make (.dyn 1) true [object]
  let c ← Klass.make (.dyn 2) true [a, b]
  let d ← Klass.make (.dyn 3) true [c]
  return (a, b, c, d)

/-- An instance of `D` sees the attributes of all four classes, its `ControlBehavior` those of all four
nested classes. -/
example : classes.map (fun k => ([0, 1, 2, 3].all (fun n => k.2.2.2.mro.contains (.dyn n)),
    [0, 1, 2, 3].all (fun n => k.2.2.2.cb.contains (.inner (.dyn n))))) = .ok (true, true) := by
  decide +kernel

end Verif.RepoTests
