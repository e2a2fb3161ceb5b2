import Verif.Model.Env
/-!
# `Condition` and `SignalID` — `/repo/py_factorio_blueprints/util.py:211-263, 289-304`

Neither class is used by the rest of the library; both are part of its public module `util`.
-/
set_option autoImplicit false

namespace Verif

/-- Is `p` a substring of `s`? -/
def hasSub (p : List Char) : List Char → Bool
  | [] => p.isEmpty
  | c :: s => p.isPrefixOf (c :: s) || hasSub p s

/-- A `Condition` object; `first` is `None` or a name, `second` `None`, a name, an `int` or a `bool`. -/
structure Condition where
  first : Val
  second : Val
  comparator : Val
deriving DecidableEq, Repr

namespace Condition

/-- `[">", "<", "=", ">=", "<=", "!="]` (`util.py:245`) -/
def comparators : List String := [">", "<", "=", ">=", "<=", "!="]

/-- `if "name" in first_signal: first_signal = first_signal["name"]` (`util.py:214-215`): a string that
contains `name` is subscripted with a string, other values than dicts, lists and strings have no `in`. -/
def firstOf (v : Val) : Except Exc Val :=
  match v with
  | .dict d => if Dict.mem d "name" then Dict.getItem d "name" else .ok v
  | .list l => if l.contains (.str "name") then .error .typeError else .ok v
  | .str s => if hasSub "name".toList s.toList then .error .typeError else .ok v
  | _ => .error .typeError

/-- The setter of `second` (`util.py:232-237`); `isinstance(True, int)` holds. -/
def secondOf (env : Env) (v : Val) : Except Exc Val :=
  match v with
  | .num (.int z) => .ok (.int z)
  | .bool b => .ok (.bool b)
  | v => nameStr env v

/-- The setter of `comparator` (`util.py:243-247`). -/
def comparatorOf (v : Val) : Except Exc Val :=
  match v with
  | .str s => if comparators.contains s then .ok v else .error .valueError
  | _ => .error .valueError

/-- The four keyword parameters (`util.py:212-213`). -/
def params : List String := ["first_signal", "comparator", "constant", "second_signal"]

/-- `second_signal or constant` (`util.py:217`) -/
def orElse (a b : Val) : Val := if a.truthy then a else b

/-- `Condition(**kw)` (`util.py:212-218`). -/
def new (env : Env) (kw : Dict) : Except Exc Condition :=
  if kw.any (fun p => !params.contains p.1) then .error .typeError
  else do
    let f ← firstOf (Dict.getD kw "first_signal" .none)
    let f ← nameStr env f
    let s ← secondOf env (orElse (Dict.getD kw "second_signal" .none) (Dict.getD kw "constant" .none))
    let c ← comparatorOf (Dict.getD kw "comparator" .none)
    return ⟨f, s, c⟩

/-- `{"name": name, "type": name.type}` with `NameStr.type` (`util.py:282-286`). -/
def nameJson (env : Env) (s : String) : Except Exc Val := do
  let t ← (Dict.getD env.defaults s .none).subscript "type"
  return .dict [("name", .str s), ("type", t)]

/-- The entry for `first` (`util.py:251-254`); the attribute is `None` or a name. -/
def firstJson (env : Env) (v : Val) : Except Exc Dict :=
  match v with
  | .none => .ok []
  | .str s => do return [("first_signal", ← nameJson env s)]
  | _ => .error .unmodelled

/-- The entry for `second` (`util.py:256-262`). -/
def secondJson (env : Env) (v : Val) : Except Exc Dict :=
  match v with
  | .none => .ok []
  | .num (.int z) => .ok [("constant", .int z)]
  | .bool b => .ok [("constant", .bool b)]
  | .str s => do return [("second_signal", ← nameJson env s)]
  | _ => .error .unmodelled

/-- `Condition.to_json` (`util.py:249-263`) -/
def toJson (env : Env) (c : Condition) : Except Exc Dict := do
  let f ← firstJson env c.first
  let s ← secondJson env c.second
  return f ++ [("comparator", c.comparator)] ++ s

end Condition

/-- `SignalID(data)` (`util.py:290-291`): the name. -/
def signalIdNew (env : Env) (data : Val) : Except Exc Val := do nameStr env (← data.subscript "name")

/-- `SignalID.to_json` (`util.py:293-304`): `entity_data[self.name]['type']`. -/
def signalIdJson (env : Env) (name : Val) : Except Exc Val :=
  match name with
  | .str s => do
      let t ← (← Dict.getItem env.defaults s).subscript "type"
      return .dict [("name", .str s), ("type", t)]
  | _ => .error .keyError

end Verif
