import Verif.Py.Text
/-!
# Prototype tables and the name descriptors

`SignalName` (`entity_mixins.py:72-111`), `RecipeName` (`726-751`), `Operator` (`55-69`),
`util.NameStr` (`util.py:266-286`), and the class attributes of `Blueprint` that hold the prototype
data (`blueprint.py:138-142`).
-/
set_option autoImplicit false

namespace Verif

/-- `Blueprint.entity_prototypes` … `tile_prototypes` (`blueprint.py:138-142`) and the static table
`defaultentities.defaultentities` that `util.NameStr` consults (`util.py:268-273`), kept as a
parameter. -/
structure Env where
  entities : Dict := []
  recipes : Dict := []
  items : Dict := []
  signals : Dict := []
  tiles : Dict := []
  defaults : Dict := []

/-- `value in table` for a JSON value and a table with string keys: an unhashable value raises
`TypeError`. -/
def inTable (t : Dict) (v : Val) : Except Exc Bool :=
  match v with
  | .str s => .ok (Dict.mem t s)
  | v => if v.hashable then .ok false else .error .typeError

/-- `SignalName.__set__` (`entity_mixins.py:88-103`): the value that is stored.  The instances that
carry the descriptor (control behaviours, filters, items, icons) have no attribute `strict`, so the
check is always on.  Note `type(value) is int` excludes `bool`; falsy values are stored unchecked. -/
def signalSet (env : Env) (v : Val) : Except Exc Val :=
  match v with
  | .num (.int z) => .ok (.int z)
  | _ =>
    let v := match v with
      | .dict d => Dict.getD d "name" .none
      | v => v
    if v.truthy then do
      if ← inTable env.signals v then .ok v else .error .unknownSignal
    else .ok v

/-- `SignalName.__get__` (`entity_mixins.py:105-111`), applied to the stored value: `None`, an `int`
or a name (`NameStr(value)`, i.e. `str(value)`).  Only falsy values can be stored besides `None`, `int`
and known names; their text is `str(False)`, `str(0.0)`, `str([])`, `str({})`. -/
def signalGet (v : Val) : Val :=
  match v with
  | .none => .none
  | .num (.int z) => .int z
  | .str s => .str s
  | .bool b => .str (if b then "True" else "False")
  | .num (.flt _) => .str "0.0"
  | .list _ => .str "[]"
  | .dict _ => .str "{}"

/-- `SignalName.NameStr.to_json` (`entity_mixins.py:79-83`). -/
def signalJson (env : Env) (s : String) : Except Exc Val := do
  let data ← Dict.getItem env.signals s
  let t ← data.subscript "type"
  return .dict [("name", .str s), ("type", t)]

/-- `x.to_json()` for the result of a `SignalName` descriptor: `None` and `int` have no `to_json`. -/
def signalToJson (env : Env) (v : Val) : Except Exc Val :=
  match v with
  | .str s => signalJson env s
  | _ => .error .attributeError

/-- `Operator.__set__` (`entity_mixins.py:62-66`). -/
def operatorSet (options : List String) (v : Val) : Except Exc Val :=
  match v with
  | .none => .ok v
  | .str s => if options.contains s then .ok v else .error .valueError
  | _ => .error .valueError

/-- `util.NameStr(value)` (`util.py:267-274`): checked against the static table. -/
def nameStr (env : Env) (v : Val) : Except Exc Val :=
  match v with
  | .none => .ok .none
  | .str s => if (Dict.getD env.defaults s .none).truthy then .ok v else .error .unknownEntity
  | v => if v.hashable then .error .unknownEntity else .error .typeError

/-- `RecipeName.__set__` (`entity_mixins.py:736-745`); `strict` is the attribute of the entity. -/
def recipeSet (env : Env) (strict : Bool) (v : Val) : Except Exc Val :=
  if !strict then .ok v
  else match v with
    | .none => .ok .none
    | v => do if ← inTable env.recipes v then .ok v else .error .unknownRecipe

end Verif
