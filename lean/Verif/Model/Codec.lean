import Verif.Py.Base64
import Verif.Py.Json
import Verif.Model.Blueprint
/-!
# Exchange strings

`/repo/py_factorio_blueprints/util.py:8-46` and the methods of `Blueprint` that use them
(`blueprint.py:204-214, 295-300`).

`zlib` and the text of floats are parameters of the model (`Runtime`); what is assumed about them is a
hypothesis of the theorems that need it.  base64, UTF-8 and JSON are modelled (`Py/Base64.lean`,
`Py/Json.lean`; UTF-8 is the one of Lean's `String`).
-/
set_option autoImplicit false

namespace Verif

/-- `zlib.compress` and `zlib.decompress`; `none` is `zlib.error`. -/
structure Zlib where
  compress : List UInt8 → List UInt8
  decompress : List UInt8 → Option (List UInt8)

/-- The parts of the Python runtime that are not modelled. -/
structure Runtime where
  float : FloatText
  zlib : Zlib

/-- `bytes(s, 'UTF-8')` -/
def utf8 (s : List Char) : List UInt8 := (String.ofList s).toByteArray.data.toList

/-- `b.decode('UTF-8')`; `none` is `UnicodeDecodeError`. -/
def unUtf8 (b : List UInt8) : Option (List Char) := (ByteArray.utf8Decode? ⟨b.toArray⟩).map (·.toList)

/-- `_encode_0` (`util.py:19-23`); `encode` always uses it (`util.py:34-35, 41-46`). -/
def encode (rt : Runtime) (v : Val) : String :=
  String.ofList ('0' :: B64.encode (rt.zlib.compress (utf8 (Json.dumps rt.float v))))

/-- `_decode_0` (`util.py:8-16`).  `TypeError`, `binascii.Error` and `zlib.error` become
`InvalidExchangeString`; the `ValueError`s of `b64decode` (a character that is not ASCII), of `decode`
(`UnicodeDecodeError`) and of `json.loads` (`JSONDecodeError`) are not caught. -/
def decode0 (rt : Runtime) (s : List Char) : Except Exc Val :=
  match B64.decode (s.drop 1) with
  | .error e => .error e
  | .ok none => .error .invalidExchangeString
  | .ok (some z) =>
    match rt.zlib.decompress z with
    | none => .error .invalidExchangeString
    | some b =>
      match unUtf8 b with
      | none => .error .valueError
      | some t => Json.loads rt.float t

/-- `decode` (`util.py:26-31`): `string[0]` raises `IndexError` on the empty string; of the keys of
the table (`util.py:38-40, 45`) only `'0'` is a single character. -/
def decode (rt : Runtime) (s : String) : Except Exc Val :=
  match s.toList with
  | [] => .error .indexError
  | c :: r => if c = '0' then decode0 rt (c :: r) else .error .invalidExchangeString

/-! ## Dicts with other keys than strings

`json.dumps` accepts `int`, `float`, `bool` and `None` keys and writes them as strings
(`Lib/json/encoder.py`, `_iterencode_dict`). -/

/-- A key of a Python dict that `json.dumps` accepts. -/
inductive PyKey where
  | str (s : String)
  | int (z : Int)
  | flt (q : Rat)
  | bool (b : Bool)
  | none

/-- A Python value that `json.dumps` accepts. -/
inductive PyVal where
  | none
  | bool (b : Bool)
  | num (n : Num)
  | str (s : String)
  | list (l : List PyVal)
  | dict (d : List (PyKey × PyVal))

def PyKey.text (f : FloatText) : PyKey → String
  | .str s => s
  | .int z => String.ofList (Json.intText z)
  | .flt q => String.ofList (f.repr q)
  | .bool true => "true"
  | .bool false => "false"
  | .none => "null"

mutual
/-- The value as it is written, all keys strings. -/
def PyVal.json (f : FloatText) : PyVal → Val
  | .none => .none
  | .bool b => .bool b
  | .num n => .num n
  | .str s => .str s
  | .list l => .list (PyVal.jsonList f l)
  | .dict d => .dict (PyVal.jsonDict f d)
def PyVal.jsonList (f : FloatText) : List PyVal → List Val
  | [] => []
  | v :: l => v.json f :: PyVal.jsonList f l
def PyVal.jsonDict (f : FloatText) : List (PyKey × PyVal) → Dict
  | [] => []
  | (k, v) :: d => (k.text f, v.json f) :: PyVal.jsonDict f d
end

/-- `encode` of such a value. -/
def encodePy (rt : Runtime) (v : PyVal) : String := encode rt (v.json rt.float)

/-! ## Blueprints -/

/-- `Blueprint.to_json_string` (`blueprint.py:295-296`) -/
def toJsonString (rt : Runtime) (b : BpId) : M String := do
  let v ← toJson b
  return String.ofList (Json.dumps rt.float v)

/-- `Blueprint.to_string` (`blueprint.py:298-300`) -/
def toStringBp (rt : Runtime) (b : BpId) : M String := do
  let v ← toJson b
  return encode rt v

/-- `Blueprint.__eq__` with another blueprint (`blueprint.py:211-214`). -/
def bpEq (rt : Runtime) (b c : BpId) : M Bool := do
  let s ← toStringBp rt b
  let t ← toStringBp rt c
  return s == t

/-- What a blueprint is compared with: a blueprint, or an object of another class that does not compare itself with
blueprints. -/
inductive Compared where
  | bp (c : BpId)
  | other
deriving DecidableEq, Repr

/-- `bp == x` (`blueprint.py:211-214`): `NotImplemented` for other objects, after which Python compares identities. -/
def bpEqAny (rt : Runtime) (b : BpId) : Compared → M Bool
  | .bp c => bpEq rt b c
  | .other => return false

/-- `bp != x`: Python negates `__eq__`. -/
def bpNeAny (rt : Runtime) (b : BpId) (x : Compared) : M Bool := do
  return !(← bpEqAny rt b x)

/-- `if string is not None: data = util.decode(string)` (`blueprint.py:205-206`) -/
def ctorData (rt : Runtime) (string : Option String) (data : Val) : Except Exc Val :=
  match string with
  | some s => decode rt s
  | none => .ok data

/-- `if data is not None: self.load(data)` (`blueprint.py:208-209`) -/
def loadGiven (b : BpId) (data : Val) : M Unit :=
  match data with
  | .none => pure ()
  | d => load b d

/-- `Blueprint(string, data, custom_entity_prototypes=custom, strict=strict)` (`blueprint.py:184-209`), creating the
object `b`.  Simplification: `verbose` is stored and read nowhere and is left out. -/
def construct (rt : Runtime) (b : BpId) (string : Option String) (data : Val) (custom : Option Custom)
    (strict : Bool) : M Unit := do
  modBp b (fun _ => { custom := custom.getD [], strict := strict })
  let data ← M.lift (ctorData rt string data)
  loadGiven b data

/-- The constructor with further keyword arguments, which go to `object.__init__` (`blueprint.py:186-187`). -/
def constructWith (rt : Runtime) (b : BpId) (string : Option String) (data : Val) (custom : Option Custom)
    (strict : Bool) (further : Dict) : M Unit :=
  if further.isEmpty then construct rt b string data custom strict else M.throw .typeError

end Verif
