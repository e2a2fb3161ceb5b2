import Verif.Model.Gatherer
/-!
# The JSON writer of the data gatherer — `/repo/blueprint_data_gatherer/json.lua`

`json.stringify` (`json.lua:65-107`) with `kind_of` (`json.lua:7-15`) and `escape_str` (`json.lua:17-24`), as
called by `write_data` (`control.lua:183-189`).  Errors of Lua are `none`.

Simplifications: strings are sequences of characters (Lua: their UTF-8 bytes; only ASCII bytes are replaced);
numbers are finite and exact, and the text which `tostring` gives them is a parameter.  `json.parse` is
in `Model/LuaParse`.
-/
set_option autoImplicit false

namespace Verif.Lua

/-- A key of a table; `other`: tables, functions and userdata. -/
inductive Key where
  | str (s : String)
  | num (q : Rat)
  | bool (b : Bool)
  | other
  deriving DecidableEq

/-- A Lua value.  A table is the list of its pairs in the order in which `pairs` visits them, each key once. -/
inductive LVal where
  | nil
  | bool (b : Bool)
  | num (q : Rat)
  | str (s : String)
  | table (t : List (Key × LVal))
  | other

/-- `obj[k]` -/
def get? {α : Type} (k : Key) : List (Key × α) → Option α
  | [] => none
  | (l, v) :: t => if l = k then some v else get? k t

/-- The loop of `kind_of`: one round for each pair; `none`: it returns `'table'` early. -/
def kindLoop {α : Type} (obj : List (Key × α)) : Nat → List (Key × α) → Option Nat
  | i, [] => some i
  | i, _ :: l => if (get? (.num i) obj).isSome then kindLoop obj (i + 1) l else none

/-- `kind_of(obj) == 'array'` for a table. -/
def isArray {α : Type} (obj : List (Key × α)) : Bool :=
  match kindLoop obj 1 obj with
  | some i => i ≠ 1
  | none => false

/-- `ipairs(obj)`, from index `i`; the first number bounds the recursion. -/
def ipairs {α : Type} (obj : List (Key × α)) : Nat → Nat → List α
  | 0, _ => []
  | n + 1, i =>
    match get? (.num i) obj with
    | some v => v :: ipairs obj n (i + 1)
    | none => []

/-- `s:gsub(c, r)` for a character `c` that is not magic and a replacement without `%`. -/
def gsub (c : Char) (r : List Char) (s : List Char) : List Char := s.flatMap (fun x => if x = c then r else [x])

/-- `in_char` and `out_char` -/
def escapes : List (Char × Char) :=
  [('\\', '\\'), ('"', '"'), ('/', '/'), (Char.ofNat 8, 'b'), (Char.ofNat 12, 'f'), ('\n', 'n'), ('\r', 'r'),
   ('\t', 't')]

/-- `escape_str` (`json.lua:17-24`) -/
def escapeStr (s : List Char) : List Char :=
  escapes.foldl (fun (s : List Char) (p : Char × Char) => gsub p.1 ['\\', p.2] s) s

/-- `string.rep(tab, n)` -/
def tabs (n : Nat) : List Char := List.replicate (2 * n) ' '

def quote (s : List Char) : List Char := '"' :: (s ++ ['"'])

/-- `json.stringify(k, tv, true)` -/
def keyText (num : Rat → List Char) : Key → Option (List Char)
  | .str s => some (quote (escapeStr s.toList))
  | .num q => some (quote (num q))
  | .bool true => some ['t', 'r', 'u', 'e']
  | .bool false => some ['f', 'a', 'l', 's', 'e']
  | .other => none

/-- Texts separated by `sep`. -/
def joinWith (sep : List Char) : List (List Char) → List Char
  | [] => []
  | t :: l => t ++ l.flatMap (fun (x : List Char) => sep ++ x)

/-- A bracketed block: the items on lines of their own. -/
def block (o c : Char) (tv : Nat) (items : List (List Char)) : List Char :=
  o :: '\n' :: (tabs (tv + 1) ++ (joinWith (',' :: '\n' :: tabs (tv + 1)) items ++ '\n' :: (tabs tv ++ [c])))

/-- A key with its value, both as text. -/
def pairText (num : Rat → List Char) (p : Key × List Char) : Option (List Char) :=
  (keyText num p.1).map (fun (k : List Char) => k ++ (' ' :: ':' :: ' ' :: p.2))

/-- The text of a table whose values have the given texts. -/
def tableText (num : Rat → List Char) (tv : Nat) (t : List (Key × List Char)) : Option (List Char) :=
  if isArray t then some (block '[' ']' tv (ipairs t t.length 1))
  else (t.mapM (pairText num)).map (block '{' '}' tv)

mutual
/-- `json.stringify(obj, tv)` (`json.lua:65-107`); `num` is `tostring` on numbers. -/
def stringify (num : Rat → List Char) (tv : Nat) : LVal → Option (List Char)
  | .nil => some ['n', 'u', 'l', 'l']
  | .bool true => some ['t', 'r', 'u', 'e']
  | .bool false => some ['f', 'a', 'l', 's', 'e']
  | .num q => some (num q)
  | .str s => some (quote (escapeStr s.toList))
  | .table t => (stringifyAll num (tv + 1) t).bind (tableText num tv)
  | .other => none

/-- The texts of the values of a table. -/
def stringifyAll (num : Rat → List Char) (tv : Nat) : List (Key × LVal) → Option (List (Key × List Char))
  | [] => some []
  | (k, v) :: t => (stringify num tv v).bind (fun (x : List Char) => (stringifyAll num tv t).map ((k, x) :: ·))
end

end Verif.Lua
