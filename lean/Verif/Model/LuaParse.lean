import Verif.Model.LuaJson
/-!
# The JSON reader of the data gatherer — `/repo/blueprint_data_gatherer/json.lua:26-63, 109-155`

`json.parse` with `skip_delim`, `parse_str_val` and `parse_num_val`.  Errors of Lua are `none`; a position in the text
is what is left of the text.

Simplifications: those of `Model/LuaJson`; `tonumber` is a parameter; `json.null` is an empty table, its identity is not
modelled; a table as a key of an object is the key `other`.
-/
set_option autoImplicit false

namespace Verif.Lua

/-- `%s` -/
def isSpace (c : Char) : Bool :=
  c = ' ' || c = '\t' || c = '\n' || c = Char.ofNat 11 || c = Char.ofNat 12 || c = '\r'

/-- `pos + #str:match('^%s*', pos)` -/
def skipSpace (s : List Char) : List Char := s.dropWhile isSpace

/-- `skip_delim` (`json.lua:30-39`); the callers that ask for an error look at the second component. -/
def skipDelim (d : Char) (s : List Char) : List Char × Bool :=
  match skipSpace s with
  | c :: r => if c = d then (r, true) else (c :: r, false)
  | [] => ([], false)

/-- `esc_map[nextc] or nextc` (`json.lua:51, 54`) -/
def unescape (c : Char) : Char :=
  if c = 'b' then Char.ofNat 8 else if c = 'f' then Char.ofNat 12 else if c = 'n' then '\n'
  else if c = 'r' then '\r' else if c = 't' then '\t' else c

/-- `parse_str_val` (`json.lua:43-55`): the text up to the closing quote, and what is left.  After a backslash at the end
of the text `nextc` is the empty string, and the next call reports the end. -/
def parseStr : List Char → Option (List Char × List Char)
  | [] => none
  | '"' :: r => some ([], r)
  | ['\\'] => none
  | '\\' :: c :: r => (parseStr r).map (fun p => (unescape c :: p.1, p.2))
  | c :: r => (parseStr r).map (fun p => (c :: p.1, p.2))

/-- One character of the class, if there is one: `[…]?` -/
def optional (p : Char → Bool) : List Char → List Char × List Char
  | c :: r => if p c then ([c], r) else ([], c :: r)
  | [] => ([], [])

/-- `str:match('^-?%d+%.?%d*[eE]?[+-]?%d*', pos)` (`json.lua:59`).  All that follows `%d+` may be missing, so the longest
match of each part is taken. -/
def matchNum (s : List Char) : Option (List Char × List Char) :=
  let sign := optional (· = '-') s
  let whole := sign.2.span Char.isDigit
  if whole.1.isEmpty then none
  else
    let dot := optional (· = '.') whole.2
    let frac := dot.2.span Char.isDigit
    let e := optional (fun c => c = 'e' || c = 'E') frac.2
    let sg := optional (fun c => c = '+' || c = '-') e.2
    let ds := sg.2.span Char.isDigit
    some (sign.1 ++ (whole.1 ++ (dot.1 ++ (frac.1 ++ (e.1 ++ (sg.1 ++ ds.1))))), ds.2)

/-- `parse_num_val` (`json.lua:58-63`) -/
def parseNum (tonumber : List Char → Option Rat) (s : List Char) : Option (LVal × List Char) :=
  match matchNum s with
  | none => none
  | some (t, r) => (tonumber t).map (fun q => (.num q, r))

/-- The literals (`json.lua:147-151`) -/
def parseLit (s : List Char) : Option (LVal × List Char) :=
  if ['t', 'r', 'u', 'e'].isPrefixOf s then some (.bool true, s.drop 4)
  else if ['f', 'a', 'l', 's', 'e'].isPrefixOf s then some (.bool false, s.drop 5)
  else if ['n', 'u', 'l', 'l'].isPrefixOf s then some (.table [], s.drop 4)
  else none

/-- A value as a key of a table. -/
def keyOf : LVal → Key
  | .str s => .str s
  | .num q => .num q
  | .bool b => .bool b
  | _ => .other

/-- `obj[k] = v` -/
def setKey (t : List (Key × LVal)) (k : Key) (v : LVal) : List (Key × LVal) :=
  match t with
  | [] => [(k, v)]
  | (l, u) :: t => if l = k then (l, v) :: t else (l, u) :: setKey t k v

/-- The table with the given values at the indices from `i`. -/
def arrayFrom (i : Nat) : List LVal → List (Key × LVal)
  | [] => []
  | v :: vs => (.num (i : Rat), v) :: arrayFrom (i + 1) vs

mutual
/-- `json.parse(str, pos, end_delim)` (`json.lua:111-155`): the value, none at the end delimiter, and what is left.  The
number bounds the recursion. -/
def parse (tonumber : List Char → Option Rat) : Nat → Option Char → List Char → Option (Option LVal × List Char)
  | 0, _, _ => none
  | n + 1, stop, s =>
    match skipSpace s with
    | [] => none
    | c :: r =>
      if c = '{' then parseObj tonumber n [] true r
      else if c = '[' then parseArr tonumber n [] true r
      else if c = '"' then (parseStr r).map (fun p => (some (.str (String.ofList p.1)), p.2))
      else if c = '-' || c.isDigit then (parseNum tonumber (c :: r)).map (fun p => (some p.1, p.2))
      else if some c = stop then some (none, r)
      else (parseLit (c :: r)).map (fun p => (some p.1, p.2))

/-- The loop for an object (`json.lua:119-126`); `found` is `delim_found`. -/
def parseObj (tonumber : List Char → Option Rat) : Nat → List (Key × LVal) → Bool → List Char →
    Option (Option LVal × List Char)
  | 0, _, _, _ => none
  | n + 1, obj, found, s =>
    match parse tonumber n (some '}') s with
    | none => none
    | some (none, r) => some (some (.table obj), r)
    | some (some k, r) =>
      if !found then none
      else match skipDelim ':' r with
      | (_, false) => none
      | (r, true) =>
        match parse tonumber n none r with
        | some (some v, r) => parseObj tonumber n (setKey obj (keyOf k) v) (skipDelim ',' r).2 (skipDelim ',' r).1
        | _ => none

/-- The loop for an array (`json.lua:130-136`). -/
def parseArr (tonumber : List Char → Option Rat) : Nat → List LVal → Bool → List Char → Option (Option LVal × List Char)
  | 0, _, _, _ => none
  | n + 1, arr, found, s =>
    match parse tonumber n (some ']') s with
    | none => none
    | some (none, r) => some (some (.table (arrayFrom 1 arr)), r)
    | some (some v, r) =>
      if !found then none
      else parseArr tonumber n (arr ++ [v]) (skipDelim ',' r).2 (skipDelim ',' r).1
end

/-- `json.parse(str)`, the value only: text after it is ignored. -/
def parseText (tonumber : List Char → Option Rat) (s : List Char) : Option LVal :=
  (parse tonumber (2 * s.length + 2) none s).bind (·.1)

end Verif.Lua
