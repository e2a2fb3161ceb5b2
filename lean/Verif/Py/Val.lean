import Verif.Py.Num
/-!
# JSON values and ordered dictionaries

`Val` is what `json.loads` produces and what the library's `to_json` methods produce.
A Python `dict` with string keys is an association list in insertion order.
This file models the Python runtime, not code of the repository.
-/
set_option autoImplicit false

namespace Verif

/-- A JSON value. -/
inductive Val where
  | none
  | bool (b : Bool)
  | num (n : Num)
  | str (s : String)
  | list (l : List Val)
  | dict (d : List (String × Val))
deriving Repr

instance : Inhabited Val := ⟨.none⟩

abbrev Dict := List (String × Val)

namespace Val

@[match_pattern] abbrev int (z : Int) : Val := .num (.int z)
@[match_pattern] abbrev flt (q : Rat) : Val := .num (.flt q)

mutual
/-- Structural equality test. -/
def beq : Val → Val → Bool
  | .none, .none => true
  | .bool a, .bool b => a == b
  | .num a, .num b => a == b
  | .str a, .str b => a == b
  | .list a, .list b => beqList a b
  | .dict a, .dict b => beqDict a b
  | _, _ => false
def beqList : List Val → List Val → Bool
  | [], [] => true
  | a :: as, b :: bs => beq a b && beqList as bs
  | _, _ => false
def beqDict : List (String × Val) → List (String × Val) → Bool
  | [], [] => true
  | (k, a) :: as, (l, b) :: bs => (k == l) && beq a b && beqDict as bs
  | _, _ => false
end

mutual
theorem beq_iff : (a b : Val) → (beq a b = true ↔ a = b)
  | .none, b => by cases b <;> simp [beq]
  | .bool _, b => by cases b <;> simp [beq]
  | .num _, b => by cases b <;> simp [beq]
  | .str _, b => by cases b <;> simp [beq]
  | .list l, b => by cases b <;> simp [beq, beqList_iff l]
  | .dict l, b => by cases b <;> simp [beq, beqDict_iff l]
theorem beqList_iff : (a b : List Val) → (beqList a b = true ↔ a = b)
  | [], b => by cases b <;> simp [beqList]
  | x :: xs, b => by cases b <;> simp [beqList, beq_iff x, beqList_iff xs]
theorem beqDict_iff : (a b : List (String × Val)) → (beqDict a b = true ↔ a = b)
  | [], b => by cases b <;> simp [beqDict]
  | (k, x) :: xs, b => by
      cases b with
      | nil => simp [beqDict]
      | cons y ys =>
        obtain ⟨l, y⟩ := y
        simp [beqDict, beq_iff x, beqDict_iff xs, and_assoc]
end

instance : DecidableEq Val := fun a b =>
  if h : beq a b = true then isTrue ((beq_iff a b).1 h)
  else isFalse (fun e => h ((beq_iff a b).2 e))

/-- Python truthiness, `bool(v)`. -/
def truthy : Val → Bool
  | .none => false
  | .bool b => b
  | .num n => !(n.val == 0)
  | .str s => !(s == "")
  | .list l => !l.isEmpty
  | .dict d => !d.isEmpty

/-- Usable as a dict key / set member. -/
def hashable : Val → Bool
  | .list _ => false
  | .dict _ => false
  | _ => true

/-- Numeric reading of a value; Python's `bool` is a subclass of `int`. -/
def num? : Val → Option Num
  | .num n => some n
  | .bool true => some (.int 1)
  | .bool false => some (.int 0)
  | _ => Option.none

/-- Python `==` between two hashable JSON scalars (`1 == 1.0 == True`). -/
def keyEq (a b : Val) : Bool :=
  match a.num?, b.num? with
  | some x, some y => x.eq y
  | _, _ => decide (a = b)

end Val

namespace Dict

/-- `d.get(k)` -/
def get? (d : Dict) (k : String) : Option Val := List.lookup k d

/-- `d.get(k, default)` -/
def getD (d : Dict) (k : String) (v : Val) : Val := (get? d k).getD v

/-- `d[k]` -/
def getItem (d : Dict) (k : String) : Except Exc Val :=
  match get? d k with
  | some v => .ok v
  | Option.none => .error .keyError

/-- `d[k] = v`: replaces in place or appends. -/
def set : Dict → String → Val → Dict
  | [], k, v => [(k, v)]
  | (l, w) :: d, k, v => if l = k then (l, v) :: d else (l, w) :: set d k v

/-- `del d[k]` (no effect if absent) -/
def erase (d : Dict) (k : String) : Dict := d.filter (fun p => p.1 != k)

/-- The keys in insertion order. -/
def keys (d : Dict) : List String := d.map (·.1)

/-- `k in d` -/
def mem (d : Dict) (k : String) : Bool := (get? d k).isSome

end Dict

/-- `isinstance(v, dict)` access: attribute access such as `.get`, `.items` or `.pop` on a non-dict
raises `AttributeError`. -/
def Val.asDict : Val → Except Exc Dict
  | .dict d => .ok d
  | _ => .error .attributeError

/-- `v[k]` with a string key: a dict is looked up; a list, string, number, bool or `None` raises
`TypeError`. -/
def Val.subscript (v : Val) (k : String) : Except Exc Val :=
  match v with
  | .dict d => Dict.getItem d k
  | _ => .error .typeError

/-- Iteration `for x in v`.  Dict iteration gives the keys, string iteration the characters. -/
def Val.iter : Val → Except Exc (List Val)
  | .list l => .ok l
  | .dict d => .ok (d.map (fun p => Val.str p.1))
  | .str s => .ok (s.toList.map (fun c => Val.str (String.singleton c)))
  | _ => .error .typeError

/-- `f(**v)`: needs a mapping. -/
def Val.kwargs : Val → Except Exc Dict
  | .dict d => .ok d
  | _ => .error .typeError

end Verif
