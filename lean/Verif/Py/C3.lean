import Verif.Py.Num
/-!
# C3 method resolution order

The algorithm of CPython's `type.__new__`/`mro()` (`Objects/typeobject.c`, `mro_implementation`,
`pmerge`).  This file models the Python runtime.
-/
set_option autoImplicit false

namespace Verif
namespace C3
variable {α : Type} [DecidableEq α]

/-- A head is a good candidate if it is in no tail. -/
def good (seqs : List (List α)) (c : α) : Bool := seqs.all (fun s => !(s.tail.contains c))

/-- First sequence head that occurs in no tail. -/
def candidate (seqs : List (List α)) : Option α :=
  (seqs.filterMap List.head?).find? (good seqs)

/-- Remove `c` from the heads of all sequences. -/
def dropHead (c : α) (s : List α) : List α :=
  match s with
  | x :: xs => if x = c then xs else x :: xs
  | [] => []

/-- The merge loop; `fuel` bounds the number of rounds, each round removes at least one element.
An inconsistent hierarchy raises `TypeError`. -/
def mergeAux : Nat → List (List α) → Except Exc (List α)
  | 0, _ => .ok []
  | fuel + 1, seqs =>
    let seqs := seqs.filter (fun s => !s.isEmpty)
    if seqs.isEmpty then .ok []
    else match candidate seqs with
      | none => .error .typeError
      | some c =>
        match mergeAux fuel (seqs.map (dropHead c)) with
        | .ok r => .ok (c :: r)
        | .error e => .error e

def merge (seqs : List (List α)) : Except Exc (List α) :=
  mergeAux ((seqs.map List.length).sum + 1) seqs

/-- `mro` of a class `c` whose direct bases `bases` have the linearisations `mros`.
Repeated bases raise `TypeError` ("duplicate base class"). -/
def linearize (c : α) (bases : List α) (mros : List (List α)) : Except Exc (List α) :=
  if bases.Nodup then
    match merge (mros ++ [bases]) with
    | .ok r => .ok (c :: r)
    | .error e => .error e
  else .error .typeError

end C3
end Verif
