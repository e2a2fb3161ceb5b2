import Verif.Model.World
import Mathlib.Data.Sym.Sym2
/-!
# Specification vocabulary for wires
-/
set_option autoImplicit false

namespace Verif.Spec

/-- One reference of a `connections` value: under connector `side` and colour `color` the entry `v`. -/
def Listed (raw : Val) (side color : String) (v : Val) : Prop :=
  ∃ sides colors vs, raw = .dict sides ∧ (side, Val.dict colors) ∈ sides ∧
    (color, Val.list vs) ∈ colors ∧ v ∈ vs

/-- The wire `c` joins connector `sa` of `a` with connector `sb` of `b` by a cable of the given colour,
in either order. -/
def Joins (c : Conn) (a : Ref) (sa : Int) (b : Ref) (sb : Int) (color : String) : Prop :=
  c.color = color ∧
    ((c.fromE = some a ∧ c.fromSide = sa ∧ c.toE = some b ∧ c.toSide = sb) ∨
     (c.fromE = some b ∧ c.fromSide = sb ∧ c.toE = some a ∧ c.toSide = sa))

/-- The wire ends at the entity. -/
def EndAt (c : Conn) (r : Ref) : Prop := c.fromE = some r ∨ c.toE = some r

/-- The two end points of a wire, without an order. -/
def ends (c : Conn) : Sym2 (Option Ref × Int) := s((c.fromE, c.fromSide), (c.toE, c.toSide))

/-- Two wires of the same colour between the same end points. -/
def Equal (c d : Conn) : Prop := c.color = d.color ∧ ends c = ends d

/-- Seen from connector `side` of entity `r`: the far end points of the wires of the given colour. A wire
from a connector to itself is seen twice. -/
def farEnds (cs : List Conn) (r : Ref) (side : Int) (color : String) : List (Option Ref × Int) :=
  cs.flatMap (fun c =>
    (if c.color = color ∧ c.fromE = some r ∧ c.fromSide = side then [(c.toE, c.toSide)] else []) ++
    (if c.color = color ∧ c.toE = some r ∧ c.toSide = side then [(c.fromE, c.fromSide)] else []))

/-- The references listed in exported entity data under a connector and a colour. -/
def refsAt (d : Dict) (side : Int) (color : String) : List Val :=
  match List.lookup "connections" d with
  | some (.dict sides) =>
    match List.lookup side.repr sides with
    | some (.dict colors) =>
      match List.lookup color colors with
      | some (.list l) => l
      | _ => []
    | _ => []
  | _ => []

/-- The entry under a key of a dict value. -/
def entry (k : String) : Val → Option Val
  | .dict d => List.lookup k d
  | _ => none

/-- The wires of `r` in the order in which they were recorded, each seen from `r`. -/
def wiresOf (r : Ref) (cs : List Conn) : List Conn :=
  cs.filterMap (fun c =>
    if c.toE = some r then some ⟨c.toE, c.fromE, c.toSide, c.fromSide, c.color⟩
    else if c.fromE = some r then some c
    else none)

/-- The number of the entity at the far end of a wire. -/
def farNo (heap : Ref → Entity) (c : Conn) : Option Int := c.toE.bind (fun t => (heap t).auto)

/-- Wires listed by the numbers of their far ends. -/
def InNumberOrder (heap : Ref → Entity) (cs : List Conn) : Prop :=
  cs.Pairwise (fun c d => ∀ x y, farNo heap c = some x → farNo heap d = some y → x ≤ y)

/-- References listed by number. -/
def RefsInOrder (l : List Val) : Prop :=
  l.Pairwise (fun u v => ∀ x y, entry "entity_id" u = some (.int x) → entry "entity_id" v = some (.int y) → x ≤ y)

end Verif.Spec
