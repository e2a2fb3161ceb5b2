import Verif.Spec.Rotation
import Verif.Spec.Load
import Verif.Spec.Wires
/-!
# Specification vocabulary for exports before and after entities are turned, moved or sorted
-/
set_option autoImplicit false

namespace Verif.Spec

/-- The direction in exported entity data; north is not written. -/
def facing (d : Dict) : Int :=
  match List.lookup "direction" d with
  | some (.num (.int n)) => n
  | _ => 0

/-- Exported entity data `d'` of an entity is `d` with another position, related by `R` to the former one, and maybe
another number and other wires. -/
structure MovedData (R : Vec → Vec → Prop) (d d' : Dict) : Prop where
  position : ∃ p q : Vec, List.lookup "position" d = some (.dict [("x", .num p.x), ("y", .num p.y)]) ∧
    List.lookup "position" d' = some (.dict [("x", .num q.x), ("y", .num q.y)]) ∧ R p q
  rest : ∀ key, key ∉ ["entity_number", "position", "direction", "orientation", "connections"] →
    List.lookup key d' = List.lookup key d

/-- Exported data of an entity with the mixins `c` before and after `k` quarter turns around `(cx, cy)`. -/
structure TurnedData (c : List Mx) (k : Int) (cx cy : Rat) (d d' : Dict) : Prop
    extends MovedData (TurnedPoint k cx cy) d d' where
  direction : .Rotatable ∈ c → facing d' = (facing d + 2 * k) % 8
  no_direction : .Rotatable ∉ c → List.lookup "direction" d' = none ∧ List.lookup "direction" d = none
  orientation : .Train ∈ c → ∃ p q : Rat, List.lookup "orientation" d = some (.flt p) ∧
    List.lookup "orientation" d' = some (.flt q) ∧ FractionOf (p + (k : Rat) / 4) q
  no_orientation : .Train ∉ c → List.lookup "orientation" d' = none ∧ List.lookup "orientation" d = none

/-- Exported data of an entity before and after it is moved by `(-dx, -dy)`, without being turned. -/
structure ShiftedData (dx dy : Rat) (d d' : Dict) : Prop
    extends MovedData (fun p q => q.x.val = p.x.val - dx ∧ q.y.val = p.y.val - dy) d d' where
  direction : List.lookup "direction" d' = List.lookup "direction" d
  orientation : List.lookup "orientation" d' = List.lookup "orientation" d

/-- In exported entity data, the numbers of `d'` are those of `d` renumbered by `ren`: its own, and under each connector
and colour those of the entities it is wired to, the same number of times each. -/
structure RenumberedData (ren : Val → Val) (d d' : Dict) : Prop where
  number : List.lookup "entity_number" d' = (List.lookup "entity_number" d).map ren
  wires : ∀ side color, ((refsAt d' side color).map (entry "entity_id")).Perm
    ((refsAt d side color).map (fun u => (entry "entity_id" u).map ren))

/-- A schedule whose locomotives are renumbered. -/
def RenumberedSchedule (ren : Val → Val) (s s' : Val) : Prop :=
  ∃ (locos : List Val) (x : Val), s = .dict [("locomotives", .list locos), ("schedule", x)] ∧
    s' = .dict [("locomotives", .list (locos.map ren)), ("schedule", x)]

/-- The exports `o` of blueprint `b` in `w` and `o'` of the same blueprint in `w'` list the same entities; their data are
related by `R` (which may depend on the entity) and renumbered, also in the schedules; all else is the same. -/
def SameExport (w w' : World) (b : BpId) (R : Ref → Dict → Dict → Prop) (o o' : Dict) : Prop :=
  ∃ (ren : Val → Val) (ents ents' scheds scheds' : List Val),
    ListAt o "entities" ents ∧ ListAt o' "entities" ents' ∧ ListAt o "schedules" scheds ∧ ListAt o' "schedules" scheds' ∧
    ents.length = (w.bp b).objs.length ∧ ents'.length = (w'.bp b).objs.length ∧
    (w'.bp b).objs.Perm (w.bp b).objs ∧
    (∀ (i j : Nat) (r : Ref), (w.bp b).objs[i]? = some r → (w'.bp b).objs[j]? = some r → ∃ d d' : Dict,
      ents[i]? = some (.dict d) ∧ ents'[j]? = some (.dict d') ∧ R r d d' ∧ RenumberedData ren d d') ∧
    List.Forall₂ (RenumberedSchedule ren) scheds scheds' ∧
    ∀ key, key ≠ "entities" → key ≠ "schedules" → List.lookup key o' = List.lookup key o

/-- The blueprint can be renumbered consistently: its entities have different numbers; wires and schedules only mention
its entities. -/
structure WellNumbered (w : World) (b : BpId) : Prop where
  different : ∀ r ∈ (w.bp b).objs, ∀ s ∈ (w.bp b).objs, (w.heap r).auto = (w.heap s).auto → r = s
  wires : ∀ c ∈ (w.bp b).conns, (∃ r ∈ (w.bp b).objs, c.fromE = some r) ∧ ∃ s ∈ (w.bp b).objs, c.toE = some s
  locomotives : ∀ s ∈ (w.bp b).schedules, ∀ r ∈ s.1, r ∈ (w.bp b).objs

end Verif.Spec
