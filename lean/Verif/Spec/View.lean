import Verif.Model.Blueprint
/-!
# The content of a blueprint without object identities

Entities are named by their place in the list of entities, so that two blueprints with different entity
objects can be compared.
-/
set_option autoImplicit false

namespace Verif.Spec

/-- The content of a blueprint: its entities in order; its wires and schedules with the places of the
entities they refer to; its other attributes. -/
structure View where
  entities : List Entity
  wires : List Conn
  schedules : List (List Nat × Val)
  tiles : List Tile
  item : Val
  label : Val
  labelColor : Option Color
  icons : List (Option Val)
  version : Val

/-- A wire with the places of its ends in the list `l`. -/
def place (l : List Ref) (c : Conn) : Conn :=
  { c with fromE := c.fromE.map (List.idxOf · l), toE := c.toE.map (List.idxOf · l) }

/-- The content of blueprint `b`. -/
def view (w : World) (b : BpId) : View where
  entities := (w.bp b).objs.map w.heap
  wires := (w.bp b).conns.map (place (w.bp b).objs)
  schedules := (w.bp b).schedules.map (fun s => (s.1.map (List.idxOf · (w.bp b).objs), s.2))
  tiles := (w.bp b).tiles
  item := (w.bp b).item
  label := (w.bp b).label
  labelColor := (w.bp b).labelColor
  icons := (w.bp b).icons
  version := (w.bp b).version

end Verif.Spec
