import Verif.Model.World
import Verif.Model.Gatherer
/-!
# Specification vocabulary for prototypes and behaviours
-/
set_option autoImplicit false

namespace Verif.Spec

/-- A mixin and what it derives from, nearest first. -/
def lineage (m : Mx) : List Mx :=
  m :: match m.parent with
    | none => []
    | some p => p :: match p.parent with
      | none => []
      | some q => [q]

/-- Every element once, where it occurs last. -/
def lastOnly : List Mx → List Mx
  | [] => []
  | m :: ms => if m ∈ ms then lastOnly ms else m :: lastOnly ms

/-- The order in which the behaviours of a row of the table are consulted: those of the row from left to
right, each followed by what it derives from. -/
def rowOrder (ms : List Mx) : List Mx := lastOnly (ms.flatMap lineage)

/-- Both names are known and have the same prototype type. -/
def SameType (env : Env) (n s : String) : Prop :=
  ∃ d d' : Dict, ∃ t, List.lookup n env.entities = some (.dict d) ∧ List.lookup s env.entities = some (.dict d') ∧
    List.lookup "type" d = some t ∧ List.lookup "type" d' = some t

/-- The exported entity is the same but for its name. -/
def SameButName (x : String) (v u : Val) : Prop :=
  ∃ d d' : Dict, v = .dict d ∧ u = .dict d' ∧ d'.map (·.1) = d.map (·.1) ∧
    ∀ k, List.lookup k d' = if k = "name" then some (.str x) else List.lookup k d

/-- A prototype of that name is in the list and is not hidden. -/
def Shown (l : List (String × GameProto)) (name : String) : Prop := ∃ p : GameProto, (name, p) ∈ l ∧ p.hidden = false

/-- The kind of the signal of that name in a game: items come before fluids, fluids before virtual signals, and
hidden items and fluids are no signals. -/
inductive SignalKind (g : Game) (name : String) : String → Prop where
  | item : Shown g.item name → SignalKind g name "item"
  | fluid : ¬ Shown g.item name → Shown g.fluid name → SignalKind g name "fluid"
  | virtual : ¬ Shown g.item name → ¬ Shown g.fluid name → name ∈ g.virtual.map (·.1) → SignalKind g name "virtual"

/-- The attributes of prototypes that the gatherer writes, table by table. -/
def gathered : Table → List String
  | .entity => ["name", "type", "localised_name", "localised_description", "flags", "selection_box", "items_to_place_this"]
  | .tile => ["name", "localised_name", "localised_description", "can_be_part_of_blueprint"]
  | .signal => []
  | _ => ["name", "localised_name", "localised_description"]

/-- The prototypes of a game for the tables other than signals. -/
def prototypesOf (g : Game) : Table → List (String × GameProto)
  | .entity => g.entity
  | .tile => g.tile
  | .item => g.item
  | .recipe => g.recipe
  | .signal => []

end Verif.Spec
