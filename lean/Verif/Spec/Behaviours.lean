import Verif.Spec.Prototypes
import Verif.Spec.Placement
import Verif.Spec.RoundTrip
/-!
# Specification: behaviours given to an entity by hand
-/
set_option autoImplicit false

namespace Verif.Spec

/-- No behaviour is listed twice, and none is listed before one that derives from it. -/
def DerivedFirst (ms : List Mx) : Prop := ms.Pairwise (fun a b => a ∉ lineage b)

/-- Nothing changed but the class of one entity. -/
structure OnlyClass (w w' : World) (r : Ref) : Prop extends OnlyEntity w w' r where
  same : w'.heap r = { w.heap r with klass := (w'.heap r).klass, depth := (w'.heap r).depth }

/-- The behaviours that an entity has. -/
abbrev behaviours (w : World) (r : Ref) : List Mx := (w.heap r).klass.chain

/-- The two behaviours that no row of the table has, with their settings. -/
def unlisted : List (Mx × String) := [(.Container, "bar"), (.Variation, "variation")]

/-- The behaviours that a blueprint adds to the entities of type `t`. -/
def customFor (p : Bp) (t : String) : List Mx := (List.lookup t p.custom).getD []

/-- The control behaviours that an entity has are those of the table for its type. -/
def TableControls (k : Klass) (t : String) : Prop :=
  ∃ rs k₀, List.lookup t entityPrototypes = some rs ∧ Klass.extend 0 Klass.entity rs = .ok k₀ ∧
    k.cbChain = k₀.cbChain ∧ k.ctx = k₀.ctx

/-- The entity has the class that a blueprint with the custom behaviours `c` gives to entities of its name; nothing
comes after `Items` in it, and the custom behaviours leave the control behaviour as it is. -/
def FitsIn (c : Custom) (w : World) (r : Ref) : Prop :=
  ∃ t rs, TypeOf w.env (w.heap r).name t ∧ List.lookup t entityPrototypes = some rs ∧
    Klass.extend 0 Klass.entity ((List.lookup t c).getD [] ++ rs) = .ok (w.heap r).klass ∧
    (∀ m, ¬ [Mx.Items, m].Sublist (behaviours w r)) ∧ TableControls (w.heap r).klass t

/-- Behaviours without anything in the control behaviour, except `Items`. -/
def plainBehaviours : List Mx :=
  [.Orientation, .Train, .Cargo, .Color, .Container, .InfinityContainer, .Recipe, .Rotatable, .Silo, .Splitter,
   .Underground, .Loader, .Variation]

end Verif.Spec
