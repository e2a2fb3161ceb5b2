import Verif.Py.C3
/-!
# Classes: mixins, control behaviours, prototype table

Models the class statements of `/repo/py_factorio_blueprints/entity_mixins.py`, the metaclass
`ControlBehaviorMeta` (`util.py:640-658`), `Entity.set_mixins`/`add_mixins` (`entity.py:116-122`) and
the table `entity_prototypes` (`entity_prototypes.py:3-151`).
-/
set_option autoImplicit false

namespace Verif

/-- The mixin classes of `entity_mixins.py` (those deriving from `BaseMixin`). -/
inductive Mx where
  | Accumulator | Items | Filters | ConstantCombinator | Combinator | Arithmetic | Decider
  | TransportBelt | TrainSignal | ChainSignal | RailSignal | Orientation | Train | Cargo | Color
  | Container | CircuitCondition | Lamp | MiningDrill | Inserter | FilterInserter
  | InfinityContainer | Recipe | Requester | Roboport | Rotatable | Silo | Speaker | Splitter
  | Station | Underground | Loader | Variation
deriving DecidableEq, Repr

namespace Mx

/-- The base class if it is not `BaseMixin` itself: `class ConstantCombinator(Filters)`
(`entity_mixins.py:189`), `Arithmetic`, `Decider` (258, 267), `ChainSignal`, `RailSignal` (334, 348),
`Train` (371), `Cargo` (392), `Lamp` (522), `MiningDrill` (534), `FilterInserter` (620),
`Speaker` (895), `Station` (1019), `Loader` (1072). -/
def parent : Mx → Option Mx
  | ConstantCombinator => some Filters
  | Arithmetic => some Combinator
  | Decider => some Combinator
  | ChainSignal => some TrainSignal
  | RailSignal => some TrainSignal
  | Train => some Orientation
  | Cargo => some Train
  | Lamp => some CircuitCondition
  | MiningDrill => some CircuitCondition
  | FilterInserter => some Inserter
  | Speaker => some CircuitCondition
  | Station => some CircuitCondition
  | Loader => some Underground
  | _ => none

/-- Does the class body contain a nested `class ControlBehavior`? (`entity_mixins.py:115, 172, 190,
206, 262, 271, 292, 310, 335, 349, 487, 523, 535, 553, 767, 823, 896, 1020`) -/
def hasInner : Mx → Bool
  | Accumulator | Filters | ConstantCombinator | Combinator | Arithmetic | Decider | TransportBelt
  | TrainSignal | ChainSignal | RailSignal | CircuitCondition | Lamp | MiningDrill | Inserter
  | Requester | Roboport | Speaker | Station => true
  | _ => false

end Mx

/-- Classes: the named ones and the ones `type('Entity', …)` creates at run time
(`entity.py:118,122`), numbered per entity object. -/
inductive Cls where
  | object | base | baseMixin | entity
  | mx (m : Mx)
  | dyn (n : Nat)
deriving DecidableEq, Repr

/-- Control behaviour classes: `inner c` is the nested class written in the body of `c`;
`made c` is the one `ControlBehaviorMeta.__new__` creates for `c` (`util.py:651-656`). -/
inductive CbCls where
  | object
  | inner (c : Cls)
  | made (c : Cls)
deriving DecidableEq, Repr

/-- A class object: its method resolution order and that of its `ControlBehavior` attribute. -/
structure Klass where
  mro : List Cls
  cb : List CbCls
deriving DecidableEq, Repr

namespace Klass

/-- `class BaseMixin(Base)` (`entity_mixins.py:6-12`). `Base` has no `ControlBehavior`. -/
def baseMixin : Klass :=
  ⟨[.baseMixin, .base, .object], [.made .baseMixin, .inner .baseMixin, .object]⟩

/-- `ControlBehaviorMeta.__new__` (`util.py:641-658`) for a class `c` with the given base classes,
first the class itself, then the `ControlBehavior` class from the nested one (if any) and those of
the bases. -/
def make (c : Cls) (inner : Bool) (bases : List Klass) : Except Exc Klass := do
  let heads := bases.filterMap (fun k => k.mro.head?)
  let mro ← C3.linearize c heads (bases.map (·.mro))
  let cbHeads := (if inner then [CbCls.inner c] else []) ++ bases.filterMap (fun k => k.cb.head?)
  let cbMros := (if inner then [[CbCls.inner c, .object]] else []) ++ bases.map (·.cb)
  let cb ← C3.linearize (CbCls.made c) cbHeads cbMros
  return ⟨mro, cb⟩

/-- `class Entity(BaseMixin)` (`entity.py:103`) -/
def entity : Klass :=
  ⟨[.entity, .baseMixin, .base, .object],
   [.made .entity, .made .baseMixin, .inner .baseMixin, .object]⟩

/-- The class statement of a mixin; `depth` bounds the length of the base chain (at most 3). -/
def ofMxAux : Nat → Mx → Except Exc Klass
  | 0, _ => .error .typeError
  | depth + 1, m => do
    let b ← match m.parent with
      | none => .ok baseMixin
      | some p => ofMxAux depth p
    make (.mx m) m.hasInner [b]

def ofMx (m : Mx) : Except Exc Klass := ofMxAux 3 m

/-- `type('Entity', (cls, *mixins), {})`, the right-hand side of `entity.py:118` and `122`; `n` is a
fresh number for the new class. -/
def extend (n : Nat) (cls : Klass) (mixins : List Mx) : Except Exc Klass := do
  let ms ← mixins.mapM ofMx
  make (.dyn n) false (cls :: ms)

/-- The mixin classes in the order in which `super()` calls visit them. -/
def chain (k : Klass) : List Mx := k.mro.filterMap (fun c => match c with | .mx m => some m | _ => none)

/-- The nested control behaviour classes of mixins in the order of `super()` calls. -/
def cbChain (k : Klass) : List Mx :=
  k.cb.filterMap (fun c => match c with | .inner (.mx m) => some m | _ => none)

/-- `isinstance(entity, m)` / attribute inherited from `m`. -/
def has (k : Klass) (m : Mx) : Bool := k.mro.contains (.mx m)

/-- Class attribute `NR_CONNECTIONS` (`entity_mixins.py:11`, overridden in `Combinator`, 202). -/
def nrConnections (k : Klass) : Nat := if k.has .Combinator then 2 else 1

/-- First class in the resolution order that satisfies `p`. -/
def first (k : Klass) (p : Mx → Bool) : Option Mx := k.chain.find? p

end Klass

/-- The table `entity_prototypes` (`entity_prototypes.py:3-151`), row by row; a row without `mixins`
is a row with the empty list (`entity.py:96`, `.get('mixins', [])`). -/
def entityPrototypes : List (String × List Mx) := [
  ("accumulator", [.Accumulator]),
  ("artillery-turret", [.Rotatable]),
  ("beacon", [.Items]),
  ("boiler", [.Rotatable]),
  ("burner-generator", [.Rotatable]),
  ("arithmetic-combinator", [.Arithmetic, .Rotatable]),
  ("decider-combinator", [.Decider, .Rotatable]),
  ("constant-combinator", [.ConstantCombinator, .Rotatable]),
  ("container", []),
  ("logistic-container", [.Requester]),
  ("infinity-container", [.InfinityContainer]),
  ("assembling-machine", [.Rotatable, .Recipe]),
  ("rocket-silo", [.Silo]),
  ("furnace", []),
  ("electric-energy-interface", []),
  ("electric-pole", []),
  ("gate", [.Rotatable]),
  ("generator", [.Rotatable]),
  ("heat-interface", []),
  ("heat-pipe", []),
  ("inserter", [.CircuitCondition, .FilterInserter, .Rotatable]),
  ("lab", []),
  ("lamp", [.Lamp]),
  ("land-mine", []),
  ("market", []),
  ("mining-drill", [.MiningDrill, .Rotatable]),
  ("offshore-pump", [.CircuitCondition, .Rotatable]),
  ("pipe", []),
  ("infinity-pipe", []),
  ("pipe-to-ground", [.Rotatable]),
  ("player-port", []),
  ("power-switch", [.CircuitCondition]),
  ("programmable-speaker", [.Speaker]),
  ("pump", [.Rotatable, .CircuitCondition]),
  ("radar", []),
  ("curved-rail", [.Rotatable]),
  ("straight-rail", [.Rotatable]),
  ("rail-chain-signal", [.ChainSignal, .Rotatable]),
  ("rail-signal", [.RailSignal, .Rotatable]),
  ("reactor", []),
  ("roboport", [.Roboport]),
  ("simple-entity", []),
  ("simple-entity-with-owner", []),
  ("simple-entity-with-force", []),
  ("solar-panel", []),
  ("storage-tank", [.Rotatable]),
  ("train-stop", [.Rotatable, .Station, .Color]),
  ("loader-1x1", [.Rotatable]),
  ("loader", [.Rotatable, .Loader]),
  ("splitter", [.Rotatable, .Splitter]),
  ("transport-belt", [.Rotatable, .TransportBelt, .CircuitCondition]),
  ("underground-belt", [.Rotatable, .Underground]),
  ("turret", [.Rotatable]),
  ("ammo-turret", [.Rotatable]),
  ("electric-turret", [.Rotatable]),
  ("fluid-turret", [.Rotatable]),
  ("vehicle", []),
  ("car", []),
  ("artillery-wagon", [.Train]),
  ("cargo-wagon", [.Cargo]),
  ("fluid-wagon", [.Train]),
  ("locomotive", [.Train, .Items]),
  ("wall", [])]

/-- `entity_prototypes[prototype].get('mixins', [])` (`entity.py:96`) -/
def prototypeMixins (t : String) : Option (List Mx) := entityPrototypes.lookup t

end Verif
