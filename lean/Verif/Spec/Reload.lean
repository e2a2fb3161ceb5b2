import Verif.Spec.RoundTrip
import Verif.Spec.Wires
import Verif.Spec.Layers
/-!
# Specification vocabulary for importing an exported blueprint
-/
set_option autoImplicit false

namespace Verif.Spec

/-- Exporting the entity succeeds, and its exported settings are `s`. -/
def HasSettings (w : World) (r : Ref) (s : Dict) : Prop :=
  ∃ d w', entToJson r w = (.ok (.dict d), w') ∧ entitySettings d = s

/-- Two entities with the same name, position and exported settings. -/
structure SameEntity (w : World) (r : Ref) (w' : World) (r' : Ref) : Prop where
  name : (w'.heap r').name = (w.heap r).name
  pos : (w'.heap r').pos = (w.heap r).pos
  settings : ∃ s, HasSettings w r s ∧ HasSettings w' r' s

/-- The `i`-th and the `j`-th entity of the blueprint are joined by a wire. -/
def Wired (w : World) (b : BpId) (i : Nat) (sa : Int) (j : Nat) (sb : Int) (color : String) : Prop :=
  ∃ c ∈ (w.bp b).conns, ∃ r s, (w.bp b).objs[i]? = some r ∧ (w.bp b).objs[j]? = some s ∧
    Joins c r sa s sb color

/-- The two entities have the same place in the two lists. -/
def SamePlace (l l' : List Ref) (r r' : Ref) : Prop := ∃ i : Nat, l[i]? = some r ∧ l'[i]? = some r'

/-- Two colours with the same components. -/
def SameColor (c c' : Color) : Prop :=
  c'.r.val = c.r.val ∧ c'.g.val = c.g.val ∧ c'.b.val = c.b.val ∧ c'.a.val = c.a.val

/-- The icon in a slot, as the user reads it. -/
def iconAt (p : Bp) (k : Nat) : Option Val := (p.icons.getD k none).map signalGet

/-- Two blueprints with the same content. -/
structure SameBlueprint (w : World) (b : BpId) (w' : World) (b' : BpId) : Prop where
  count : (w'.bp b').objs.length = (w.bp b).objs.length
  entities : ∀ (i : Nat) (r r' : Ref), (w.bp b).objs[i]? = some r → (w'.bp b').objs[i]? = some r' →
    SameEntity w r w' r'
  wires : ∀ i sa j sb color, Wired w' b' i sa j sb color ↔ Wired w b i sa j sb color
  noOther : ∀ c ∈ (w'.bp b').conns, ∃ r ∈ (w'.bp b').objs, ∃ s ∈ (w'.bp b').objs,
    c.fromE = some r ∧ c.toE = some s
  schedules : List.Forall₂ (fun s s' => s'.2 = s.2 ∧
    List.Forall₂ (SamePlace (w.bp b).objs (w'.bp b').objs) s.1 s'.1) (w.bp b).schedules (w'.bp b').schedules
  icons : ∀ k, iconAt (w'.bp b') k = iconAt (w.bp b) k
  item : (w'.bp b').item = (w.bp b).item
  label : (w'.bp b').label = (w.bp b).label
  version : (w'.bp b').version = (w.bp b).version
  tiles : (w'.bp b').tiles = (w.bp b).tiles
  labelColor : Option.Rel SameColor (w.bp b).labelColor (w'.bp b').labelColor

/-- The blueprints whose content the code reads back:
* entities are strict and their settings can be read back one by one;
* wires join entities of the blueprint, at connectors with the same number; this number is one, or both ends
  have two connectors. -/
structure ReadableContent (w : World) (b : BpId) : Prop where
  strict : ∀ r ∈ (w.bp b).objs, (w.heap r).strict = true
  constants : ∀ r ∈ (w.bp b).objs, ∀ c, (w.heap r).cb = some c → ReadableConstants c
  names : ∀ r ∈ (w.bp b).objs, ∀ d w', entToJson r w = (.ok (.dict d), w') → ReadableNames w.env (w.heap r) d
  wires : ∀ c ∈ (w.bp b).conns, ∃ r ∈ (w.bp b).objs, ∃ s ∈ (w.bp b).objs,
    c.fromE = some r ∧ c.toE = some s ∧ c.fromSide = c.toSide ∧
    (c.fromSide = 1 ∨ ((w.heap r).klass.nrConnections = 2 ∧ (w.heap s).klass.nrConnections = 2))

/-- The part of this that concerns settings and connectors only. -/
structure ReadableSettings (w : World) (b : BpId) : Prop where
  strict : ∀ r ∈ (w.bp b).objs, (w.heap r).strict = true
  constants : ∀ r ∈ (w.bp b).objs, ∀ c, (w.heap r).cb = some c → ReadableConstants c
  names : ∀ r ∈ (w.bp b).objs, ∀ d w', entToJson r w = (.ok (.dict d), w') → ReadableNames w.env (w.heap r) d
  sides : ∀ c ∈ (w.bp b).conns, c.fromSide = c.toSide ∧
    (c.fromSide = 1 ∨ ∀ r, EndAt c r → (w.heap r).klass.nrConnections = 2)

/-- In addition the entities are in reading order and have different numbers, and schedules name entities of the
blueprint. -/
structure Reloadable (w : World) (b : BpId) : Prop extends ReadableContent w b where
  sorted : (w.bp b).objs.Pairwise (fun r s => Before (w.heap r).pos (w.heap s).pos)
  numbered : ∀ r ∈ (w.bp b).objs, ∃ n, (w.heap r).auto = some n
  distinct : ∀ r ∈ (w.bp b).objs, ∀ s ∈ (w.bp b).objs, (w.heap r).auto = (w.heap s).auto → r = s
  schedules : ∀ s ∈ (w.bp b).schedules, ∀ r ∈ s.1, r ∈ (w.bp b).objs

/-- An empty blueprint without label colour and custom mixins. -/
def Blank (p : Bp) : Prop := p.objs = [] ∧ p.tiles = [] ∧ p.labelColor = none ∧ p.custom = []

/-- As `Blank`, but the blueprint has the custom mixins `c`. -/
def BlankWith (c : Custom) (p : Bp) : Prop := p.objs = [] ∧ p.tiles = [] ∧ p.labelColor = none ∧ p.custom = c

end Verif.Spec
