import Verif.Spec.Layers
import Verif.Spec.Wires
import Verif.Spec.Color
import Verif.Spec.Text
/-!
# Specification vocabulary for imported and exported data
-/
set_option autoImplicit false

namespace Verif.Spec

/-- The description of a blueprint inside imported or exported data: under the key `blueprint`, or the
data itself. -/
inductive Content : Val → Dict → Prop where
  | wrapped (o d : Dict) : List.lookup "blueprint" o = some (.dict d) → Content (.dict o) d
  | bare (d : Dict) : List.lookup "blueprint" d = none → Content (.dict d) d

/-- The list under a key; an absent key stands for the empty list. -/
def ListAt (d : Dict) (k : String) (l : List Val) : Prop :=
  List.lookup k d = some (.list l) ∨ (List.lookup k d = none ∧ l = [])

/-- The `entity_number` given in entity data. -/
inductive NumberOf : Dict → Option Int → Prop where
  | absent (e : Dict) : List.lookup "entity_number" e = none → NumberOf e none
  | null (e : Dict) : List.lookup "entity_number" e = some .none → NumberOf e none
  | given (e : Dict) (z : Int) : List.lookup "entity_number" e = some (.int z) → NumberOf e (some z)

/-- The connector named by a connection reference: key `circuit_id`, by default the first. -/
def refSide (c : Dict) : Val := (List.lookup "circuit_id" c).getD (.str "1")

/-- The connection data of entity `a` contain a reference from its connector `sa` to connector `sb` of
entity `s` by a cable of the given colour. -/
def Refers (w : World) (b : BpId) (a : Ref) (sa : Int) (s : Ref) (sb : Int) (color : String) : Prop :=
  ∃ side c id, Listed (w.heap a).raw side color (.dict c) ∧ List.lookup "entity_id" c = some id ∧
    FirstWithId w (w.bp b).objs id s ∧ Whole (.str side) sa ∧ Whole (refSide c) sb

/-- Every wire of the blueprint stands in the connection data that an entity of the blueprint was made with. -/
def AllImported (w : World) (b : BpId) : Prop :=
  ∀ c ∈ (w.bp b).conns, ∃ a ∈ (w.bp b).objs, ∃ sa s sb color,
    Refers w b a sa s sb color ∧ Joins c a sa s sb color

/-- The connection data of entity `a` names the imported number `id`. -/
def Names (w : World) (a : Ref) (id : Val) : Prop :=
  ∃ side color c, Listed (w.heap a).raw side color (.dict c) ∧ List.lookup "entity_id" c = some id

/-- No number that connection data names is shared by an entity of the list `old` and another one. -/
def NoClash (w : World) (b : BpId) (old : List Ref) : Prop :=
  ∀ a ∈ (w.bp b).objs, ∀ id, Names w a id → ∀ r ∈ old, ∀ s ∈ (w.bp b).objs, s ≠ r →
    IdIs (w.heap r).number id → ¬ IdIs (w.heap s).number id

/-- The connection data of these entities only names these entities. -/
def Closed (w : World) (l : List Ref) : Prop :=
  ∀ a ∈ l, ∀ id, Names w a id → ∃ n ∈ l, IdIs (w.heap n).number id

/-- `v` is an icon for slot `k` showing the signal called `n`. -/
def IsIcon (v : Val) (k : Int) (n : String) : Prop :=
  ∃ e s, v = .dict e ∧ List.lookup "index" e = some (.int k) ∧ List.lookup "signal" e = some (.dict s) ∧
    List.lookup "name" s = some (.str n)

/-- The last icon for slot `k` in the list shows `n`. -/
def LastIcon (l : List Val) (k : Int) (n : String) : Prop :=
  ∃ before v after, l = before ++ v :: after ∧ IsIcon v k n ∧ ∀ u ∈ after, ∀ m, ¬ IsIcon u k m

/-- The signal table gives the type of the signal. -/
def SignalType (env : Env) (n : String) (t : Val) : Prop :=
  ∃ d, List.lookup n env.signals = some (.dict d) ∧ List.lookup "type" d = some t

/-- Translating imported ids to exported numbers: an id stands for the first entity that has it; ids
that no entity has are dropped. -/
inductive Renumber (w : World) (l : List Ref) : List Val → List Val → Prop where
  | nil : Renumber w l [] []
  | found {id : Val} {ids nums : List Val} {r : Ref} {n : Int} :
      FirstWithId w l id r → (w.heap r).auto = some n → Renumber w l ids nums →
      Renumber w l (id :: ids) (.int n :: nums)
  | dropped {id : Val} {ids nums : List Val} :
      (∀ r ∈ l, ¬ IdIs (w.heap r).number id) → Renumber w l ids nums → Renumber w l (id :: ids) nums

/-- The JSON value of a colour whose components are the given numbers brought into `[0, 1]`. -/
def IsColorOf (v : Val) (r g b a : Rat) : Prop :=
  ∃ r' g' b' a' : Num, v = .dict [("r", .num r'), ("g", .num g'), ("b", .num b'), ("a", .num a')] ∧
    r'.val = Color.nearest r ∧ g'.val = Color.nearest g ∧ b'.val = Color.nearest b ∧ a'.val = Color.nearest a

/-- A component of a colour given as a dict; one if absent. -/
def Component (d : Dict) (k : String) (x : Rat) : Prop :=
  (∃ n, List.lookup k d = some (.num n) ∧ n.val = x) ∨ (List.lookup k d = none ∧ x = 1)

end Verif.Spec
