import Verif.Spec.Load
import Verif.Spec.Text
/-!
# The data that can be imported (C85)
-/
set_option autoImplicit false

namespace Verif.Spec

/-- A value that Python takes for false. -/
inductive Nothing : Val → Prop where
  | none : Nothing .none
  | false : Nothing (.bool false)
  | zero (n : Num) : n.val = 0 → Nothing (.num n)
  | text : Nothing (.str "")
  | list : Nothing (.list [])
  | object : Nothing (.dict [])

/-- The parts that a value consists of where a list is expected: the elements of the list. An empty text and an empty
object pass for an empty list. -/
def Series (v : Val) (l : List Val) : Prop := v = .list l ∨ (l = [] ∧ (v = .str "" ∨ v = .dict []))

/-- The parts under a key; an absent key stands for no parts. -/
def SeriesAt (d : Dict) (k : String) (l : List Val) : Prop :=
  (List.lookup k d = none ∧ l = []) ∨ ∃ v, List.lookup k d = some v ∧ Series v l

/-- A number or a truth value. -/
def Countable (v : Val) : Prop := (∃ n, v = .num n) ∨ ∃ t, v = .bool t

/-- A colour: an object with components called `r`, `g`, `b` and `a` only, each a number. -/
def ColorOk (v : Val) : Prop :=
  ∃ d, v = .dict d ∧ (∀ k x, (k, x) ∈ d → k ∈ ["r", "g", "b", "a"]) ∧
    ∀ k ∈ ["r", "g", "b", "a"], ∀ x, List.lookup k d = some x → Countable x

/-- A signal: a whole number, a name of the signal table, or nothing. An object stands for its `name`. -/
def SignalOk (env : Env) (v : Val) : Prop :=
  (∃ z : Int, v = .int z) ∨
  ∃ u, ((∃ d, v = .dict d ∧ u = (List.lookup "name" d).getD .none) ∨ ((∀ d, v ≠ .dict d) ∧ u = v)) ∧
    (Nothing u ∨ ∃ n, u = .str n ∧ List.lookup n env.signals ≠ none)

/-- An icon: a signal and a slot. The four slots are also counted from the end, as the slots 0, -1, -2 and -3. -/
def IconOk (env : Env) (v : Val) : Prop :=
  ∃ d s i, v = .dict d ∧ List.lookup "signal" d = some s ∧ SignalOk env s ∧ List.lookup "index" d = some i ∧
    ((∃ z : Int, i = .int z ∧ -3 ≤ z ∧ z ≤ 4) ∨ ∃ t, i = .bool t)

/-- A reference under the connector `side` to one of the entries. -/
def RefOk (l : List Val) (side : String) (v : Val) : Prop :=
  ∃ c id sa sb, v = .dict c ∧ List.lookup "entity_id" c = some id ∧ Whole (.str side) sa ∧ Whole (refSide c) sb ∧
    ∃ kw n, Val.dict kw ∈ l ∧ NumberOf kw n ∧ IdIs n id

/-- The connections of an entry: absent, null, or an object of objects of lists of references. -/
def LinksOk (l : List Val) (kw : Dict) : Prop :=
  ∀ raw, List.lookup "connections" kw = some raw → raw ≠ .none →
    ∃ sides, raw = .dict sides ∧ ∀ side p, (side, p) ∈ sides →
      ∃ colors, p = .dict colors ∧ ∀ color q, (color, q) ∈ colors →
        ∃ refs, Series q refs ∧ ∀ v ∈ refs, RefOk l side v

/-- A schedule: an object with the two keys `schedule` and `locomotives` and no other, the latter something that can be
gone through. -/
def ScheduleOk (v : Val) : Prop :=
  ∃ s content locos, v = .dict s ∧ (∀ k x, (k, x) ∈ s → k = "schedule" ∨ k = "locomotives") ∧
    List.lookup "schedule" s = some content ∧ List.lookup "locomotives" s = some locos ∧
    ((∃ l, locos = .list l) ∨ (∃ t, locos = .str t) ∨ ∃ d, locos = .dict d)

/-- The data of a blueprint all of whose parts are good; `makes` says from which data an entity can be made. -/
def Acceptable (env : Env) (makes : Dict → Prop) (data : Val) : Prop :=
  ∃ d icons ents scheds, Content data d ∧
    (∀ c, List.lookup "label_color" d = some c → c ≠ .none → ColorOk c) ∧
    SeriesAt d "icons" icons ∧ (∀ v ∈ icons, IconOk env v) ∧
    SeriesAt d "entities" ents ∧ (∀ v ∈ ents, ∃ kw, v = .dict kw ∧ makes kw ∧ LinksOk ents kw) ∧
    SeriesAt d "tiles" [] ∧
    SeriesAt d "schedules" scheds ∧ ∀ v ∈ scheds, ScheduleOk v

end Verif.Spec
