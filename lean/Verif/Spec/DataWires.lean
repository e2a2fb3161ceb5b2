import Verif.Spec.Load
import Verif.Spec.Shown
/-!
# The wiring that the data of a blueprint describe (C84)

Entries are addressed by their place in the list of entities, not by objects of the library.
-/
set_option autoImplicit false

namespace Verif.Spec

/-- The data of an entity list, under connector `sa` and the colour, a reference to connector `sb` of the entity with the
number `n`. -/
def Lists (kw : Dict) (sa : Int) (color : String) (n : Option Int) (sb : Int) : Prop :=
  ∃ raw side c id, List.lookup "connections" kw = some raw ∧ Listed raw side color (.dict c) ∧
    List.lookup "entity_id" c = some id ∧ IdIs n id ∧ Whole (.str side) sa ∧ Whole (refSide c) sb

/-- No two entries have the same number. -/
def DistinctIds (l : List Val) : Prop :=
  ∀ (i j : Nat) (kw kw' : Dict) (n : Option Int), l[i]? = some (.dict kw) → l[j]? = some (.dict kw') →
    NumberOf kw n → NumberOf kw' n → i = j

/-- The data describe a wire between connector `sa` of the `i`-th entry and connector `sb` of the `j`-th one: at least one
of the two lists the other. -/
def DataWire (l : List Val) (i : Nat) (sa : Int) (j : Nat) (sb : Int) (color : String) : Prop :=
  ∃ kw kw' n m, l[i]? = some (.dict kw) ∧ l[j]? = some (.dict kw') ∧ NumberOf kw n ∧ NumberOf kw' m ∧
    (Lists kw sa color m sb ∨ Lists kw' sb color n sa)

/-- Numbers of imported entries replaced by those of the exported ones: the `i`-th entry of the list is exported at
`place i`, counted from zero. Numbers that no entry has are dropped. -/
inductive Replaced (l : List Val) (place : Nat → Nat) : List Val → List Val → Prop where
  | nil : Replaced l place [] []
  | found {id : Val} {ids nums : List Val} {i : Nat} {kw : Dict} {n : Option Int} :
      l[i]? = some (.dict kw) → NumberOf kw n → IdIs n id → Replaced l place ids nums →
      Replaced l place (id :: ids) (.int (place i + 1) :: nums)
  | dropped {id : Val} {ids nums : List Val} :
      (∀ (i : Nat) (kw : Dict) (n : Option Int), l[i]? = some (.dict kw) → NumberOf kw n → ¬ IdIs n id) →
      Replaced l place ids nums → Replaced l place (id :: ids) nums

/-- A schedule of the imported data and one of the exported data. -/
def SameSchedule (l : List Val) (place : Nat → Nat) (v v' : Val) : Prop :=
  ∃ s content locos nums, v = .dict s ∧ List.lookup "schedule" s = some content ∧
    List.lookup "locomotives" s = some locos ∧ v' = .dict [("locomotives", .list nums), ("schedule", content)] ∧
    ∀ ids, locos = .list ids → Replaced l place ids nums

/-- The exported data `v` describe what the imported data `d` with the entries `l` describe. `p` is the blueprint before
the import, `new i` the entity made from the `i`-th entry.
There is one exported entity for each entry. It says what the entry said. It lists another entity, under a connector and
a colour, exactly if the imported data describe a wire of this colour from this connector to the other entity, once for
each connector of the other entity, and lists nothing else. The schedules are the imported ones, with the new numbers. -/
def Redrawn (env : Env) (p : Bp) (new : Nat → Entity) (d : Dict) (l : List Val) (v : Val) : Prop :=
  ∃ o out, Content v o ∧ ListAt o "entities" out ∧ out.length = l.length ∧
    ∃ place : Nat → Nat, (∀ i < l.length, ∀ j < l.length, place i = place j → i = j) ∧
      (∀ ls outs, ListAt d "schedules" ls → ListAt o "schedules" outs → List.Forall₂ (SameSchedule l place) ls outs) ∧
      ∀ i < l.length, ∃ kw x, l[i]? = some (.dict kw) ∧ out[place i]? = some (.dict x) ∧
        List.lookup "entity_number" x = some (.int (place i + 1)) ∧
        Shows env (new i).klass kw x ∧
        (OwnControls env (new i) → ShowsControl env (new i).klass kw x) ∧
        (NoCustom env p (new i).name → OwnControls env (new i)) ∧
        (∀ j < l.length, ∀ sa color,
          (∃ u ∈ refsAt x sa color, entry "entity_id" u = some (.int (place j + 1))) ↔ ∃ sb, DataWire l i sa j sb color) ∧
        (∀ j < l.length, j ≠ i → ∀ sa color, ∃ sbs : List Int, sbs.Nodup ∧ (∀ sb, sb ∈ sbs ↔ DataWire l i sa j sb color) ∧
          ((refsAt x sa color).map (entry "entity_id")).count (some (.int (place j + 1))) = sbs.length) ∧
        ∀ sa color, ∀ u ∈ refsAt x sa color, ∃ j < l.length, entry "entity_id" u = some (.int (place j + 1))

end Verif.Spec
