import Verif.Model.Blueprint
/-!
# Classes derived from `Blueprint`

`set_entity_prototype_data` and its kind are class methods (`blueprint.py:144-182`): called on a derived class they read
and assign the attribute of that class.  The rest of the library reads the tables from the class `Blueprint` by name
(`entity.py:35, 47, 64, 84, 87`, `entity_mixins.py:77, 101, 731, 743`, `util.py:569, 581`), whatever the class of the
blueprint.
-/
set_option autoImplicit false

namespace Verif

/-- The objects of the library together with the attributes that were set on derived classes.  Derived classes are
numbered; they override no method. -/
structure Family where
  world : World
  own : Nat → Table → Option Dict

namespace Family

/-- `cls.entity_prototypes` … for the derived class `c`: the attribute of the first class in its method resolution order
that has it; `mro c` lists the derived classes of that order, `Blueprint` comes after them. -/
def table (mro : Nat → List Nat) (s : Family) (c : Nat) (t : Table) : Dict :=
  ((mro c).findSome? (fun d => s.own d t)).getD (s.world.env.table t)

/-- `cls.set_entity_prototype_data(data, append)` … for the derived class `c` (`blueprint.py:144-172`). -/
def setOn (mro : Nat → List Nat) (c : Nat) (t : Table) (data : Dict) (append : Bool) (s : Family) : Family :=
  { s with own := fun d u => if d = c ∧ u = t then some (if append then mergeTables (s.table mro c t) data else data)
      else s.own d u }

/-- `data[key]`, then the corresponding setter (`blueprint.py:178-182`), as in `importTable`. -/
def importTableOn (mro : Nat → List Nat) (c : Nat) (data : Val) (append : Bool) (key : String) (t : Table) (s : Family) :
    Except Exc Unit × Family :=
  match data.subscript key with
  | .error x => (.error x, s)
  | .ok (.dict d) => (.ok (), s.setOn mro c t d append)
  | .ok _ => (.error (if append then .typeError else .unmodelled), s)

/-- The remaining sections of the file; an exception ends the call. -/
def importRest (mro : Nat → List Nat) (c : Nat) (data : Val) (append : Bool) :
    List (String × Table) → Family → Except Exc Unit × Family
  | [], s => (.ok (), s)
  | (key, t) :: l, s =>
    match s.importTableOn mro c data append key t with
    | (.error x, s) => (.error x, s)
    | (.ok _, s) => importRest mro c data append l s

/-- `cls.import_prototype_data(filename)` for the derived class `c` (`blueprint.py:174-182`). -/
def importOn (mro : Nat → List Nat) (c : Nat) (data : Val) (append : Bool) (s : Family) : Except Exc Unit × Family :=
  importRest mro c data append
    [("entity", .entity), ("recipe", .recipe), ("item", .item), ("signal", .signal), ("tile", .tile)] s

end Family

/-- A call: one of the library on `Blueprint` and its objects (of whichever class), or one that sets prototype data of a
derived class. -/
inductive Act where
  | call (op : Op)
  | setOn (c : Nat) (t : Table) (data : Dict) (append : Bool)
  | importOn (c : Nat) (data : Val) (append : Bool)

/-- The effect of a call. -/
def Act.run (mro : Nat → List Nat) : Act → Family → Except Exc Unit × Family
  | .call op, s => ((op.run s.world).1, { s with world := (op.run s.world).2 })
  | .setOn c t data append, s => (.ok (), s.setOn mro c t data append)
  | .importOn c data append, s => s.importOn mro c data append

/-- A history of calls, with the outcome of each. -/
def Act.history (mro : Nat → List Nat) : List Act → Family → List (Except Exc Unit) × Family
  | [], s => ([], s)
  | a :: l, s => ((a.run mro s).1 :: (Act.history mro l (a.run mro s).2).1, (Act.history mro l (a.run mro s).2).2)

end Verif
