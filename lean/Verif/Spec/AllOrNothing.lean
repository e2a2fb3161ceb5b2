import Verif.Model.Blueprint
/-!
# Calls that are all or nothing (C90)

A call that raises should leave everything as it was.  `Leaving` lists the kinds of calls of the library for which this is
not so.
-/
set_option autoImplicit false

namespace Verif.Spec

/-- A call that raises leaves everything as it was. -/
def AllOrNothing : Prop :=
  ∀ (env : Env) (w w' : World) (op : Op) (x : Exc), Reachable env w → op.refsOk w → op.run w = (.error x, w') → w' = w

/-- The kinds of calls that can raise after having changed something. -/
inductive CallKind where
  | load | parse | rotate | rotateLayer | entRotate | recenter
  | getConnections | entToJson | toJson
  | setName | setLabel | importProtos
  | inventory | infinitySettings | infinityFilters | requestFilters

/-- The calls of these kinds. -/
inductive Leaving : CallKind → Op → Prop where
  | load (b data) : Leaving .load (.load b data)
  | parse (b) : Leaving .parse (.parse b)
  | rotate (b n a d) : Leaving .rotate (.rotate b n a d)
  | rotateLayer (b n a d) : Leaving .rotateLayer (.rotateLayer b n a d)
  | entRotate (r n a d) : Leaving .entRotate (.entRotate r n a d)
  | recenter (b a) : Leaving .recenter (.recenter b a)
  | getConnections (r) : Leaving .getConnections (.getConnections r)
  | entToJson (r) : Leaving .entToJson (.entToJson r)
  | toJson (b) : Leaving .toJson (.toJson b)
  | setName (r v) : Leaving .setName (.setName r v)
  | setLabel (b l c) : Leaving .setLabel (.setLabel b l c)
  | importProtos (data append) : Leaving .importProtos (.importProtos data append)
  | inventory (r v) : Leaving .inventory (.setAttr r "inventory" v)
  | infinitySettings (r v) : Leaving .infinitySettings (.setAttr r "infinity_settings" v)
  | infinityFilters (r v) : Leaving .infinityFilters (.setAttr r "infinity_settings_filters" v)
  | requestFilters (r v) : Leaving .requestFilters (.setAttr r "request_filters" v)

/-- The same entity up to position, direction and orientation. -/
def OnlyMoved (e e' : Entity) : Prop :=
  ∃ p d a, e' = { e with pos := p, dir := d, attrs := a } ∧ ∀ k, k ≠ "orientation" → List.lookup k a = List.lookup k e.attrs

/-- Nothing has changed but the position, direction and orientation of the entities in question. -/
structure Disturbed (rs : List Ref) (w w' : World) : Prop where
  env : w'.env = w.env
  next : w'.next = w.next
  bp : w'.bp = w.bp
  others : ∀ s, s ∉ rs → w'.heap s = w.heap s
  moved : ∀ s, OnlyMoved (w.heap s) (w'.heap s)

/-- `Skipping w ops ops'`: the calls `ops`, made one after the other from `w` on by a program that catches exceptions, without
some of those that raise and are of no kind listed above. -/
inductive Skipping : World → List Op → List Op → Prop where
  | done (w) : Skipping w [] []
  | keep (w op ops ops') : op.refsOk w → Skipping (op.run w).2 ops ops' → Skipping w (op :: ops) (op :: ops')
  | skip (w op ops ops' x) : (∀ k, ¬ Leaving k op) → (op.run w).1 = .error x → Skipping w ops ops' →
      Skipping w (op :: ops) ops'

end Verif.Spec
