import Verif.Model.Blueprint
/-!
# Specification vocabulary: names of items in settings
-/
set_option autoImplicit false

namespace Verif.Spec

/-- One row of a list of filters names the item `s`. -/
def RowNames (v : Val) (s : String) : Prop :=
  ∃ row, v = .dict row ∧ List.lookup "name" row = some (.str s)

/-- The value `v` of a setting names the item `s`. -/
inductive NamesItem : String → Val → String → Prop where
  /-- the filter of a splitter -/
  | splitter (s : String) : NamesItem "filter" (.str s) s
  /-- a filter of a cargo wagon -/
  | cargo {d : Dict} {l : List Val} {v : Val} {s : String} : List.lookup "filters" d = some (.list l) → v ∈ l →
      RowNames v s → NamesItem "inventory" (.dict d) s
  /-- a filter of an infinity chest -/
  | infinity {d : Dict} {l : List Val} {v : Val} {s : String} : List.lookup "filters" d = some (.list l) → v ∈ l →
      RowNames v s → NamesItem "infinity_settings" (.dict d) s
  /-- a request of a logistic chest -/
  | request {l : List Val} {v : Val} {s : String} : v ∈ l → RowNames v s → NamesItem "request_filters" (.list l) s
  /-- the icon of the alert of a speaker -/
  | alert {d icon : Dict} {s : String} : List.lookup "icon_signal_id" d = some (.dict icon) →
      List.lookup "name" icon = some (.str s) → NamesItem "alert_parameters" (.dict d) s

/-- The same world with another imported table of items. -/
def withItems (w : World) (d : Dict) : World := { w with env := { w.env with items := d } }

/-- The outcomes of a sequence of calls, and the world after it. -/
def history : List Op → World → List (Except Exc Unit) × World
  | [], w => ([], w)
  | op :: ops, w => ((op.run w).1 :: (history ops (op.run w).2).1, (history ops (op.run w).2).2)

end Verif.Spec
