import Verif.Model.Blueprint
/-!
# Specification vocabulary for prototype tables
-/
set_option autoImplicit false

namespace Verif.Spec

/-- The entry of `k` in a table after a sequence of updates of it (latest first): each update has the new
data and tells whether it was appended. -/
def finalEntry (k : String) (initial : Option Val) : List (Dict × Bool) → Option Val
  | [] => initial
  | (d, append) :: us =>
    match List.lookup k d with
    | some v => some v
    | none => if append then finalEntry k initial us else none

/-- The tables under the keys of the file read by `import_prototype_data`. -/
def fileKey : Table → String
  | .entity => "entity"
  | .recipe => "recipe"
  | .item => "item"
  | .signal => "signal"
  | .tile => "tile"

/-- The position of the table in the order in which a file is read. -/
def fileRank : Table → Nat
  | .entity => 0
  | .recipe => 1
  | .item => 2
  | .signal => 3
  | .tile => 4

end Verif.Spec
