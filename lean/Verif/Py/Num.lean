/-!
# Python numbers

`int` is exact; `float` is modelled by an exact rational (no rounding, no NaN, no infinities, no
signed zero).  The int/float tag is kept, because `type(x) is int` and the JSON rendering depend
on it.  This file models the Python runtime, not code of the repository.
-/
set_option autoImplicit false

namespace Verif

/-- Exceptions that the library (or the Python runtime underneath it) raises.
`/repo/py_factorio_blueprints/exceptions.py:1-33` plus built-in exceptions.
`unmodelled` marks inputs outside the domain of the model (see DESIGN.md); no property theorem
claims anything about the real code for such an input. -/
inductive Exc where
  | typeError | valueError | keyError | indexError | attributeError | zeroDivisionError
  | unknownEntity | unknownRecipe | unknownSignal | unknownItem | unknownTile
  | duplicateEntity | invalidExchangeString
  | overflowError
  | unmodelled
deriving DecidableEq, Repr

instance : Inhabited Exc := ⟨.unmodelled⟩

deriving instance DecidableEq for Except

/-- A Python number: `int` or (exact) `float`. -/
inductive Num where
  | int (z : Int)
  | flt (q : Rat)
deriving DecidableEq, Repr

namespace Num

instance : Inhabited Num := ⟨.int 0⟩

/-- The numeric value, forgetting the type tag. -/
def val : Num → Rat
  | int z => z
  | flt q => q

/-- `type(x) is int` -/
def isInt : Num → Bool
  | int _ => true
  | flt _ => false

/-- Python `a + b`: `int` if both are `int`, `float` otherwise. -/
def add : Num → Num → Num
  | int a, int b => int (a + b)
  | a, b => flt (a.val + b.val)

/-- Python `a - b` -/
def sub : Num → Num → Num
  | int a, int b => int (a - b)
  | a, b => flt (a.val - b.val)

/-- Python `a * b` -/
def mul : Num → Num → Num
  | int a, int b => int (a * b)
  | a, b => flt (a.val * b.val)

/-- Python `-a` -/
def neg : Num → Num
  | int a => int (-a)
  | flt a => flt (-a)

/-- Python `a / b`: always a `float`. -/
def truediv (a b : Num) : Except Exc Num :=
  if b.val = 0 then .error .zeroDivisionError else .ok (flt (a.val / b.val))

/-- Python `a // b`: floor division. -/
def floordiv (a b : Num) : Except Exc Num :=
  if b.val = 0 then .error .zeroDivisionError
  else match a, b with
    | int a, int b => .ok (int (a.fdiv b))
    | a, b => .ok (flt ((a.val / b.val).floor))

/-- Python `a % b`: the result has the sign of the divisor. -/
def mod (a b : Num) : Except Exc Num :=
  if b.val = 0 then .error .zeroDivisionError
  else match a, b with
    | int a, int b => .ok (int (a.fmod b))
    | a, b => .ok (flt (a.val - b.val * ((a.val / b.val).floor : Int)))

/-- Python `a < b` -/
def lt (a b : Num) : Bool := decide (a.val < b.val)

/-- Python `a <= b` -/
def le (a b : Num) : Bool := decide (a.val ≤ b.val)

/-- Python `a == b` (ignores the type tag). -/
def eq (a b : Num) : Bool := decide (a.val = b.val)

/-- `math.floor(a)` -/
def floor (a : Num) : Int := match a with
  | int z => z
  | flt q => q.floor

/-- `math.ceil(a)` -/
def ceil (a : Num) : Int := match a with
  | int z => z
  | flt q => q.ceil

/-- `int(a)`: truncation towards zero. -/
def trunc (a : Num) : Int := match a with
  | int z => z
  | flt q => if 0 ≤ q then q.floor else q.ceil

@[simp] theorem val_int (z : Int) : (int z).val = z := rfl
@[simp] theorem val_flt (q : Rat) : (flt q).val = q := rfl

@[simp] theorem val_add (a b : Num) : (a.add b).val = a.val + b.val := by
  cases a <;> cases b <;> simp [add]
@[simp] theorem val_sub (a b : Num) : (a.sub b).val = a.val - b.val := by
  cases a <;> cases b <;> simp [sub]
@[simp] theorem val_mul (a b : Num) : (a.mul b).val = a.val * b.val := by
  cases a <;> cases b <;> simp [mul]
@[simp] theorem val_neg (a : Num) : (a.neg).val = -a.val := by
  cases a <;> simp [neg]

@[simp] theorem isInt_add (a b : Num) : (a.add b).isInt = (a.isInt && b.isInt) := by
  cases a <;> cases b <;> rfl
@[simp] theorem isInt_sub (a b : Num) : (a.sub b).isInt = (a.isInt && b.isInt) := by
  cases a <;> cases b <;> rfl
@[simp] theorem isInt_mul (a b : Num) : (a.mul b).isInt = (a.isInt && b.isInt) := by
  cases a <;> cases b <;> rfl
@[simp] theorem isInt_neg (a : Num) : (a.neg).isInt = a.isInt := by
  cases a <;> rfl

/-- A number is determined by its tag and its value. -/
theorem ext {a b : Num} (ht : a.isInt = b.isInt) (hv : a.val = b.val) : a = b := by
  cases a <;> cases b <;> simp_all [isInt]

theorem ext_iff {a b : Num} : a = b ↔ a.isInt = b.isInt ∧ a.val = b.val :=
  ⟨fun h => h ▸ ⟨rfl, rfl⟩, fun h => ext h.1 h.2⟩

theorem trunc_eq (a : Num) :
    a.trunc = if 0 ≤ a.val then a.val.floor else a.val.ceil := by
  cases a
  · simp [trunc]
  · rfl

theorem floor_eq (a : Num) : a.floor = a.val.floor := by
  cases a <;> simp [floor]

theorem ceil_eq (a : Num) : a.ceil = a.val.ceil := by
  cases a <;> simp [ceil]

@[simp] theorem neg_neg (a : Num) : a.neg.neg = a := by
  apply ext <;> simp

theorem lt_iff (a b : Num) : a.lt b = true ↔ a.val < b.val := by simp [lt]
theorem le_iff (a b : Num) : a.le b = true ↔ a.val ≤ b.val := by simp [le]
theorem eq_iff (a b : Num) : a.eq b = true ↔ a.val = b.val := by simp [eq]

end Num
end Verif
