import Mathlib.Algebra.Order.Ring.Rat
import Mathlib.Algebra.Order.Group.Unbundled.Abs
import Mathlib.Algebra.Order.Floor.Defs
import Mathlib.Data.Rat.Floor

/-!
# Data types of columns

Model of `downcast_to_smallest_dtype` (`respy/shared.py:193-237`) together with the parts of `pandas.to_numeric`
and `numpy` it relies on: integer types with wrap-around casts and the comparison `np.allclose`.
-/

namespace Respy

/-- An integer data type, e.g. `uint8` is `⟨false, 1⟩` (`respy/shared.py:193-237`). -/
structure IntType where
  signed : Bool
  bytes : Nat
deriving DecidableEq

/-- The value can be represented (`respy/shared.py:193-237`). -/
def IntType.Holds (t : IntType) (v : Int) : Prop :=
  if t.signed then -(2 ^ (8 * t.bytes - 1)) ≤ v ∧ v < 2 ^ (8 * t.bytes - 1) else 0 ≤ v ∧ v < 2 ^ (8 * t.bytes)

instance (t : IntType) (v : Int) : Decidable (t.Holds v) := by unfold IntType.Holds; infer_instance

/-- Casts between integer types wrap around silently (`respy/shared.py:193-237`). -/
def IntType.wrap (t : IntType) (v : Int) : Int :=
  if t.signed then Int.bmod v (2 ^ (8 * t.bytes)) else v % 2 ^ (8 * t.bytes)

/-- A column of a frame with a category or numeric data type. Floating point numbers are rational numbers or
missing. Not modelled: infinities and columns with texts, which become categories (`respy/shared.py:193-237`). -/
inductive Column
  | category (codes : List Nat)
  | ints (t : IntType) (values : List Int)
  | floats (bytes : Nat) (values : List (Option ℚ))
deriving DecidableEq

/-- `series.astype(t)`. The cast of a floating point number is a parameter because it is undefined for numbers
out of range. Missing values cannot be cast (`respy/shared.py:235`). -/
def Column.astype (castFloat : IntType → ℚ → Int) (t : IntType) : Column → Option Column
  | .category codes => some (.category codes)
  | .ints _ vs => some (.ints t (vs.map t.wrap))
  | .floats _ vs => (vs.mapM id).map fun vs => .ints t (vs.map (castFloat t))

/-- The bytes per value (`respy/shared.py:193-237`). -/
def Column.itemsize : Column → Nat
  | .category _ => 0
  | .ints t _ => t.bytes
  | .floats b _ => b

/-- The values of a column as numbers (`respy/shared.py:193-237`). -/
def Column.numbers : Column → List (Option ℚ)
  | .category codes => codes.map fun c : Nat => some (c : ℚ)
  | .ints _ vs => vs.map fun v : Int => some (v : ℚ)
  | .floats _ vs => vs

/-- `np.allclose(new, old, rtol=0)` for columns without missing values; `atol` is `1e-8` by default
(`respy/shared.py:220`). -/
def allClose (new old : Column) : Bool :=
  decide (List.Forall₂ (fun a b => ∃ x ∈ a, ∃ y ∈ b, |x - y| ≤ 1 / 10 ^ 8) new.numbers old.numbers)

/-- `maybe_downcast_numeric` in pandas: the cast column if its values are close, else the column
(`respy/shared.py:220`). -/
def maybeDowncast (castFloat : IntType → ℚ → Int) (t : IntType) (c : Column) : Column :=
  match c.astype castFloat t with
  | none => c
  | some new => if allClose new c then new else c

/-- The loop over types from smallest to largest in `pandas.to_numeric` (`respy/shared.py:220`). -/
def downcastLoop (castFloat : IntType → ℚ → Int) (signed : Bool) (c : Column) : List Nat → Column
  | [] => c
  | b :: bs =>
    if b ≤ c.itemsize then
      match maybeDowncast castFloat ⟨signed, b⟩ c with
      | .ints t vs => if t = ⟨signed, b⟩ then .ints t vs else downcastLoop castFloat signed c bs
      | _ => downcastLoop castFloat signed c bs
    else downcastLoop castFloat signed c bs

/-- `pd.to_numeric(series, downcast="unsigned")` or `"signed"`. Unsigned types are tried only if the minimum is
not negative, which is not the case with missing values (`respy/shared.py:220`). -/
def toNumeric (castFloat : IntType → ℚ → Int) (signed : Bool) (c : Column) : Column :=
  if signed ∨ ∀ x ∈ c.numbers, ∃ y ∈ x, 0 ≤ y then downcastLoop castFloat signed c [1, 2, 4, 8] else c

/-- The data type of a column (`respy/shared.py:193-237`). -/
inductive DType
  | category
  | int (t : IntType)
  | float (bytes : Nat)
deriving DecidableEq

/-- `series.dtype` (`respy/shared.py:193-237`). -/
def Column.dtype : Column → DType
  | .category _ => .category
  | .ints t _ => .int t
  | .floats b _ => .float b

/-- `dtype.itemsize` (`respy/shared.py:230`). -/
def DType.itemsize : DType → Nat
  | .category => 0
  | .int t => t.bytes
  | .float b => b

/-- `dtype.name.startswith("u")` (`respy/shared.py:227`). -/
def DType.unsigned : DType → Bool
  | .int t => !t.signed
  | _ => false

/-- The loop over options in `downcast_to_smallest_dtype` (`respy/shared.py:217-235`). -/
def smallestDType (castFloat : IntType → ℚ → Int) (c : Column) (minDType : DType) : List Bool → DType
  | [] => minDType
  | signed :: opts =>
    let d := (toNumeric castFloat signed c).dtype
    if d.unsigned then d
    else if d.itemsize < minDType.itemsize then smallestDType castFloat c d opts
    else smallestDType castFloat c minDType opts

/-- `downcast_to_smallest_dtype` with default options (`respy/shared.py:193-237`). -/
def downcast (castFloat : IntType → ℚ → Int) (c : Column) : Option Column :=
  match c with
  | .category codes => some (.category codes)
  | c =>
    match smallestDType castFloat c c.dtype [false, true] with
    | .int t => c.astype castFloat t
    | _ => some c

end Respy
