import Mathlib.Analysis.SpecialFunctions.Pow.Real
import Mathlib.Algebra.Order.Floor.Ring

/-!
# Model of data sets made of whole numbers

The rest of the model of `neutronpy/data/data.py` has columns of real numbers.  A column made of whole numbers (`np.array` of a list of
integers, data/data.py 106-113, 119-122) is an array of integers, for which numpy has other rules.  Here the type of a column is part of
the model.  Floating point numbers are exact, and integers are not bounded.
-/

namespace Verif.Data.Whole

/-- A number: a Python `int` or an element of an array of integers, or a `float`. -/
inductive Num
  | int (n : ℤ)
  | float (x : ℝ)

/-- The value. -/
noncomputable def Num.val : Num → ℝ
  | .int n => n
  | .float x => x

/-- A column: an array of integers or of floating point numbers. -/
inductive Col
  | int (xs : List ℤ)
  | float (xs : List ℝ)

/-- The values of a column. -/
noncomputable def Col.vals : Col → List ℝ
  | .int xs => xs.map (Int.cast : ℤ → ℝ)
  | .float xs => xs

/-- Exceptions. -/
inductive Err
  | typeError | valueError | indexError
  deriving DecidableEq

/-- Assignment of a floating point number to an element of an array of integers: the part after the point is cut off. -/
noncomputable def truncate (x : ℝ) : ℤ := if 0 ≤ x then ⌊x⌋ else ⌈x⌉

/-- `self.detector * right` (data/data.py 160): a new array, of integers if both are. -/
noncomputable def mul : Col → Num → Col
  | .int xs, .int n => .int (xs.map (· * n))
  | c, y => .float (c.vals.map (· * y.val))

/-- `self.detector / right` (data/data.py 168, 176): always floating point numbers.  Theorems assume that `right` is not zero. -/
noncomputable def div (c : Col) (y : Num) : Col := .float (c.vals.map (· / y.val))

/-- `self.detector // right` (data/data.py 184). -/
noncomputable def floordiv : Col → Num → Col
  | .int xs, .int n => .int (xs.map (Int.fdiv · n))
  | c, y => .float (c.vals.map fun x => (⌊x / y.val⌋ : ℝ))

/-- `self.detector *= right` (data/data.py 164): the array keeps its type, floating point numbers cannot be put into integers. -/
noncomputable def imul : Col → Num → Except Err Col
  | .int xs, .int n => .ok (.int (xs.map (· * n)))
  | .int _, .float _ => .error .typeError
  | .float xs, y => .ok (.float (xs.map (· * y.val)))

/-- `self.detector /= right` (data/data.py 172, 180). -/
noncomputable def idiv : Col → Num → Except Err Col
  | .int _, _ => .error .typeError
  | .float xs, y => .ok (.float (xs.map (· / y.val)))

/-- `temp_obj.detector **= right` (data/data.py 192), which `d ** right` uses too.  Theorems assume counts that are not negative. -/
noncomputable def ipow : Col → Num → Except Err Col
  | .int xs, .int n => if n < 0 then .error .valueError else .ok (.int (xs.map (· ^ n.toNat)))
  | .int _, .float _ => .error .typeError
  | .float xs, y => .ok (.float (xs.map fun x => x ^ y.val))

/-- `_data_temp[_key][j] += obj._data[_key][i]` (data/data.py 460). -/
noncomputable def addAt : Col → ℕ → Num → Except Err Col
  | .int xs, j, y => match xs[j]? with
    | none => .error .indexError
    | some x => match y with
      | .int n => .ok (.int (xs.set j (x + n)))
      | .float q => .ok (.int (xs.set j (truncate (x + q))))
  | .float xs, j, y => match xs[j]? with
    | none => .error .indexError
    | some x => .ok (.float (xs.set j (x + y.val)))

/-- `np.concatenate((_value, np.array([obj._data[_key][i]])))` (data/data.py 463-464): integers only if both are. -/
noncomputable def append : Col → Num → Col
  | .int xs, .int n => .int (xs ++ [n])
  | c, y => .float (c.vals ++ [y.val])

/-- One iteration of the loop of `combine_data` (data/data.py 452-464) on a column of counts: the row that is close, or none, is found from
the coordinates. -/
noncomputable def step (c : Col) : Option ℕ × Num → Except Err Col
  | (some j, y) => addAt c j y
  | (none, y) => .ok (append c y)

/-- The loop (data/data.py 452-464) on a column of counts, for the counts of the other data set with the rows that they belong to.  (Sorting
afterwards changes neither the type nor the sum.) -/
noncomputable def combine (c : Col) (ys : List (Option ℕ × Num)) : Except Err Col := ys.foldlM step c

end Verif.Data.Whole
