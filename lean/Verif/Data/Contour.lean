import Mathlib.Algebra.Order.Round
import Mathlib.Data.Finset.Sort
import Mathlib.Algebra.Order.Archimedean.Real.Basic
import Verif.Convolution.Model

/-! # Model of the mesh of contour plots (data/plot.py) -/

namespace Verif.Data.Contour

open Verif.Convolution (linspace)

/-- Exceptions.  `overflowError` is `int(inf)`. -/
inductive Err
  | indexError | valueError | overflowError
  deriving DecidableEq, Repr

/-- `np.around(x, decimals=4)`.  (Ties are rounded up here, to even numbers by numpy; multiples of 1e-4 are never ties.) -/
noncomputable def around4 (x : ℝ) : ℝ := round (x * 10 ^ 4) / 10 ^ 4

/-- `np.unique`: the distinct values in ascending order. -/
noncomputable def unique (l : List ℝ) : List ℝ := l.toFinset.sort (· ≤ ·)

/-- data/plot.py:281-284: the step of an axis, the first difference of its values. -/
noncomputable def axisStep (l : List ℝ) : Except Err ℝ := match unique l with
  | a :: b :: _ => .ok (around4 |b - a|)
  | _ => .error .indexError

/-- `int(x)`: truncation towards zero. -/
noncomputable def toInt (x : ℝ) : ℤ := if 0 ≤ x then ⌊x⌋ else ⌈x⌉

/-- data/plot.py:285-288: `np.linspace(min, max, int(max - min / step) + 1)`.  A step of zero gives `inf` or `nan`, which `int`
does not accept; `np.linspace` does not accept a negative number.  `min` and `max` are the ends of the sorted values. -/
noncomputable def sparse (l : List ℝ) (step : ℝ) : Except Err (List ℝ) :=
  let lo := (unique l).headD 0
  let hi := (unique l).getLastD 0
  if step = 0 then (if lo = 0 then .error .valueError else .error .overflowError)
  else
    let n := toInt (hi - lo / step) + 1
    if n < 0 then .error .valueError else .ok (linspace lo hi n.toNat)

/-- data/plot.py:281-289: the coordinates of the columns and rows of the mesh that is drawn by `plot_contour` for the columns
`x` and `y` of the data (after binning, if any).  The interpolation of the intensities onto the mesh and the drawing are not
modelled. -/
noncomputable def mesh (x y : List ℝ) : Except Err (List ℝ × List ℝ) := do
  let sx ← axisStep x
  let sy ← axisStep y
  let xs ← sparse x sx
  let ys ← sparse y sy
  pure (xs, ys)

end Verif.Data.Contour
