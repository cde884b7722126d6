import Mathlib.Data.Int.Log
import Mathlib.Algebra.Order.Round
import Mathlib.Algebra.Order.Archimedean.Real.Basic

/-!
# Model of the table of a fit

`neutronpy/lsfit/plot.py` 14-49, `build_param_table`.  Exact real arithmetic; a number in the text is given by its decimal value
and the number of its decimals.
-/

namespace Verif.Fitter.Table

/-- Exceptions. -/
inductive TableErr
  | typeError | valueError
  deriving DecidableEq

/-- `np.floor(np.log10(np.abs(x)))` for a number that is not zero. -/
noncomputable def magnitude (x : ℝ) : ℤ := Int.log 10 |x|

/-- The entry of `n_dec` (lsfit/plot.py 33-35), as it is used in the format.  The logarithm of zero is `-inf`: an error that is zero
makes the entry `inf` (or `nan`), which as an integer is the least one, and a number cannot be written with it
(lsfit/plot.py 44-46); a parameter that is zero makes it `-inf`, which is replaced by 2. -/
noncomputable def decimals (p dp : ℝ) : Except TableErr ℕ :=
  if dp = 0 then .error .valueError
  else if p = 0 then .ok 2
  else
    let n := magnitude p - magnitude dp + 1
    .ok (if n < 1 then 2 else n.toNat)

/-- A number in the text. -/
structure Written where
  decimals : ℕ
  value : ℝ

/-- `'%1.<n>e' % x`: one digit before and `n` digits after the point.  (Ties are rounded up here, by Python to even digits.) -/
noncomputable def scientific (n : ℕ) (x : ℝ) : Written :=
  ⟨n, if x = 0 then 0 else round (x / 10 ^ (magnitude x - n)) * 10 ^ (magnitude x - n)⟩

/-- `'%f' % x`. -/
noncomputable def plainDecimal (x : ℝ) : Written := ⟨6, round (x * 10 ^ 6) / 10 ^ 6⟩

/-- One line (lsfit/plot.py 43-46).  An error that is `None` has no absolute value (lsfit/plot.py 33). -/
noncomputable def line (p : ℝ) : Option ℝ → Except TableErr (Written × Written)
  | none => .error .typeError
  | some dp => match decimals p dp with
    | .error e => .error e
    | .ok n => .ok (scientific n p, scientific 1 dp)

/-- The table: the title line, a line for each parameter, and `χ²`; the line with the column labels is left out. -/
structure Shown where
  title : Option String
  rows : List (Written × Written)
  chi2 : Written

/-- lsfit/plot.py 14-49, `build_param_table`, for the pairs of `self.params` and `self.xerror`.  The lists have the same length
(fitter.py 531-533).  (Should there be several failures, which one is raised is not modelled.) -/
noncomputable def build (title : Option String) (fit : List (ℝ × Option ℝ)) (chi2 : ℝ) : Except TableErr Shown := do
  let rows ← fit.mapM fun x => line x.1 x.2
  return ⟨title, rows, plainDecimal chi2⟩

end Verif.Fitter.Table
