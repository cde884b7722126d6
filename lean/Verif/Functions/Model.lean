import Mathlib.Analysis.SpecialFunctions.Log.Basic
import Mathlib.Analysis.SpecialFunctions.Trigonometric.Basic

/-!
# Model of `neutronpy/functions.py`

Exact real arithmetic, one value of `q` at a time (the code evaluates the same
expression for every element of an array).  Square roots of negative numbers and
divisions by zero (nan/inf in numpy) are not tracked; the theorems assume positive
widths.  `scipy.special.wofz` and `erf` are arguments of the model.
-/

namespace Verif.Functions

open Real

/-- Exceptions of this module. -/
inductive Err
  | indexError
deriving DecidableEq, Repr

/-- The parameter vector element `p[i]`; only used with `i < len(p)`. -/
def at' (p : List ℝ) (i : Nat) : ℝ := p.getD i 0

/-- The loop `for i in range(n): funct += peak(i)`. -/
noncomputable def loop (funct : ℝ) (n : Nat) (peak : Nat → ℝ) : ℝ :=
  (List.range n).foldl (fun funct i => funct + peak i) funct

/-- `p[0]` and `p[1]` raise for shorter parameter vectors. -/
noncomputable def withBackground (p : List ℝ) (q : ℝ) (k : Nat) (peak : Nat → ℝ) : Except Err ℝ :=
  if p.length < 2 then .error .indexError
  else .ok (loop (at' p 0 + at' p 1 * q) ((p.length - 2) / k) peak)

/-- FWHM to sigma, functions.py 85 and others. -/
noncomputable def sigmaOf (fwhm : ℝ) : ℝ := fwhm / (2 * √(2 * log 2))

/-- `gaussian` (functions.py 83-89). -/
noncomputable def gaussian (p : List ℝ) (q : ℝ) : Except Err ℝ :=
  withBackground p q 3 fun i =>
    let sigma := sigmaOf (at' p (3 * i + 4))
    at' p (3 * i + 2) / (sigma * √(2 * π)) * exp (-(q - at' p (3 * i + 3)) ^ 2 / (2 * sigma ^ 2))

/-- `gaussian2d` (functions.py 159-170). -/
noncomputable def gaussian2d (p : List ℝ) (q : ℝ × ℝ) : Except Err ℝ :=
  withBackground p (q.1 + q.2) 5 fun i =>
    let sigma_x := sigmaOf (at' p (5 * i + 5))
    let sigma_y := sigmaOf (at' p (5 * i + 6))
    at' p (5 * i + 2) / (sigma_x * sigma_y * 2 * π) * exp (
      -((q.1 - at' p (5 * i + 3)) ^ 2 / (2 * sigma_x ^ 2) +
        (q.2 - at' p (5 * i + 4)) ^ 2 / (2 * sigma_y ^ 2)))

/-- `lorentzian` (functions.py 235-240). -/
noncomputable def lorentzian (p : List ℝ) (q : ℝ) : Except Err ℝ :=
  withBackground p q 3 fun i =>
    at' p (3 * i + 2) / π * 0.5 * at' p (3 * i + 4) /
      ((q - at' p (3 * i + 3)) ^ 2 + (0.5 * at' p (3 * i + 4)) ^ 2)

/-- `voigt` (functions.py 304-315); `wofz` is the Faddeeva function. -/
noncomputable def voigt (wofz : ℂ → ℂ) (p : List ℝ) (q : ℝ) : Except Err ℝ :=
  withBackground p q 4 fun i =>
    let sigma := sigmaOf (at' p (4 * i + 5))
    let gamma := at' p (4 * i + 4) / 2
    let N := sigma * √(2 * π)
    at' p (4 * i + 2) / N * (wofz ((((q - at' p (4 * i + 3) : ℝ) : ℂ) + Complex.I * (gamma : ℂ)) /
      ((sigma * √2 : ℝ) : ℂ))).re

/-- `resolution` (functions.py 368-381).  Any `mode` other than `'gaussian'` gives
the background only. -/
noncomputable def resolution (p : List ℝ) (q : ℝ × ℝ) (mode : String := "gaussian") :
    Except Err ℝ :=
  if mode = "gaussian" then
    withBackground p (q.1 + q.2) 7 fun i =>
      let N := (√(at' p (7 * i + 6)) *
        √(at' p (7 * i + 7) - at' p (7 * i + 8) ^ 2 / at' p (7 * i + 6))) /
          (2 * π * at' p (7 * i + 5))
      at' p (7 * i + 2) * at' p (7 * i + 5) * N * exp (-1 / 2 * (
        at' p (7 * i + 6) * (q.1 - at' p (7 * i + 3)) ^ 2 +
        at' p (7 * i + 7) * (q.2 - at' p (7 * i + 4)) ^ 2 +
        2 * at' p (7 * i + 8) * (q.1 - at' p (7 * i + 3)) * (q.2 - at' p (7 * i + 4))))
  else withBackground p (q.1 + q.2) 7 fun _ => 0

/-- `gaussian_ring` (functions.py 433-448). -/
noncomputable def gaussianRing (erf : ℝ → ℝ) (p : List ℝ) (q : ℝ × ℝ) : Except Err ℝ :=
  withBackground p (q.1 + q.2) 6 fun i =>
    let sigma := sigmaOf (at' p (6 * i + 7))
    let N := 2 * π * (exp (-at' p (6 * i + 5) ^ 2 / (2 * sigma ^ 2)) * sigma ^ 2 +
      √(π / 2) * at' p (6 * i + 5) * sigma * (1 + erf (at' p (6 * i + 5) / (√2 * sigma)))) /
        at' p (6 * i + 6)
    at' p (6 * i + 2) / N * exp (-4 * log 2 * (√((q.1 - at' p (6 * i + 3)) ^ 2 +
      at' p (6 * i + 6) ^ 2 * (q.2 - at' p (6 * i + 4)) ^ 2) - at' p (6 * i + 5)) ^ 2 /
        at' p (6 * i + 7) ^ 2)

end Verif.Functions
