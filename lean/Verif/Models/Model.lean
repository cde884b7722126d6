import Mathlib.Analysis.Real.Sqrt
import Mathlib.Analysis.SpecialFunctions.Trigonometric.Basic

/-!
# Model of `neutronpy/models.py`

Exact real arithmetic, one value of the argument at a time (the code evaluates the same
expression for every element of an array).  The parameters are a list of any length.
-/

namespace Verif.Models

open Real

/-- Parameter lists that are too short raise `IndexError`; `np.sqrt` of a negative number is
`nan`. -/
inductive Err
  | indexError | nan
deriving DecidableEq, Repr

/-- `simple_harmonic_oscillator(p, t)` (models.py 35). -/
noncomputable def sho (p : List ℝ) (t : ℝ) : Except Err ℝ := match p with
  | p0 :: p1 :: p2 :: p3 :: _ => .ok (p0 + p1 * cos (p2 * t - p3))
  | _ => .error .indexError

/-- `damped_harmonic_oscillator(p, t)` (models.py 67). -/
noncomputable def dho (p : List ℝ) (t : ℝ) : Except Err ℝ := match p with
  | p0 :: p1 :: p2 :: p3 :: p4 :: _ => do
    let s ← sho [0, p1, p2, p3] t
    return p0 + exp (-p4 * t / 2) * s
  | _ => .error .indexError

/-- `acoustic_phonon_dispersion(p, x)` (models.py 94). -/
noncomputable def acoustic (p : List ℝ) (x : ℝ) : Except Err ℝ := match p with
  | p0 :: p1 :: _ => if 4 * p0 < 0 then .error .nan else .ok (√(4 * p0) * |sin (p1 * x)|)
  | _ => .error .indexError

/-- `ferromagnetic_disperion(p, x)` (models.py 127). -/
noncomputable def ferro (p : List ℝ) (x : ℝ) : Except Err ℝ := match p with
  | p0 :: p1 :: _ => .ok (4 * p0 * (1 - cos (p1 * x)))
  | _ => .error .indexError

/-- `antiferromagnetic_disperion(p, x)` (models.py 153). -/
noncomputable def antiferro (p : List ℝ) (x : ℝ) : Except Err ℝ := match p with
  | p0 :: p1 :: _ => .ok (p0 * |sin (p1 * x)|)
  | _ => .error .indexError

end Verif.Models
