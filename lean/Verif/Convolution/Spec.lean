import Verif.Convolution.Limit
import Verif.Resolution.PropsMirror
import Mathlib.LinearAlgebra.Matrix.Determinant.Basic

/-!
# What a convolution with the resolution function is

The specification that C145 compares the code with.  It does not mention the coefficients, the grid or the weights of the
model.
-/

namespace Verif.Convolution

open Real Matrix MeasureTheory
open Verif.Crystal (Vec)
open Verif.Resolution (M4 Res)
open Verif.Tools (quad SPD)

/-- The point displaced from `p` by `d 0`, `d 1`, `d 2` along three axes and by `d 3` in energy. -/
def displaced (ax : Vec × Vec × Vec) (p : Point) (d : Fin 4 → ℝ) : Point :=
  (p.1 + d 0 • ax.1 + d 1 • ax.2.1 + d 2 • ax.2.2, p.2 + d 3)

/-- The cross section `S` folded with the Gaussian of the matrix `A` around the point `p`. -/
noncomputable def smeared (ax : Vec × Vec × Vec) (A : M4) (S : Point → ℝ) (p : Point) : ℝ :=
  ∫ d : Fin 4 → ℝ, S (displaced ax p d) * exp (-(1 / 2) * quad A d)

/-- The convolution as it should be: for each point, the cross sections of all modes folded with the resolution function at
the point, with their prefactors, and the background added. -/
noncomputable def expected {n : ℕ} (ax : Vec × Vec × Vec) (sqw : Fin n → Point → ℝ) (f : Pref n) (p : Point) (r : Res) : ℝ :=
  (∑ j, f.factor p j * ∫ d : Fin 4 → ℝ, sqw j (displaced ax p d) * (r.r0 * exp (-(1 / 2) * quad r.rms d))) + f.background p

end Verif.Convolution
