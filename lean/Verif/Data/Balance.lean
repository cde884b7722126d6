import Verif.Energy.Model
import Mathlib.Analysis.SpecialFunctions.Exp

/-!
# Model of the detailed balance part of `neutronpy/data/analysis.py`

Exact real arithmetic.  `Num.inf` stands for an infinity of either sign.
-/

namespace Verif.Data

open Real Verif.Energy

/-- `detailed_balance_factor` (data/analysis.py 31-46) at one point; `kB` is
BOLTZMANN_IN_MEV_K. -/
noncomputable def balance (kB temp e : ℝ) : ℝ := 1 - exp (-e / kB / temp)

/-- Product of a floating point value with a finite number. -/
noncomputable def mulNum (x : Num) (y : ℝ) : Num :=
  match x with
  | .num r => .num (r * y)
  | .nan => .nan
  | .inf => if y = 0 then .nan else .inf

/-- `scattering_function` (data/analysis.py 163-185): `ki` from a scalar energy, `kf`
from the array `ei - e`.  `sigma` is the total scattering cross section. -/
noncomputable def scatteringFunction (c : Consts) (sigma ei : ℝ) (es det : List ℝ) : List Num :=
  let kf := (deriveArr c (es.map (ei - ·))).wavevec
  match (derive c ei).wavevec with
  | .num ki => List.zipWith (fun k d => mulNum (divBy (4 * π / sigma * ki) k) d) kf det
  | _ => es.map fun _ => .nan

/-- `dynamic_susceptibility` (data/analysis.py 187-206). -/
noncomputable def susceptibility (c : Consts) (kB sigma ei : ℝ) (es temps det : List ℝ) : List Num :=
  List.zipWith mulNum (scatteringFunction c sigma ei es det)
    (List.zipWith (fun e t => balance kB t e) es temps)

end Verif.Data
