import Mathlib.Analysis.SpecialFunctions.Trigonometric.Deriv
import Mathlib.Analysis.SpecialFunctions.Trigonometric.ArctanDeriv
import Mathlib.Analysis.Calculus.Deriv.Inv
import Verif.Tof.Model

/-!
# Specification: what a time-of-flight spectrometer measures

A neutron is described by nine measured quantities `x`: the time between the two choppers, the time between the second
chopper and the detector, the distances between the choppers, from the second chopper to the sample and from the sample
to the detector, and two angles each of the incident and the final flight path.
-/

namespace Verif.Tof

open Real Matrix

/-- The speed before the sample: distance of the choppers over time. -/
noncomputable def speedIn (x : Fin 9 → ℝ) : ℝ := x 2 / x 0

/-- The time between the sample and the detector. -/
noncomputable def timeOut (x : Fin 9 → ℝ) : ℝ := x 1 - x 3 / speedIn x

/-- The direction with azimuth `a` and elevation `b`. -/
noncomputable def heading (a b : ℝ) : Fin 3 → ℝ := ![cos a * cos b, sin a * cos b, sin b]

/-- The position on the detector, relative to the sample, of a pixel seen under the angles `x 7` and `x 8`: on a
sphere, or on a cylinder with vertical axis, of radius `x 4`. -/
noncomputable def pixel (f : Form) (x : Fin 9 → ℝ) : Fin 3 → ℝ := match f with
  | .spherical => x 4 • heading (x 7) (x 8)
  | .cylinder => x 4 • ![cos (x 7), sin (x 7), tan (x 8)]

/-- The velocity after the sample. -/
noncomputable def velocityOut (f : Form) (x : Fin 9 → ℝ) : Fin 3 → ℝ := (timeOut x)⁻¹ • pixel f x

/-- The momentum transfer in 1/Å. -/
noncomputable def momentum (c : Consts) (f : Form) (x : Fin 9 → ℝ) : Fin 3 → ℝ :=
  (c.mn / c.hbar * 1e-10) • (speedIn x • heading (x 5) (x 6) - velocityOut f x)

/-- The energy transfer in meV. -/
noncomputable def energyLoss (c : Consts) (f : Form) (x : Fin 9 → ℝ) : ℝ :=
  c.mn / 2 * (speedIn x ^ 2 - velocityOut f x ⬝ᵥ velocityOut f x) / (1e-3 * c.e)

/-- Momentum and energy transfer. -/
noncomputable def transfer (c : Consts) (f : Form) (x : Fin 9 → ℝ) : Fin 4 → ℝ :=
  ![momentum c f x 0, momentum c f x 1, momentum c f x 2, energyLoss c f x]

/-- The length of the path from the sample to the detector. -/
noncomputable def path (f : Form) (m : Measures) (k : Kin) : ℝ := match f with
  | .spherical => m.lSd
  | .cylinder => m.lSd / cos k.phi

/-- What is measured for a neutron with the speeds and angles `k`. -/
noncomputable def nominal (f : Form) (m : Measures) (k : Kin) : Fin 9 → ℝ :=
  ![m.lPm / k.vi, m.lMs / k.vi + path f m k / k.vf, m.lPm, m.lMs, m.lSd, m.thetaI, m.phiI, k.theta, k.phi]

/-- Components along the direction at the angle `a` from the incident beam, across it in the plane, and upwards. -/
noncomputable def inAxes (a : ℝ) (t : Fin 4 → ℝ) : Fin 4 → ℝ :=
  ![t 0 * cos a + t 1 * sin a, -t 0 * sin a + t 1 * cos a, t 2, t 3]

/-! ## Derivatives -/

theorem line (x d : Fin 9 → ℝ) (j : Fin 9) : HasDerivAt (fun s : ℝ => (x + s • d) j) (d j) 0 := by
  have := ((hasDerivAt_id (0 : ℝ)).mul_const (d j)).const_add (x j)
  simpa using this

variable {x : Fin 9 → ℝ}

theorem speedIn_deriv (h0 : x 0 ≠ 0) (d : Fin 9 → ℝ) :
    HasDerivAt (fun s : ℝ => speedIn (x + s • d)) (d 2 / x 0 - speedIn x / x 0 * d 0) 0 := by
  have := (line x d 2).div (line x d 0) (by simpa using h0)
  refine this.congr_deriv ?_
  simp only [speedIn, zero_smul, add_zero]
  field_simp

theorem timeOut_deriv (h0 : x 0 ≠ 0) (h2 : x 2 ≠ 0) (d : Fin 9 → ℝ) :
    HasDerivAt (fun s : ℝ => timeOut (x + s • d))
      (d 1 - d 3 / speedIn x + x 3 / speedIn x ^ 2 * (d 2 / x 0 - speedIn x / x 0 * d 0)) 0 := by
  have hs : speedIn x ≠ 0 := div_ne_zero h2 h0
  have := (line x d 1).sub ((line x d 3).div (speedIn_deriv h0 d) (by simpa using hs))
  refine this.congr_deriv ?_
  simp only [zero_smul, add_zero]
  field_simp
  ring

theorem heading_deriv (x d : Fin 9 → ℝ) (p q : Fin 9) (a : Fin 3) :
    HasDerivAt (fun s : ℝ => heading ((x + s • d) p) ((x + s • d) q) a)
      ((![-sin (x p) * cos (x q), cos (x p) * cos (x q), 0] : Fin 3 → ℝ) a * d p +
        (![-cos (x p) * sin (x q), -sin (x p) * sin (x q), cos (x q)] : Fin 3 → ℝ) a * d q) 0 := by
  fin_cases a
  · have := (line x d p).cos.mul (line x d q).cos
    refine this.congr_deriv ?_
    simp only [zero_smul, add_zero, Fin.zero_eta, Fin.isValue, cons_val_zero]
    ring
  · have := (line x d p).sin.mul (line x d q).cos
    refine this.congr_deriv ?_
    simp only [zero_smul, add_zero, Fin.mk_one, Fin.isValue, cons_val_one, cons_val_zero]
    ring
  · have := (line x d q).sin
    refine this.congr_deriv ?_
    simp only [zero_smul, add_zero, Fin.reduceFinMk, cons_val]
    ring

end Verif.Tof
