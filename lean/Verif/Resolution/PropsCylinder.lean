import Verif.Resolution.PropsPaths

/-! # Property theorems: cylindrical samples (C125) -/

namespace Verif.Resolution

open Real Matrix
open Verif.Crystal (Fail npSqrt npArcsin npDiv)
open Verif.Tools (arctan2 quad SPD Closes)

/-- Specification: the variance of one coordinate of a point that is uniformly distributed in an ellipse with the diameter
`d` along this coordinate (in polar coordinates, in units of the two half diameters, in which the area is `π`). -/
noncomputable def ellipseVariance (d : ℝ) : ℝ :=
  (∫ t in (0 : ℝ)..(2 * π), ∫ r in (0 : ℝ)..1, (d / 2 * (r * cos t)) ^ 2 * r) / π

/-- Specification: the covariance of a point that is uniformly distributed in an upright cylinder with elliptic base. -/
noncomputable def cylinderCovariance (d w h : ℝ) : M3 :=
  diagonal ![ellipseVariance d, ellipseVariance w, variance (some h)]

theorem ellipseVariance_eq (d : ℝ) : ellipseVariance d = d ^ 2 / 16 := by
  have h1 : ∀ t : ℝ, (∫ r in (0 : ℝ)..1, (d / 2 * (r * cos t)) ^ 2 * r) = d ^ 2 / 16 * cos t ^ 2 := fun t => by
    have e : (fun r : ℝ => (d / 2 * (r * cos t)) ^ 2 * r) = fun r => (d ^ 2 / 4 * cos t ^ 2) * r ^ 3 := by
      ext r; ring
    rw [e, intervalIntegral.integral_const_mul, integral_pow]
    norm_num
    ring
  unfold ellipseVariance
  simp only [h1]
  rw [intervalIntegral.integral_const_mul, integral_cos_sq]
  simp

/-- The same settings with an upright cylinder as sample, of the diameters `d` along and `w` across the momentum transfer and
of the height `h`. -/
def Settings.cylinder (s : Settings) (d w h : ℝ) : Settings :=
  { s with sample := { s.sample with depth := some d, width := some w, height := some h,
                                      shapeType := some ['c', 'y', 'l', 'i', 'n', 'd', 'r', 'i', 'c', 'a', 'l'] } }

/-- The same settings with a box as sample. -/
def Settings.box (s : Settings) (d w h : ℝ) : Settings :=
  { s with sample := { s.sample with depth := some d, width := some w, height := some h,
                                      shapeType := some ['r', 'e', 'c', 't', 'a', 'n', 'g', 'u', 'l', 'a', 'r'] } }

theorem sshape_cylinder (s : Settings) (d w h : ℝ) (i : ℕ) :
    sshapeAt (s.cylinder d w h).sample i = .ok (diagonal ![d ^ 2 / 16, w ^ 2 / 16, h ^ 2 / 16]) := by
  simp [sshapeAt, Settings.cylinder]

theorem sshape_box (s : Settings) (d w h : ℝ) (i : ℕ) :
    sshapeAt (s.box d w h).sample i = .ok (diagonal ![d ^ 2 / 12, w ^ 2 / 12, h ^ 2 / 12]) := by
  simp [sshapeAt, Settings.box]

/-- C125, the base: the variances along and across the momentum transfer are those of a cylinder. -/
theorem C125_base_partial (s : Settings) (d w h : ℝ) (i : ℕ) : ∃ X, sshapeAt (s.cylinder d w h).sample i = .ok X ∧
    X 0 0 = cylinderCovariance d w h 0 0 ∧ X 1 1 = cylinderCovariance d w h 1 1 ∧ ∀ a b, a ≠ b → X a b = 0 := by
  refine ⟨_, sshape_cylinder s d w h i, ?_, ?_, fun a b hab => diagonal_apply_ne _ hab⟩
  · simp [cylinderCovariance, ellipseVariance_eq]
  · simp [cylinderCovariance, ellipseVariance_eq]

/-- C125, the height: for every cylinder the variance is three quarters of what it should be. -/
theorem C125_height_false (s : Settings) (d w : ℝ) {h : ℝ} (h0 : 0 < h) (i : ℕ) : ∃ X, sshapeAt (s.cylinder d w h).sample i = .ok X ∧
    X 2 2 = 3 / 4 * cylinderCovariance d w h 2 2 ∧ X ≠ cylinderCovariance d w h := by
  have e : (diagonal ![d ^ 2 / 16, w ^ 2 / 16, h ^ 2 / 16] : M3) 2 2 = 3 / 4 * cylinderCovariance d w h 2 2 := by
    simp [cylinderCovariance, variance_some h0]
    ring
  refine ⟨_, sshape_cylinder s d w h i, e, fun hX => ?_⟩
  rw [hX] at e
  have : 0 < cylinderCovariance d w h 2 2 := by
    simp [cylinderCovariance, variance_some h0]
    positivity
  linarith

theorem runLoop_congr (c : Conf) {a b : SampleAttrs} (h : ∀ i, sshapeAt a i = sshapeAt b i) :
    ∀ (pts : List (ℝ × ℝ)) (ind : ℕ) (l : Loop), runLoop c a ind l pts = runLoop c b ind l pts
  | [], _, _ => rfl
  | (q, w) :: rest, ind, l => by
    unfold runLoop
    simp only [h, runLoop_congr c h rest]

/-- C125, what follows for the answers: every instrument answers every list of points for a cylinder of height `h` as it
does for a box whose edges are all shorter by the factor `√3 / 2`, including the vertical edge; a box of height `h` is not
what the cylinder is compared to. -/
theorem C125_as_box (s : Settings) (d w h : ℝ) (pts : List (ℝ × ℝ)) :
    calcInQ (s.cylinder d w h) pts = calcInQ (s.box (√3 / 2 * d) (√3 / 2 * w) (√3 / 2 * h)) pts := by
  have e3 : √3 ^ 2 = 3 := Real.sq_sqrt (by norm_num)
  have hf : ∀ x : ℝ, (√3 / 2 * x) ^ 2 / 12 = x ^ 2 / 16 := fun x => by
    rw [mul_pow, div_pow, e3]; ring
  have hs : ∀ i, sshapeAt (s.cylinder d w h).sample i =
      sshapeAt (s.box (√3 / 2 * d) (√3 / 2 * w) (√3 / 2 * h)).sample i := fun i => by
    rw [sshape_cylinder, sshape_box, hf, hf, hf]
  have hd : decode (s.cylinder d w h) = decode (s.box (√3 / 2 * d) (√3 / 2 * w) (√3 / 2 * h)) := rfl
  have hl : Loop.start (s.cylinder d w h) = Loop.start (s.box (√3 / 2 * d) (√3 / 2 * w) (√3 / 2 * h)) := rfl
  unfold calcInQ
  rw [hd, hl]
  simp only [runLoop_congr _ hs]

/-- A focusing instrument with a cylinder of 2 cm diameter and 3 cm height. -/
example : ∃ X, sshapeAt (focused.cylinder 2 2 3).sample 0 = .ok X ∧ X 2 2 = 9 / 16 ∧ cylinderCovariance 2 2 3 2 2 = 3 / 4 := by
  refine ⟨_, sshape_cylinder focused 2 2 3 0, ?_, ?_⟩
  · simp; norm_num
  · simp [cylinderCovariance, variance_some]; norm_num

end Verif.Resolution
