import Verif.Functions.Props

/-!
# Property C37: volumes of the two-dimensional profiles
-/

namespace Verif.Functions

open Real MeasureTheory

theorem integral_gauss2Peak {c : Peak2} (hx : 0 < c.wx) (hy : 0 < c.wy) :
    Integrable (gauss2Peak c) ∧ ∫ q, gauss2Peak c q = c.vol := by
  obtain ⟨h1, h2⟩ := integral_gaussPeak (c := (1, c.x0, c.wx)) hx
  obtain ⟨h3, h4⟩ := integral_gaussPeak (c := (1, c.y0, c.wy)) hy
  unfold gauss2Peak
  refine ⟨(h1.mul_prod h3).const_mul _, ?_⟩
  rw [integral_const_mul, Measure.volume_eq_prod,
    integral_prod_mul (gaussPeak (1, c.x0, c.wx)) (gaussPeak (1, c.y0, c.wy)), h2, h4]
  simp

/-- **C37** the volume of `gaussian2d` minus its background is the sum of the volume
parameters. -/
theorem C37_gaussian2d_volume (b0 b1 : ℝ) {peaks : List Peak2}
    (hw : ∀ c ∈ peaks, 0 < c.wx ∧ 0 < c.wy) {t : List ℝ} (ht : t.length < 5) :
    ∃ f : ℝ × ℝ → ℝ, (∀ q, gaussian2d (params5 b0 b1 peaks t) q =
        .ok (b0 + b1 * (q.1 + q.2) + f q)) ∧
      Integrable f ∧ ∫ q, f q = (peaks.map Peak2.vol).sum := by
  refine ⟨_, C36_gaussian2d b0 b1 hw ht, ?_⟩
  have key := fun c hc => integral_gauss2Peak (hw c hc).1 (hw c hc).2
  obtain ⟨h1, h2⟩ := integral_list_sum peaks gauss2Peak (fun c hc => (key c hc).1)
  refine ⟨h1, h2.trans ?_⟩
  congr 1
  exact List.map_congr_left (fun c hc => (key c hc).2)

/-- Gaussian integral of a positive definite quadratic form in two variables. -/
theorem integral_quad {A B C : ℝ} (hA : 0 < A) (hD : 0 < A * B - C ^ 2) (x0 y0 : ℝ) :
    (Integrable fun q : ℝ × ℝ => exp (-(A * (q.1 - x0) ^ 2 + 2 * C * (q.1 - x0) * (q.2 - y0) +
        B * (q.2 - y0) ^ 2) / 2)) ∧
      ∫ q : ℝ × ℝ, exp (-(A * (q.1 - x0) ^ 2 + 2 * C * (q.1 - x0) * (q.2 - y0) +
        B * (q.2 - y0) ^ 2) / 2) = 2 * π / √(A * B - C ^ 2) := by
  have hD' : 0 < (A * B - C ^ 2) / (2 * A) := by positivity
  have hA2 : 0 < A / 2 := by positivity
  have hform : ∀ x y : ℝ, exp (-(A * (x - x0) ^ 2 + 2 * C * (x - x0) * (y - y0) +
        B * (y - y0) ^ 2) / 2) =
      exp (-((A * B - C ^ 2) / (2 * A)) * (y - y0) ^ 2) *
        exp (-(A / 2) * (x - (x0 - C / A * (y - y0))) ^ 2) := by
    intro x y
    rw [← exp_add]
    congr 1
    field_simp
    ring
  have hcont : Continuous fun q : ℝ × ℝ => exp (-(A * (q.1 - x0) ^ 2 +
      2 * C * (q.1 - x0) * (q.2 - y0) + B * (q.2 - y0) ^ 2) / 2) := by fun_prop
  have hint : Integrable fun q : ℝ × ℝ => exp (-(A * (q.1 - x0) ^ 2 +
      2 * C * (q.1 - x0) * (q.2 - y0) + B * (q.2 - y0) ^ 2) / 2) := by
    rw [Measure.volume_eq_prod, integrable_prod_iff' hcont.aestronglyMeasurable]
    constructor
    · refine Filter.Eventually.of_forall fun y => ?_
      simp only [hform]
      exact (integrable_gauss_shift hA2 _).const_mul _
    · simp only [Real.norm_eq_abs, Real.abs_exp]
      simp only [hform, integral_const_mul, integral_gauss_shift]
      exact (integrable_gauss_shift hD' _).mul_const _
  refine ⟨hint, ?_⟩
  rw [Measure.volume_eq_prod] at hint ⊢
  rw [integral_prod_symm _ hint]
  simp only [hform, integral_const_mul, integral_gauss_shift, integral_mul_const]
  rw [← sqrt_mul (by positivity)]
  have : π / ((A * B - C ^ 2) / (2 * A)) * (π / (A / 2)) = (2 * π) ^ 2 / (A * B - C ^ 2) := by
    field_simp
  rw [this, sqrt_div (by positivity), sqrt_sq (by positivity)]

theorem integral_resPeak {c : PeakR} (hA : 0 < c.xx) (hD : 0 < c.xx * c.yy - c.xy ^ 2) :
    Integrable (resPeak c) ∧ ∫ q, resPeak c q = c.vol := by
  obtain ⟨h1, h2⟩ := integral_quad hA hD c.x0 c.y0
  unfold resPeak
  refine ⟨h1.const_mul _, ?_⟩
  rw [integral_const_mul, h2]
  have := sqrt_pos.2 hD
  have := pi_pos
  field_simp

/-- **C37** the volume of `resolution` minus its background is the sum of the volume
parameters, whatever the (non-zero) R0, for positive definite matrices. -/
theorem C37_resolution_volume (b0 b1 : ℝ) {peaks : List PeakR}
    (hw : ∀ c ∈ peaks, 0 < c.xx ∧ c.r0 ≠ 0) (hD : ∀ c ∈ peaks, 0 < c.xx * c.yy - c.xy ^ 2)
    {t : List ℝ} (ht : t.length < 7) :
    ∃ f : ℝ × ℝ → ℝ, (∀ q, resolution (params7 b0 b1 peaks t) q =
        .ok (b0 + b1 * (q.1 + q.2) + f q)) ∧
      Integrable f ∧ ∫ q, f q = (peaks.map PeakR.vol).sum := by
  refine ⟨_, C36_resolution b0 b1 hw ht, ?_⟩
  have key := fun c hc => integral_resPeak (hw c hc).1 (hD c hc)
  obtain ⟨h1, h2⟩ := integral_list_sum peaks resPeak (fun c hc => (key c hc).1)
  refine ⟨h1, h2.trans ?_⟩
  congr 1
  exact List.map_congr_left (fun c hc => (key c hc).2)

example : 0 < (⟨1, 0, 0, 2, 3, 5, 1⟩ : PeakR).xx ∧ (⟨1, 0, 0, 2, 3, 5, 1⟩ : PeakR).r0 ≠ 0 ∧
    0 < (⟨1, 0, 0, 2, 3, 5, 1⟩ : PeakR).xx * (⟨1, 0, 0, 2, 3, 5, 1⟩ : PeakR).yy -
      (⟨1, 0, 0, 2, 3, 5, 1⟩ : PeakR).xy ^ 2 := by norm_num

/-- **C37** a mode other than `'gaussian'` gives the background only. -/
theorem C37_other_mode {mode : String} (h : mode ≠ "gaussian") (b0 b1 : ℝ) (r : List ℝ)
    (q : ℝ × ℝ) : resolution (b0 :: b1 :: r) q mode = .ok (b0 + b1 * (q.1 + q.2)) := by
  unfold resolution withBackground
  rw [if_neg h, if_neg (by simp), loop_eq]
  simp [at']

end Verif.Functions
