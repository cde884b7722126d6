import Mathlib.Analysis.SpecialFunctions.Gaussian.PoissonSummation
import Mathlib.NumberTheory.ModularForms.JacobiTheta.OneVariable
import Mathlib.Analysis.Complex.ExponentialBounds
import Mathlib.Analysis.Real.Pi.Bounds
import Mathlib.Probability.Distributions.Gaussian.Real

/-!
# The fractional part of a normal random number

Lemmas for C148: its density is one within `2e-8`, but not one.
-/

namespace Verif.Convolution

open Real

/-- The density of the fractional part of a normal random number. -/
noncomputable def theta (x : ℝ) : ℝ := ∑' n : ℤ, ProbabilityTheory.gaussianPDFReal 0 1 (x + n)

/-- The factors in the series of cosines. -/
noncomputable def damp (n : ℤ) : ℝ := exp (-(2 * π ^ 2) * (n : ℝ) ^ 2)

theorem damp_pos (n : ℤ) : 0 < damp n := exp_pos _

theorem damp_eq (n : ℤ) : (damp n : ℂ) = Complex.exp (π * Complex.I * (n : ℂ) ^ 2 * (2 * π * Complex.I)) := by
  unfold damp
  push_cast
  congr 1
  linear_combination (-(2 * π ^ 2 * (n : ℂ) ^ 2)) * Complex.I_sq

theorem im_pos : 0 < (2 * π * Complex.I : ℂ).im := by
  have := pi_pos
  simp
  positivity

theorem damp_summable : Summable damp := by
  have h := (summable_jacobiTheta₂_term_iff 0 (2 * π * Complex.I)).2 im_pos
  simp only [jacobiTheta₂_term, mul_zero, zero_add, ← damp_eq] at h
  exact_mod_cast h

theorem theta_eq (x : ℝ) : theta x = ∑' n : ℤ, damp n * cos (2 * π * n * x) := by
  have h := Complex.tsum_exp_neg_quadratic (a := 2 * π) (by have := pi_pos; simp; positivity) (-Complex.I * x)
  have e1 : ∀ n : ℤ, Complex.exp (-π * (2 * π) * (n : ℂ) ^ 2 + 2 * π * (-Complex.I * x) * n) =
      damp n * Complex.exp (((-(2 * π * n * x) : ℝ) : ℂ) * Complex.I) := fun n => by
    unfold damp
    push_cast
    rw [← Complex.exp_add]
    congr 1
    ring
  have e2 : ∀ n : ℤ, Complex.exp (-π / (2 * π) * ((n : ℂ) + Complex.I * (-Complex.I * x)) ^ 2) = ((exp (-(1 / 2) * (x + n) ^ 2) : ℝ) : ℂ) := fun n => by
    push_cast
    congr 1
    have h0 : (π : ℂ) ≠ 0 := by exact_mod_cast pi_pos.ne'
    have : (n : ℂ) + Complex.I * (-Complex.I * x) = x + n := by
      linear_combination (-(x : ℂ)) * Complex.I_sq
    rw [this]
    field_simp
  simp only [e1, e2] at h
  have hs : Summable fun n : ℤ => (damp n : ℂ) * Complex.exp (((-(2 * π * n * x) : ℝ) : ℂ) * Complex.I) := by
    refine Summable.of_norm ?_
    simpa only [norm_mul, Complex.norm_exp_ofReal_mul_I, Complex.norm_real, norm_of_nonneg (damp_pos _).le, mul_one] using damp_summable
  have hre := congrArg Complex.re h
  rw [Complex.re_tsum hs] at hre
  have e3 : ∀ n : ℤ, ((damp n : ℂ) * Complex.exp (((-(2 * π * n * x) : ℝ) : ℂ) * Complex.I)).re = damp n * cos (2 * π * n * x) := fun n => by
    rw [Complex.re_ofReal_mul, Complex.exp_ofReal_mul_I_re, cos_neg]
  simp only [e3] at hre
  rw [hre]
  have e4 : (1 / (2 * π : ℂ) ^ (1 / 2 : ℂ)) = ((1 / √(2 * π) : ℝ) : ℂ) := by
    rw [sqrt_eq_rpow]
    push_cast
    rw [Complex.ofReal_cpow (by have := pi_pos; positivity)]
    push_cast
    rfl
  rw [e4, ← Complex.ofReal_tsum, ← Complex.ofReal_mul, Complex.ofReal_re, ← tsum_mul_left]
  unfold theta
  refine tsum_congr fun n => ?_
  rw [ProbabilityTheory.gaussianPDFReal]
  simp
  left
  ring

theorem theta_nonneg (x : ℝ) : 0 ≤ theta x := tsum_nonneg fun n => ProbabilityTheory.gaussianPDFReal_nonneg _ _ _

theorem theta_summable (x : ℝ) : Summable fun n : ℤ => damp n * cos (2 * π * n * x) := by
  refine Summable.of_norm_bounded damp_summable fun n => ?_
  rw [norm_mul, norm_of_nonneg (damp_pos n).le]
  exact mul_le_of_le_one_right (damp_pos n).le (abs_cos_le_one _)

theorem theta_continuous : Continuous theta := by
  rw [show theta = fun x => ∑' n : ℤ, damp n * cos (2 * π * n * x) from funext theta_eq]
  refine continuous_tsum (fun n => by fun_prop) damp_summable fun n x => ?_
  rw [norm_mul, norm_of_nonneg (damp_pos n).le]
  exact mul_le_of_le_one_right (damp_pos n).le (abs_cos_le_one _)

theorem theta_zero : 1 < theta 0 := by
  rw [theta_eq]
  have h := (theta_summable 0).sum_le_tsum {0, 1} fun n _ => by simp [(damp_pos n).le]
  have h1 := damp_pos 1
  have h0 : damp 0 = 1 := by simp [damp]
  simp [h0] at h ⊢
  linarith

theorem theta_near (x : ℝ) : |theta x - 1| ≤ 2e-8 := by
  have hb := norm_jacobiTheta_sub_one_le im_pos
  have hj : jacobiTheta (2 * π * Complex.I) = ((∑' n, damp n : ℝ) : ℂ) := by
    rw [jacobiTheta, Complex.ofReal_tsum]
    exact tsum_congr fun n => (damp_eq n).symm
  have him : (2 * π * Complex.I : ℂ).im = 2 * π := by simp
  rw [hj, him, ← Complex.ofReal_one, ← Complex.ofReal_sub, Complex.norm_real] at hb
  have hq : exp (-π * (2 * π)) < 6e-9 := by
    have h1 : exp (-π * (2 * π)) ≤ exp (-19) := by
      rw [exp_le_exp]
      have := pi_gt_d2
      nlinarith
    have h2 : exp (-19) = (exp 1 ^ 19)⁻¹ := by
      rw [exp_neg, ← exp_nat_mul]
      norm_num
    have h3 : (2.71 : ℝ) ^ 19 < exp 1 ^ 19 := by
      have := exp_one_gt_d9
      gcongr
      linarith
    refine lt_of_le_of_lt h1 ?_
    rw [h2]
    refine lt_of_lt_of_le (inv_strictAnti₀ (by norm_num) h3) ?_
    norm_num
  have hq0 := exp_pos (-π * (2 * π))
  have hb2 : ‖(∑' n, damp n : ℝ) - 1‖ ≤ 2e-8 := by
    refine hb.trans ?_
    rw [div_mul_eq_mul_div, div_le_iff₀ (by linarith)]
    nlinarith
  refine le_trans ?_ hb2
  have h1 := hasSum_ite_eq (0 : ℤ) (1 : ℝ)
  have hd := damp_summable.hasSum.sub h1
  have ht := (theta_summable x).hasSum.sub h1
  rw [← theta_eq] at ht
  have term : ∀ n : ℤ, |damp n * cos (2 * π * n * x) - (if n = 0 then 1 else 0)| ≤ damp n - (if n = 0 then 1 else 0) := fun n => by
    by_cases hn : n = 0
    · subst hn
      simp [damp]
    · rw [if_neg hn, sub_zero, sub_zero, abs_mul, abs_of_pos (damp_pos n)]
      exact mul_le_of_le_one_right (damp_pos n).le (abs_cos_le_one _)
  refine le_trans ?_ (le_abs_self _)
  exact abs_le.2 ⟨by
    have := hasSum_le (fun n => (abs_le.1 (term n)).1) hd.neg ht
    linarith, hasSum_le (fun n => (abs_le.1 (term n)).2) ht hd⟩

end Verif.Convolution
