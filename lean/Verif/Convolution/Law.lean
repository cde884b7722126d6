import Mathlib.MeasureTheory.Function.JacobianOneDim
import Mathlib.MeasureTheory.Integral.Pi
import Mathlib.Analysis.SpecialFunctions.Trigonometric.ArctanDeriv
import Mathlib.Algebra.Order.ToIntervalMod
import Verif.Convolution.Theta

/-!
# The law of the variables of the Monte Carlo method

Lemmas for C148: the law of `tan (r π - π / 2)` for a random number `r` with a density, and of four such variables.
-/

namespace Verif.Convolution

open Real MeasureTheory Set
open scoped ENNReal

/-- A variable of the integration from a random number. -/
noncomputable def angle (r : ℝ) : ℝ := tan (r * π - π / 2)

theorem angle_measurable : Measurable angle := by
  unfold angle
  have : Measurable tan := by
    rw [show tan = fun x => sin x / cos x from funext tan_eq_sin_div_cos]
    fun_prop
  fun_prop

theorem angle_add_int (r : ℝ) (n : ℤ) : angle (r + n) = angle r := by
  unfold angle
  rw [show (r + n) * π - π / 2 = (r * π - π / 2) + n * π by ring]
  exact tan_periodic.int_mul n _

/-- The random number between zero and one for a variable. -/
noncomputable def turn (t : ℝ) : ℝ := arctan t / π + 1 / 2

theorem angle_turn (t : ℝ) : angle (turn t) = t := by
  unfold angle turn
  have := pi_pos
  rw [show (arctan t / π + 1 / 2) * π - π / 2 = arctan t by field_simp; ring]
  exact tan_arctan t

theorem turn_continuous : Continuous turn := by
  unfold turn
  have := continuous_arctan
  fun_prop

theorem turn_image : turn '' univ = Ioo 0 1 := by
  have hp := pi_pos
  ext x
  constructor
  · rintro ⟨t, -, rfl⟩
    have h1 := neg_pi_div_two_lt_arctan t
    have h2 := arctan_lt_pi_div_two t
    unfold turn
    constructor
    · have : -(1 / 2) < arctan t / π := by rw [lt_div_iff₀ hp]; linarith
      linarith
    · have : arctan t / π < 1 / 2 := by rw [div_lt_iff₀ hp]; linarith
      linarith
  · rintro ⟨h0, h1⟩
    refine ⟨angle x, mem_univ _, ?_⟩
    unfold turn angle
    rw [arctan_tan (by nlinarith) (by nlinarith)]
    field_simp
    ring

theorem turn_injective : Function.Injective turn := Function.LeftInverse.injective angle_turn

/-- Integrals over one period. -/
theorem lintegral_angle (g φ : ℝ → ℝ≥0∞) (hg : Measurable g) (hφ : Measurable φ) :
    ∫⁻ r, g (angle r) * φ r = ∫⁻ t, g t * (ENNReal.ofReal (1 / (π * (1 + t ^ 2))) * ∑' n : ℤ, φ (turn t + n)) := by
  have hm : Measurable fun r => g (angle r) * φ r := (hg.comp angle_measurable).mul hφ
  rw [← setLIntegral_univ, ← iUnion_Ioc_intCast ℝ, lintegral_iUnion (fun n => measurableSet_Ioc) (pairwise_disjoint_Ioc_intCast ℝ)]
  have e1 : ∀ n : ℤ, ∫⁻ r in Ioc (n : ℝ) (n + 1), g (angle r) * φ r = ∫⁻ r in Ioc (0 : ℝ) 1, g (angle r) * φ (r + n) := fun n => by
    have := (measurePreserving_add_right volume (n : ℝ)).setLIntegral_comp_preimage measurableSet_Ioc (s := Ioc (n : ℝ) (n + 1)) hm
    rw [← this]
    have hp : (fun x : ℝ => x + n) ⁻¹' Ioc (n : ℝ) (n + 1) = Ioc 0 1 := by
      ext x
      simp only [mem_preimage, mem_Ioc]
      constructor <;> rintro ⟨a, b⟩ <;> constructor <;> linarith
    rw [hp]
    simp only [angle_add_int]
  simp only [e1]
  have hn : ∀ n : ℤ, AEMeasurable (fun r : ℝ => g (angle r) * φ (r + n)) (volume.restrict (Ioc (0 : ℝ) 1)) := fun n =>
    ((hg.comp angle_measurable).mul (hφ.comp (measurable_add_const _))).aemeasurable
  rw [← lintegral_tsum hn]
  simp only [ENNReal.tsum_mul_left]
  rw [← restrict_Ioo_eq_restrict_Ioc, ← turn_image]
  have hd : ∀ t ∈ (univ : Set ℝ), HasDerivWithinAt turn (1 / (π * (1 + t ^ 2))) univ t := fun t _ => by
    have := ((hasDerivAt_arctan t).div_const π).add_const (1 / 2)
    unfold turn
    have e : 1 / (π * (1 + t ^ 2)) = 1 / (1 + t ^ 2) / π := by rw [div_div, mul_comm]
    rw [e]
    exact this.hasDerivWithinAt
  rw [lintegral_image_eq_lintegral_abs_deriv_mul MeasurableSet.univ hd turn_injective.injOn, setLIntegral_univ]
  refine lintegral_congr fun t => ?_
  have : 0 ≤ 1 / (π * (1 + t ^ 2)) := by have := pi_pos; positivity
  rw [abs_of_nonneg this, angle_turn]
  ring

/-- The law of a variable for random numbers with a density. -/
theorem angle_law {φ : ℝ → ℝ≥0∞} (hφ : Measurable φ) : (volume.withDensity φ).map angle =
    volume.withDensity fun t => ENNReal.ofReal (1 / (π * (1 + t ^ 2))) * ∑' n : ℤ, φ (turn t + n) := by
  ext A hA
  rw [Measure.map_apply angle_measurable hA, withDensity_apply _ (angle_measurable hA), withDensity_apply _ hA,
    ← lintegral_indicator (angle_measurable hA), ← lintegral_indicator hA]
  have := lintegral_angle (A.indicator 1) φ (measurable_one.indicator hA) hφ
  have e : ∀ (B : Set ℝ) (f : ℝ → ℝ≥0∞) (x : ℝ), B.indicator f x = B.indicator 1 x * f x := fun B f x => by
    by_cases h : x ∈ B <;> simp [h]
  refine Eq.trans (lintegral_congr fun r => ?_) (this.trans (lintegral_congr fun t => ?_))
  · rw [e]
    rfl
  · rw [e A (fun a => ENNReal.ofReal (1 / (π * (1 + a ^ 2))) * ∑' n : ℤ, φ (turn a + n))]

/-- The density of independent variables. -/
theorem pi_density {N : ℕ} {d : ℝ → ℝ} (h0 : ∀ t, 0 ≤ d t) (hi : Integrable d) {ν : Measure ℝ}
    (hν : ν = volume.withDensity fun t => ENNReal.ofReal (d t)) [IsProbabilityMeasure ν] :
    Measure.pi (fun _ : Fin N => ν) = volume.withDensity fun t : Fin N → ℝ => ENNReal.ofReal (∏ a, d (t a)) := by
  refine Measure.pi_eq fun s hs => ?_
  rw [withDensity_apply _ (MeasurableSet.univ_pi hs)]
  have hint : Integrable fun t : Fin N → ℝ => ∏ a, d (t a) := Integrable.fintype_prod fun _ => hi
  rw [← ofReal_integral_eq_lintegral_ofReal hint.integrableOn (Filter.Eventually.of_forall fun t => Finset.prod_nonneg fun a _ => h0 _)]
  rw [volume_pi, Measure.restrict_pi_pi, integral_fintype_prod_eq_prod (fun _ => d), ENNReal.ofReal_prod_of_nonneg fun a _ => integral_nonneg h0]
  refine Finset.prod_congr rfl fun a _ => ?_
  rw [ofReal_integral_eq_lintegral_ofReal hi.integrableOn (Filter.Eventually.of_forall h0), hν, withDensity_apply _ (hs a)]

/-- The mean of a function of independent variables. -/
theorem mean_eq {N : ℕ} {d : ℝ → ℝ} (hm : Measurable d) (h0 : ∀ t, 0 ≤ d t) (hi : Integrable d) {ρ : Measure ℝ} [IsProbabilityMeasure ρ]
    (hρ : ρ.map angle = volume.withDensity fun t => ENNReal.ofReal (d t)) {f : (Fin N → ℝ) → ℝ} (hf : Measurable f) :
    ∫ r, f (fun a => angle (r a)) ∂Measure.pi (fun _ : Fin N => ρ) = ∫ t, (∏ a, d (t a)) * f t := by
  have hpm : Measurable fun r : Fin N → ℝ => fun a => angle (r a) := measurable_pi_lambda _ fun a => angle_measurable.comp (measurable_pi_apply a)
  have : IsProbabilityMeasure (ρ.map angle) := Measure.isProbabilityMeasure_map angle_measurable.aemeasurable
  rw [← integral_map hpm.aemeasurable hf.aestronglyMeasurable, Measure.pi_map_pi fun _ => angle_measurable.aemeasurable,
    pi_density h0 hi hρ, integral_withDensity_eq_integral_toReal_smul (by
      refine ENNReal.measurable_ofReal.comp ?_
      exact Finset.measurable_prod _ fun a _ => hm.comp (measurable_pi_apply a)) (Filter.Eventually.of_forall fun t => ENNReal.ofReal_lt_top)]
  refine integral_congr_ae (Filter.Eventually.of_forall fun t => ?_)
  dsimp only
  rw [ENNReal.toReal_ofReal (Finset.prod_nonneg fun a _ => h0 _), smul_eq_mul]

/-- Uniform random numbers. -/
theorem uniform_law : (volume.restrict (Ioc (0 : ℝ) 1)).map angle = volume.withDensity fun t => ENNReal.ofReal (1 / (π * (1 + t ^ 2))) := by
  have e : volume.restrict (Ioc (0 : ℝ) 1) = volume.withDensity ((Ioc (0 : ℝ) 1).indicator 1) := by
    rw [withDensity_indicator_one measurableSet_Ioc]
  rw [e, angle_law (measurable_one.indicator measurableSet_Ioc)]
  congr 1
  funext t
  have hmem : turn t ∈ Ioo (0 : ℝ) 1 := turn_image ▸ ⟨t, mem_univ _, rfl⟩
  rw [tsum_eq_single 0 fun n hn => ?_]
  · rw [Int.cast_zero, add_zero, indicator_of_mem (Ioo_subset_Ioc_self hmem)]
    simp
  · refine indicator_of_notMem (fun h => hn ?_) _
    have h1 : (-1 : ℝ) < n := by linarith [hmem.2, h.1]
    have h2 : (n : ℝ) < 1 := by linarith [hmem.1, h.2]
    have h3 : (-1 : ℤ) < n := by exact_mod_cast h1
    have h4 : n < 1 := by exact_mod_cast h2
    omega

/-- Normal random numbers. -/
theorem normal_law : (ProbabilityTheory.gaussianReal 0 1).map angle =
    volume.withDensity fun t => ENNReal.ofReal (theta (turn t) / (π * (1 + t ^ 2))) := by
  rw [ProbabilityTheory.gaussianReal_of_var_ne_zero _ one_ne_zero, angle_law (ProbabilityTheory.measurable_gaussianPDF _ _)]
  congr 1
  funext t
  have hs : Summable fun n : ℤ => ProbabilityTheory.gaussianPDFReal 0 1 (turn t + n) := by
    by_contra h
    have h1 := abs_le.1 (theta_near (turn t))
    rw [theta, tsum_eq_zero_of_not_summable h] at h1
    norm_num at h1
  have : ∑' n : ℤ, ProbabilityTheory.gaussianPDF 0 1 (turn t + n) = ENNReal.ofReal (theta (turn t)) := by
    unfold theta ProbabilityTheory.gaussianPDF
    rw [ENNReal.ofReal_tsum_of_nonneg (fun n => ProbabilityTheory.gaussianPDFReal_nonneg _ _ _) hs]
  rw [this, ← ENNReal.ofReal_mul (by have := pi_pos; positivity)]
  congr 1
  ring

end Verif.Convolution
