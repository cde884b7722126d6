import Mathlib.Analysis.Complex.AbsMax
import Mathlib.Analysis.Calculus.ParametricIntegral
import Mathlib.Analysis.SpecialFunctions.Gaussian.FourierTransform
import Mathlib.Analysis.SpecialFunctions.ImproperIntegrals
import Mathlib.Analysis.Real.Pi.Bounds
import Mathlib.MeasureTheory.Integral.Prod
import Mathlib.MeasureTheory.Measure.Lebesgue.Integral

/-!
# The complex error function

Its real part is the convolution of a Gaussian with a Lorentzian; it is an entire function that vanishes at infinity in the right
half plane, and so can be compared with other such functions on the boundary of a domain only.
-/

namespace Verif.Single

open Real MeasureTheory Filter Topology Set
open Complex (I)

/-! ## The principle of the maximum for real parts -/

/-- The real part of a holomorphic function that vanishes at infinity is bounded by its values on the boundary. -/
theorem re_le_of_frontier {U : Set ℂ} {f : ℂ → ℂ} (hf : DiffContOnCl ℂ f U) {δ : ℝ} (hδ : 0 ≤ δ) (hb : ∀ t ∈ frontier U, |(f t).re| ≤ δ)
    (hz : ∀ ε > 0, ∃ X : ℝ, ∀ t ∈ closure U, X ≤ ‖t‖ → ‖f t‖ ≤ ε) {t : ℂ} (ht : t ∈ U) : |(f t).re| ≤ δ := by
  have key : ∀ σ : ℝ, |σ| = 1 → σ * (f t).re ≤ δ := fun σ hσ => by
    refine le_of_forall_pos_le_add fun ε hε => ?_
    obtain ⟨X, hX⟩ := hz ε hε
    obtain ⟨r, hr⟩ : ∃ r, r = max X (‖t‖ + 1) := ⟨_, rfl⟩
    have hrX : X ≤ r := hr ▸ le_max_left _ _
    have hrt : ‖t‖ < r := lt_of_lt_of_le (lt_add_one _) (hr ▸ le_max_right _ _)
    have hd : DiffContOnCl ℂ (fun z => Complex.exp (σ * f z)) (U ∩ Metric.ball 0 r) := by
      have h := hf.mono (inter_subset_left (s := U) (t := Metric.ball 0 r))
      exact ⟨(h.1.const_mul _).cexp, (continuousOn_const.mul h.2).cexp⟩
    have hm := Complex.norm_le_of_forall_mem_frontier_norm_le (Metric.isBounded_ball.subset inter_subset_right) hd (C := exp (δ + ε)) (fun z hz' => ?_)
      (subset_closure ⟨ht, by simpa using hrt⟩)
    · rw [Complex.norm_exp, exp_le_exp, Complex.re_ofReal_mul] at hm
      exact hm
    · rw [Complex.norm_exp, exp_le_exp, Complex.re_ofReal_mul]
      have hle : σ * (f z).re ≤ |(f z).re| := (le_abs_self _).trans (by rw [abs_mul, hσ, one_mul])
      rcases frontier_inter_subset _ _ hz' with h | h
      · linarith [hb z h.1]
      · have hn : ‖z‖ = r := by
          have := Metric.frontier_ball_subset_sphere h.2
          simpa using this
        have := hX z h.1 (hn ▸ hrX)
        linarith [Complex.abs_re_le_norm (f z)]
  rw [abs_le]
  have h1 := key 1 (by simp)
  have h2 := key (-1) (by simp)
  constructor <;> linarith

/-! ## The function -/

/-- Twice the integrand of the complex error function. -/
noncomputable def kernel (t : ℂ) (v : ℝ) : ℂ := Complex.exp (-(v : ℂ) ^ 2 / 4 - v * t)

/-- The complex error function of `I * t`. -/
noncomputable def plasma (t : ℂ) : ℂ := (1 / √π : ℝ) * ∫ v in Ioi (0 : ℝ), kernel t v

theorem kernel_integrable (t : ℂ) : Integrable (kernel t) := by
  have h := integrable_cexp_quadratic' (b := -1 / 4) (by norm_num) (-t) 0
  refine h.congr (Eventually.of_forall fun v => ?_)
  unfold kernel
  dsimp only
  congr 1
  ring

theorem norm_kernel (t : ℂ) (v : ℝ) : ‖kernel t v‖ = exp (-v ^ 2 / 4 - v * t.re) := by
  unfold kernel
  rw [Complex.norm_exp]
  congr 1
  have e : (-(v : ℂ) ^ 2 / 4 - v * t) = ((-v ^ 2 / 4 : ℝ) : ℂ) - (v : ℂ) * t := by push_cast; ring
  rw [e, Complex.sub_re, Complex.ofReal_re, Complex.re_ofReal_mul]

theorem kernel_continuous (t : ℂ) : Continuous (kernel t) := by
  unfold kernel
  fun_prop

theorem plasma_differentiable : Differentiable ℂ plasma := by
  intro t₀
  unfold plasma
  refine DifferentiableAt.const_mul ?_ _
  have hF : ∀ (v : ℝ) (t : ℂ), HasDerivAt (fun t => kernel t v) (-(v : ℂ) * kernel t v) t := fun v t => by
    unfold kernel
    have h1 : HasDerivAt (fun t : ℂ => -(v : ℂ) ^ 2 / 4 - v * t) (-(v : ℂ)) t := by
      simpa using ((hasDerivAt_id t).const_mul (v : ℂ)).const_sub (-(v : ℂ) ^ 2 / 4)
    have h2 := h1.cexp
    rwa [mul_comm] at h2
  have hb : Integrable (fun v : ℝ => ‖kernel ((-(‖t₀‖ + 2) : ℝ) : ℂ) v‖) (volume.restrict (Ioi 0)) := (kernel_integrable _).norm.restrict
  refine (hasDerivAt_integral_of_dominated_loc_of_deriv_le (F := kernel) (F' := fun t v => -(v : ℂ) * kernel t v)
    (bound := fun v : ℝ => ‖kernel ((-(‖t₀‖ + 2) : ℝ) : ℂ) v‖)
    (Metric.ball_mem_nhds t₀ one_pos) (Eventually.of_forall fun t => (kernel_continuous t).aestronglyMeasurable) (kernel_integrable t₀).restrict
    ((by fun_prop : Continuous fun v : ℝ => -(v : ℂ)).mul (kernel_continuous t₀)).aestronglyMeasurable ?_ hb ?_).2.differentiableAt
  · refine (ae_restrict_iff' measurableSet_Ioi).2 (Eventually.of_forall fun v (hv : 0 < v) t ht => ?_)
    rw [norm_mul, norm_neg, Complex.norm_real, norm_eq_abs, abs_of_pos hv, norm_kernel, norm_kernel, Complex.ofReal_re]
    have h1 : v ≤ exp v := by linarith [add_one_le_exp v]
    have h2 : -t.re ≤ ‖t₀‖ + 1 := by
      have a := (abs_le.1 (Complex.abs_re_le_norm t)).1
      have b : ‖t‖ ≤ ‖t₀‖ + 1 := by
        have := norm_le_norm_add_norm_sub' t t₀
        rw [mem_ball_iff_norm] at ht
        linarith
      linarith
    calc v * exp (-v ^ 2 / 4 - v * t.re) ≤ exp v * exp (-v ^ 2 / 4 - v * t.re) := mul_le_mul_of_nonneg_right h1 (exp_pos _).le
      _ = exp (v + (-v ^ 2 / 4 - v * t.re)) := (exp_add _ _).symm
      _ ≤ _ := by
        rw [exp_le_exp]
        nlinarith
  · exact Eventually.of_forall fun v t _ => hF v t

/-- The value at infinity. -/
theorem plasma_le {t : ℂ} (h : 0 ≤ t.re) (h0 : t ≠ 0) : ‖plasma t‖ ≤ 2 / ‖t‖ := by
  have hd : ∀ v : ℝ, HasDerivAt (kernel t) (-((v / 2 : ℝ) + t) * kernel t v) v := fun v => by
    have h1 : HasDerivAt (fun z : ℂ => -z ^ 2 / 4 - z * t) (-((v / 2 : ℝ) + t)) (v : ℂ) := by
      have := (((hasDerivAt_id' (v : ℂ)).pow 2).neg.div_const 4).sub ((hasDerivAt_id' (v : ℂ)).mul_const t)
      refine HasDerivAt.congr_deriv this ?_
      push_cast
      ring
    have h2 := h1.cexp.comp_ofReal
    rw [mul_comm] at h2
    exact h2
  have i1 : Integrable fun v : ℝ => ((v / 2 : ℝ) : ℂ) * kernel t v := by
    have hb : Integrable (fun v : ℝ => ‖kernel (t + ((1 : ℝ) : ℂ)) v‖ + ‖kernel (t - ((1 : ℝ) : ℂ)) v‖) := (kernel_integrable _).norm.add (kernel_integrable _).norm
    refine hb.mono' ((by fun_prop : Continuous fun v : ℝ => ((v / 2 : ℝ) : ℂ)).mul (kernel_continuous t)).aestronglyMeasurable (Eventually.of_forall fun v => ?_)
    rw [norm_mul, Complex.norm_real, norm_eq_abs, norm_kernel, norm_kernel, norm_kernel, Complex.add_re, Complex.sub_re, Complex.ofReal_re]
    have e1 : exp (-v ^ 2 / 4 - v * (t.re + 1)) = exp (-v) * exp (-v ^ 2 / 4 - v * t.re) := by rw [← exp_add]; congr 1; ring
    have e2 : exp (-v ^ 2 / 4 - v * (t.re - 1)) = exp v * exp (-v ^ 2 / 4 - v * t.re) := by rw [← exp_add]; congr 1; ring
    rw [e1, e2, ← add_mul]
    refine mul_le_mul_of_nonneg_right ?_ (exp_pos _).le
    have a1 := add_one_le_exp v
    have a2 := add_one_le_exp (-v)
    have a3 := exp_pos v
    have a4 := exp_pos (-v)
    rw [abs_le]
    constructor <;> linarith
  have hint : IntegrableOn (fun v : ℝ => -((v / 2 : ℝ) + t) * kernel t v) (Ioi 0) := by
    have := (i1.add ((kernel_integrable t).const_mul t)).neg
    refine (this.congr (Eventually.of_forall fun v => ?_)).integrableOn
    simp only [Pi.neg_apply, Pi.add_apply]
    ring
  have hlim : Tendsto (kernel t) atTop (𝓝 0) := by
    rw [tendsto_zero_iff_norm_tendsto_zero]
    have : Tendsto (fun v : ℝ => exp (-v)) atTop (𝓝 0) := tendsto_exp_neg_atTop_nhds_zero
    refine squeeze_zero' (Eventually.of_forall fun v => norm_nonneg _) ?_ this
    filter_upwards [eventually_ge_atTop 4] with v hv
    rw [norm_kernel, exp_le_exp]
    nlinarith [mul_nonneg (by linarith : 0 ≤ v) h]
  have e := integral_Ioi_of_hasDerivAt_of_tendsto (hd 0).continuousAt.continuousWithinAt (fun v _ => hd v) hint hlim
  have k0 : kernel t 0 = 1 := by simp [kernel]
  have e2 : t * ∫ v in Ioi (0 : ℝ), kernel t v = 1 - ∫ v in Ioi (0 : ℝ), ((v / 2 : ℝ) : ℂ) * kernel t v := by
    rw [← integral_const_mul]
    have : ∫ v in Ioi (0 : ℝ), -((v / 2 : ℝ) + t) * kernel t v = - (∫ v in Ioi (0 : ℝ), ((v / 2 : ℝ) : ℂ) * kernel t v) - ∫ v in Ioi (0 : ℝ), t * kernel t v := by
      have i2 : IntegrableOn (fun v : ℝ => -(((v / 2 : ℝ) : ℂ) * kernel t v)) (Ioi 0) := i1.neg.integrableOn
      rw [← integral_neg, ← integral_sub i2 ((kernel_integrable t).const_mul t).integrableOn]
      refine integral_congr_ae (Eventually.of_forall fun v => ?_)
      dsimp only
      ring
    rw [this, k0] at e
    linear_combination -e
  have b : ‖∫ v in Ioi (0 : ℝ), ((v / 2 : ℝ) : ℂ) * kernel t v‖ ≤ 1 := by
    have hr : ∀ v : ℝ, HasDerivAt (fun v : ℝ => -exp (-v ^ 2 / 4)) (v / 2 * exp (-v ^ 2 / 4)) v := fun v => by
      have := ((((hasDerivAt_id' v).pow 2).neg.div_const 4).exp).neg
      refine HasDerivAt.congr_deriv this ?_
      change -(exp (-v ^ 2 / 4) * (-((2 : ℕ) * v ^ (2 - 1) * 1) / 4)) = _
      push_cast
      ring
    have hl : Tendsto (fun v : ℝ => -exp (-v ^ 2 / 4)) atTop (𝓝 0) := by
      have : Tendsto (fun v : ℝ => exp (-v)) atTop (𝓝 0) := tendsto_exp_neg_atTop_nhds_zero
      rw [← neg_zero]
      refine Tendsto.neg (squeeze_zero' (Eventually.of_forall fun v => (exp_pos _).le) ?_ this)
      filter_upwards [eventually_ge_atTop 4] with v hv
      rw [exp_le_exp]
      nlinarith
    have hp := integrableOn_Ioi_deriv_of_nonneg (hr 0).continuousAt.continuousWithinAt (fun v _ => hr v) (fun v (hv : 0 < v) => by positivity) hl
    have hI := integral_Ioi_of_hasDerivAt_of_tendsto (hr 0).continuousAt.continuousWithinAt (fun v _ => hr v) hp hl
    have : ∫ v in Ioi (0 : ℝ), v / 2 * exp (-v ^ 2 / 4) = 1 := by
      rw [hI]
      simp
    rw [← this]
    refine norm_integral_le_of_norm_le hp ((ae_restrict_iff' measurableSet_Ioi).2 (Eventually.of_forall fun v (hv : 0 < v) => ?_))
    rw [norm_mul, Complex.norm_real, norm_eq_abs, abs_of_pos (by linarith), norm_kernel]
    refine mul_le_mul_of_nonneg_left ?_ (by linarith)
    rw [exp_le_exp]
    nlinarith
  have hJ : ‖t‖ * ‖∫ v in Ioi (0 : ℝ), kernel t v‖ ≤ 2 := by
    rw [← norm_mul, e2]
    calc _ ≤ ‖(1 : ℂ)‖ + ‖∫ v in Ioi (0 : ℝ), ((v / 2 : ℝ) : ℂ) * kernel t v‖ := norm_sub_le _ _
      _ ≤ 1 + 1 := by rw [norm_one]; linarith
      _ = 2 := by norm_num
  have ht : 0 < ‖t‖ := norm_pos_iff.2 h0
  unfold plasma
  rw [norm_mul, Complex.norm_real, norm_eq_abs, abs_of_pos (by have := pi_pos; positivity), le_div_iff₀ ht]
  have hp : 1 / √π ≤ 1 := by
    rw [div_le_one (by have := pi_pos; positivity), one_le_sqrt]
    linarith [pi_gt_three]
  calc 1 / √π * ‖∫ v in Ioi (0 : ℝ), kernel t v‖ * ‖t‖ = 1 / √π * (‖t‖ * ‖∫ v in Ioi (0 : ℝ), kernel t v‖) := by ring
    _ ≤ 1 * 2 := mul_le_mul hp hJ (by positivity) (by norm_num)
    _ = 2 := by norm_num

/-- The real part on the imaginary axis is a Gaussian. -/
theorem plasma_axis (x : ℝ) : (plasma (-I * x)).re = exp (-x ^ 2) := by
  have hfull : ∫ v : ℝ, kernel (-I * x) v = ((2 * √π * exp (-x ^ 2) : ℝ) : ℂ) := by
    have h := integral_cexp_quadratic (b := -1 / 4) (by norm_num) (I * x) 0
    have e : ∀ v : ℝ, kernel (-I * x) v = Complex.exp (-1 / 4 * v ^ 2 + I * x * v + 0) := fun v => by
      unfold kernel
      congr 1
      ring
    simp only [e]
    rw [h]
    have e1 : ((π : ℂ) / -(-1 / 4)) ^ (1 / 2 : ℂ) = ((2 * √π : ℝ) : ℂ) := by
      have : (π : ℂ) / -(-1 / 4) = ((4 * π : ℝ) : ℂ) := by push_cast; ring
      have hp : (0 : ℝ) ≤ 4 * π := by have := pi_pos; positivity
      rw [this, show (1 / 2 : ℂ) = ((1 / 2 : ℝ) : ℂ) by push_cast; rfl, ← Complex.ofReal_cpow hp, ← sqrt_eq_rpow, sqrt_mul (by norm_num)]
      congr 2
      rw [show (4 : ℝ) = 2 ^ 2 by norm_num, sqrt_sq (by norm_num)]
    rw [e1]
    push_cast
    congr 2
    have := Complex.I_sq
    linear_combination (x : ℂ) ^ 2 * this
  have hsplit : ∫ v : ℝ, kernel (-I * x) v = (∫ v in Iic (0 : ℝ), kernel (-I * x) v) + ∫ v in Ioi (0 : ℝ), kernel (-I * x) v :=
    (intervalIntegral.integral_Iic_add_Ioi (kernel_integrable _).integrableOn (kernel_integrable _).integrableOn).symm
  have hneg : ∫ v in Iic (0 : ℝ), kernel (-I * x) v = (starRingEnd ℂ) (∫ v in Ioi (0 : ℝ), kernel (-I * x) v) := by
    rw [← integral_conj]
    have := integral_comp_neg_Ioi 0 (kernel (-I * x))
    rw [neg_zero] at this
    rw [← this]
    refine integral_congr_ae (Eventually.of_forall fun v => ?_)
    unfold kernel
    dsimp only
    rw [← Complex.exp_conj]
    congr 1
    simp only [map_sub, map_div₀, map_neg, map_pow, map_mul, Complex.conj_ofReal, Complex.conj_I, map_ofNat]
    push_cast
    ring
  have hre := congrArg Complex.re (hfull.symm.trans (hsplit.trans (by rw [hneg])))
  rw [Complex.ofReal_re, Complex.add_re, Complex.conj_re] at hre
  unfold plasma
  rw [Complex.re_ofReal_mul]
  have hp : 0 < √π := by have := pi_pos; positivity
  have e : (∫ v in Ioi (0 : ℝ), kernel (-I * x) v).re = √π * exp (-x ^ 2) := by linarith
  rw [e, ← mul_assoc, one_div_mul_cancel hp.ne', one_mul]

/-- For positive real parts it is the convolution of a Gaussian with a Lorentzian. -/
theorem plasma_eq {a : ℝ} (ha : 0 < a) (x : ℝ) : (plasma (a - I * x)).re = ∫ y : ℝ, 1 / π * (a / (a ^ 2 + (x - y) ^ 2)) * exp (-y ^ 2) := by
  have hp : 0 < √π := by have := pi_pos; positivity
  have hz : ∀ y : ℝ, (a : ℂ) - I * (x - y) ≠ 0 := fun y h => by
    have := congrArg Complex.re h
    simp at this
    exact ha.ne' this
  -- the Gaussian in `v` as an integral
  have hv : ∀ v : ℝ, kernel (a - I * x) v = (1 / √π : ℝ) * ∫ y : ℝ, Complex.exp (-(y : ℂ) ^ 2) * Complex.exp (-((a : ℂ) - I * (x - y)) * v) := fun v => by
    have h := integral_cexp_quadratic (b := -1) (by norm_num) (-I * v) (-((a : ℂ) - I * x) * v)
    have e : ∀ y : ℝ, Complex.exp (-(y : ℂ) ^ 2) * Complex.exp (-((a : ℂ) - I * (x - y)) * v) =
        Complex.exp (-1 * (y : ℂ) ^ 2 + -I * v * y + -((a : ℂ) - I * x) * v) := fun y => by
      rw [← Complex.exp_add]
      congr 1
      ring
    simp only [e]
    rw [h]
    have e1 : ((π : ℂ) / -(-1)) ^ (1 / 2 : ℂ) = ((√π : ℝ) : ℂ) := by
      rw [neg_neg, div_one, show (1 / 2 : ℂ) = ((1 / 2 : ℝ) : ℂ) by push_cast; rfl, ← Complex.ofReal_cpow pi_pos.le, ← sqrt_eq_rpow]
    rw [e1, ← mul_assoc, ← Complex.ofReal_mul, one_div_mul_cancel hp.ne', Complex.ofReal_one, one_mul]
    unfold kernel
    congr 1
    have := Complex.I_sq
    linear_combination (-(v : ℂ) ^ 2 / 4) * this
  have hsw : ∫ v in Ioi (0 : ℝ), ∫ y : ℝ, Complex.exp (-(y : ℂ) ^ 2) * Complex.exp (-((a : ℂ) - I * (x - y)) * v) =
      ∫ y : ℝ, ∫ v in Ioi (0 : ℝ), Complex.exp (-(y : ℂ) ^ 2) * Complex.exp (-((a : ℂ) - I * (x - y)) * v) := by
    refine integral_integral_swap ?_
    have g1 : Integrable (fun v : ℝ => exp (-a * v)) (volume.restrict (Ioi 0)) := integrableOn_exp_mul_Ioi (by linarith) 0
    have g2 : Integrable (fun y : ℝ => exp (-y ^ 2)) := by simpa using integrable_exp_neg_mul_sq one_pos
    refine (g1.mul_prod g2).mono' (Continuous.aestronglyMeasurable (by unfold Function.uncurry; fun_prop)) (Eventually.of_forall fun z => ?_)
    unfold Function.uncurry
    rw [norm_mul, Complex.norm_exp, Complex.norm_exp, mul_comm]
    refine mul_le_mul (le_of_eq ?_) (le_of_eq ?_) (exp_pos _).le (exp_pos _).le
    · congr 1
      simp
    · congr 1
      rw [← Complex.ofReal_pow, ← Complex.ofReal_neg, Complex.ofReal_re]
  have hin : ∀ y : ℝ, ∫ v in Ioi (0 : ℝ), Complex.exp (-(y : ℂ) ^ 2) * Complex.exp (-((a : ℂ) - I * (x - y)) * v) =
      ((exp (-y ^ 2) : ℝ) : ℂ) * (1 / ((a : ℂ) - I * (x - y))) := fun y => by
    rw [integral_const_mul, integral_exp_mul_complex_Ioi (by simpa using ha)]
    congr 1
    · push_cast
      rfl
    · simp only [Complex.ofReal_zero, mul_zero, Complex.exp_zero]
      rw [neg_div_neg_eq]
  have e : plasma (a - I * x) = ((1 / π : ℝ) : ℂ) * ∫ y : ℝ, ((exp (-y ^ 2) : ℝ) : ℂ) * (1 / ((a : ℂ) - I * (x - y))) := by
    unfold plasma
    simp only [hv]
    rw [integral_const_mul, hsw]
    simp only [hin]
    rw [← mul_assoc, ← Complex.ofReal_mul]
    congr 2
    rw [div_mul_div_comm, one_mul, mul_self_sqrt pi_pos.le]
  have hi : Integrable fun y : ℝ => ((exp (-y ^ 2) : ℝ) : ℂ) * (1 / ((a : ℂ) - I * (x - y))) := by
    have g2 : Integrable (fun y : ℝ => exp (-y ^ 2) * (1 / a)) := by
      simpa using (integrable_exp_neg_mul_sq one_pos).mul_const (1 / a)
    refine g2.mono' (Continuous.aestronglyMeasurable ?_) (Eventually.of_forall fun y => ?_)
    · refine (by fun_prop : Continuous fun y : ℝ => ((exp (-y ^ 2) : ℝ) : ℂ)).mul (continuous_const.div (by fun_prop) hz)
    · rw [norm_mul, Complex.norm_real, norm_eq_abs, abs_of_pos (exp_pos _), norm_div, norm_one]
      refine mul_le_mul_of_nonneg_left (one_div_le_one_div_of_le ha ?_) (exp_pos _).le
      have := Complex.re_le_norm ((a : ℂ) - I * (x - y))
      simpa using this
  rw [e, Complex.re_ofReal_mul]
  have hre := integral_re hi
  simp only [RCLike.re_to_complex] at hre
  rw [← hre, ← integral_const_mul]
  refine integral_congr_ae (Eventually.of_forall fun y => ?_)
  dsimp only
  rw [Complex.re_ofReal_mul, one_div ((a : ℂ) - _), Complex.inv_re]
  have e2 : (a : ℂ) - I * (x - y) = ⟨a, -(x - y)⟩ := by
    apply Complex.ext <;> simp
  rw [e2, Complex.normSq_mk]
  dsimp only
  rw [neg_mul_neg, ← sq, ← sq]
  ring

end Verif.Single
