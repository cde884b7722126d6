import Verif.Functions.Props2D
import Mathlib.Analysis.SpecialFunctions.PolarCoord
import Mathlib.MeasureTheory.Integral.IntegralEqImproper
import Mathlib.Analysis.SpecialFunctions.Integrals.Basic

/-!
# Property C82: Voigt and ring profiles are normalised

`scipy.special.wofz` and `erf` are given by their integral definitions.
-/

namespace Verif.Functions

open Real MeasureTheory Set

/-- The Faddeeva function in the upper half plane. -/
noncomputable def faddeeva (z : ℂ) : ℂ :=
  Complex.I / π * ∫ t : ℝ, ((exp (-t ^ 2) : ℝ) : ℂ) / (z - t)

/-- The error function. -/
noncomputable def errf (x : ℝ) : ℝ := 2 / √π * ∫ t in (0 : ℝ)..x, exp (-t ^ 2)

theorem faddeeva_re (x : ℝ) {y : ℝ} (hy : 0 < y) :
    (faddeeva (x + Complex.I * y)).re =
      1 / π * ∫ t : ℝ, exp (-t ^ 2) * (y / ((t - x) ^ 2 + y ^ 2)) := by
  have hne : ∀ t : ℝ, ((x : ℂ) + Complex.I * y - t) ≠ 0 := by
    intro t h
    have := congrArg Complex.im h
    simp at this
    exact hy.ne' this
  have hcont : Continuous fun t : ℝ => ((exp (-t ^ 2) : ℝ) : ℂ) / ((x : ℂ) + Complex.I * y - t) := by
    apply Continuous.div
    · fun_prop
    · fun_prop
    · exact hne
  have hint : Integrable fun t : ℝ => ((exp (-t ^ 2) : ℝ) : ℂ) / ((x : ℂ) + Complex.I * y - t) := by
    have hg : Integrable fun t : ℝ => y⁻¹ * exp (-t ^ 2) := by
      have := (integrable_exp_neg_mul_sq (b := 1) one_pos).const_mul y⁻¹
      simpa using this
    refine hg.mono' hcont.aestronglyMeasurable (Filter.Eventually.of_forall fun t => ?_)
    rw [norm_div, Complex.norm_real, Real.norm_eq_abs, abs_exp, div_eq_mul_inv, mul_comm]
    apply mul_le_mul_of_nonneg_right _ (exp_pos _).le
    apply inv_anti₀ hy
    have h1 := Complex.abs_im_le_norm ((x : ℂ) + Complex.I * y - t)
    have h2 : ((x : ℂ) + Complex.I * y - t).im = y := by simp
    rwa [h2, abs_of_pos hy] at h1
  unfold faddeeva
  have h1 : (Complex.I / π * ∫ t : ℝ, ((exp (-t ^ 2) : ℝ) : ℂ) / ((x : ℂ) + Complex.I * y - t)).re =
      -(1 / π) * (∫ t : ℝ, ((exp (-t ^ 2) : ℝ) : ℂ) / ((x : ℂ) + Complex.I * y - t)).im := by
    rw [div_mul_eq_mul_div, Complex.div_ofReal_re]
    simp
    ring
  rw [h1]
  have h2 : (∫ t : ℝ, ((exp (-t ^ 2) : ℝ) : ℂ) / ((x : ℂ) + Complex.I * y - t)).im =
      ∫ t : ℝ, (((exp (-t ^ 2) : ℝ) : ℂ) / ((x : ℂ) + Complex.I * y - t)).im :=
    (integral_im hint).symm
  rw [h2, neg_mul, ← mul_neg, ← integral_neg]
  congr 2
  funext t
  have h3 : Complex.normSq ((x : ℂ) + Complex.I * y - t) = (t - x) ^ 2 + y ^ 2 := by
    rw [Complex.normSq_apply]; simp; ring
  rw [Complex.div_im, h3, Complex.ofReal_im, Complex.ofReal_re]
  simp only [Complex.sub_re, Complex.sub_im, Complex.add_re, Complex.add_im, Complex.ofReal_re,
    Complex.ofReal_im, Complex.mul_re, Complex.mul_im, Complex.I_re, Complex.I_im]
  ring

/-- Integral of the real part along a line in the upper half plane. -/
theorem integral_faddeeva {y : ℝ} (hy : 0 < y) :
    (Integrable fun x : ℝ => (faddeeva (x + Complex.I * y)).re) ∧
      ∫ x : ℝ, (faddeeva (x + Complex.I * y)).re = √π := by
  have hπ := pi_pos
  have hcont : Continuous fun q : ℝ × ℝ => exp (-q.2 ^ 2) * (y / ((q.2 - q.1) ^ 2 + y ^ 2)) := by
    apply Continuous.mul
    · fun_prop
    · apply Continuous.div
      · fun_prop
      · fun_prop
      · intro q; positivity
  have hsym : ∀ x t : ℝ, y / ((t - x) ^ 2 + y ^ 2) = y / ((x - t) ^ 2 + y ^ 2) := by
    intro x t; congr 2; ring
  have hlor : ∀ t : ℝ, (Integrable fun x : ℝ => y / ((t - x) ^ 2 + y ^ 2)) ∧
      ∫ x : ℝ, y / ((t - x) ^ 2 + y ^ 2) = π := by
    intro t
    rw [show (fun x : ℝ => y / ((t - x) ^ 2 + y ^ 2)) = fun x => y / ((x - t) ^ 2 + y ^ 2) from
      funext fun x => hsym x t]
    exact integral_lorentz hy t
  have hgauss : Integrable fun t : ℝ => exp (-t ^ 2) := by
    simpa using integrable_exp_neg_mul_sq (b := 1) one_pos
  have hint : Integrable (fun q : ℝ × ℝ => exp (-q.2 ^ 2) * (y / ((q.2 - q.1) ^ 2 + y ^ 2)))
      (volume.prod volume) := by
    rw [integrable_prod_iff' hcont.aestronglyMeasurable]
    constructor
    · refine Filter.Eventually.of_forall fun t => ?_
      exact (hlor t).1.const_mul (exp (-t ^ 2))
    · have : ∀ t x : ℝ, ‖exp (-t ^ 2) * (y / ((t - x) ^ 2 + y ^ 2))‖ =
          exp (-t ^ 2) * (y / ((x - t) ^ 2 + y ^ 2)) := by
        intro t x
        rw [Real.norm_eq_abs, abs_of_pos (by positivity), hsym]
      simp only [this, integral_const_mul, (integral_lorentz hy _).2]
      exact hgauss.mul_const _
  simp only [faddeeva_re _ hy]
  refine ⟨hint.integral_prod_left.const_mul _, ?_⟩
  rw [integral_const_mul, integral_integral_swap hint]
  simp only [integral_const_mul, (hlor _).2, integral_mul_const]
  have := integral_gaussian 1
  simp only [neg_mul, one_mul, div_one] at this
  rw [this]
  field_simp

theorem integral_voigtPeak {c : ℝ × ℝ × ℝ × ℝ} (hl : 0 < c.2.2.1) (hg : 0 < c.2.2.2) :
    Integrable (voigtPeak faddeeva c) ∧ ∫ q, voigtPeak faddeeva c q = c.1 := by
  have hs := sigmaOf_pos hg
  have h2 : 0 < √2 := sqrt_pos.2 (by norm_num)
  have hπ := pi_pos
  set s := sigmaOf c.2.2.2 * √2 with hsdef
  have hs0 : 0 < s := by positivity
  have hy : 0 < c.2.2.1 / 2 / s := by positivity
  have hform : voigtPeak faddeeva c = fun q => c.1 / (sigmaOf c.2.2.2 * √(2 * π)) *
      (fun x : ℝ => (faddeeva (x + Complex.I * ((c.2.2.1 / 2 / s : ℝ) : ℂ))).re)
        ((q - c.2.1) / s) := by
    funext q
    unfold voigtPeak
    have : (((q - c.2.1 : ℝ) : ℂ) + Complex.I * ((c.2.2.1 / 2 : ℝ) : ℂ)) / ((s : ℝ) : ℂ) =
        (((q - c.2.1) / s : ℝ) : ℂ) + Complex.I * ((c.2.2.1 / 2 / s : ℝ) : ℂ) := by
      push_cast
      ring
    rw [← hsdef, this]
  obtain ⟨i1, i2⟩ := integral_faddeeva hy
  rw [hform]
  refine ⟨((i1.comp_div hs0.ne').comp_sub_right c.2.1).const_mul _, ?_⟩
  rw [integral_const_mul, integral_sub_right_eq_self (fun q => (fun x : ℝ =>
      (faddeeva (x + Complex.I * ((c.2.2.1 / 2 / s : ℝ) : ℂ))).re) (q / s)) c.2.1,
    Measure.integral_comp_div (fun x : ℝ =>
      (faddeeva (x + Complex.I * ((c.2.2.1 / 2 / s : ℝ) : ℂ))).re) s, i2, abs_of_pos hs0, smul_eq_mul]
  have : √(2 * π) = √2 * √π := sqrt_mul (by norm_num) _
  have hp : 0 < √π := sqrt_pos.2 hπ
  rw [this, hsdef]
  field_simp

/-- **C82** areas of Voigt profiles with positive widths. -/
theorem C82_voigt_area (b0 b1 : ℝ) {peaks : List (ℝ × ℝ × ℝ × ℝ)}
    (hw : ∀ c ∈ peaks, 0 < c.2.2.1 ∧ 0 < c.2.2.2) {t : List ℝ} (ht : t.length < 4) :
    ∃ f : ℝ → ℝ, (∀ q, voigt faddeeva (params4 b0 b1 peaks t) q = .ok (b0 + b1 * q + f q)) ∧
      Integrable f ∧ ∫ q, f q = (peaks.map Prod.fst).sum := by
  refine ⟨_, C36_voigt faddeeva b0 b1 peaks ht, ?_⟩
  have key := fun c hc => integral_voigtPeak (hw c hc).1 (hw c hc).2
  obtain ⟨h1, h2⟩ := integral_list_sum peaks (voigtPeak faddeeva) (fun c hc => (key c hc).1)
  refine ⟨h1, h2.trans ?_⟩
  congr 1
  exact List.map_congr_left (fun c hc => (key c hc).2)

/-! ## Ring -/

theorem radial {s r0 : ℝ} (hs : 0 < s) :
    ∫ r in Ioi (0 : ℝ), r * exp (-((r - r0) ^ 2 / (2 * s ^ 2))) =
      s ^ 2 * exp (-(r0 ^ 2 / (2 * s ^ 2))) +
        √(π / 2) * r0 * s * (1 + errf (r0 / (√2 * s))) := by
  have hπ := pi_pos
  have hb : 0 < 1 / (2 * s ^ 2) := by positivity
  have hexp : ∀ r, exp (-((r - r0) ^ 2 / (2 * s ^ 2))) = exp (-(1 / (2 * s ^ 2)) * (r - r0) ^ 2) := by
    intro r; congr 1; ring
  have i1 : Integrable fun r : ℝ => (r - r0) * exp (-(1 / (2 * s ^ 2)) * (r - r0) ^ 2) :=
    (integrable_mul_exp_neg_mul_sq hb).comp_sub_right r0
  have i2 : Integrable fun r : ℝ => exp (-(1 / (2 * s ^ 2)) * (r - r0) ^ 2) :=
    integrable_gauss_shift hb r0
  have hsplit : ∀ r, r * exp (-((r - r0) ^ 2 / (2 * s ^ 2))) =
      (r - r0) * exp (-(1 / (2 * s ^ 2)) * (r - r0) ^ 2) +
        r0 * exp (-(1 / (2 * s ^ 2)) * (r - r0) ^ 2) := by
    intro r; rw [hexp]; ring
  simp only [hsplit]
  rw [integral_add i1.integrableOn (i2.const_mul r0).integrableOn, integral_const_mul]
  have e1 : ∫ r in Ioi (0 : ℝ), (r - r0) * exp (-(1 / (2 * s ^ 2)) * (r - r0) ^ 2) =
      s ^ 2 * exp (-(r0 ^ 2 / (2 * s ^ 2))) := by
    have hd : ∀ r ∈ Ici (0 : ℝ), HasDerivAt
        (fun r => -s ^ 2 * exp (-(1 / (2 * s ^ 2)) * (r - r0) ^ 2))
        ((r - r0) * exp (-(1 / (2 * s ^ 2)) * (r - r0) ^ 2)) r := by
      intro r _
      have h1 : HasDerivAt (fun r => -(1 / (2 * s ^ 2)) * (r - r0) ^ 2)
          (-(1 / (2 * s ^ 2)) * (2 * (r - r0))) r := by
        have := (((hasDerivAt_id r).sub_const r0).pow 2).const_mul (-(1 / (2 * s ^ 2)))
        simpa using this
      have h2 := (h1.exp).const_mul (-s ^ 2)
      refine h2.congr_deriv ?_
      field_simp
    have hlim : Filter.Tendsto (fun r => -s ^ 2 * exp (-(1 / (2 * s ^ 2)) * (r - r0) ^ 2))
        Filter.atTop (nhds 0) := by
      have h1 : Filter.Tendsto (fun r : ℝ => (r - r0) ^ 2) Filter.atTop Filter.atTop :=
        (Filter.tendsto_pow_atTop (by norm_num)).comp (Filter.tendsto_atTop_add_const_right _ (-r0)
          Filter.tendsto_id)
      have h2 : Filter.Tendsto (fun r : ℝ => -(1 / (2 * s ^ 2)) * (r - r0) ^ 2) Filter.atTop
          Filter.atBot := by
        have := Filter.Tendsto.const_mul_atTop_of_neg (r := -(1 / (2 * s ^ 2))) (by linarith) h1
        exact this
      have h3 := (tendsto_exp_atBot.comp h2).const_mul (-s ^ 2)
      simpa using h3
    rw [integral_Ioi_of_hasDerivAt_of_tendsto' hd i1.integrableOn hlim]
    simp only [zero_sub, neg_mul, neg_neg, even_two, Even.neg_pow]
    congr 2; ring
  have e2 : ∫ r in Ioi (0 : ℝ), exp (-(1 / (2 * s ^ 2)) * (r - r0) ^ 2) =
      √(π / 2) * s * (1 + errf (r0 / (√2 * s))) := by
    have h2 : 0 < √2 := sqrt_pos.2 (by norm_num)
    have hp : 0 < √π := sqrt_pos.2 hπ
    have hpi2 : √(π / 2) = √π / √2 := sqrt_div hπ.le _
    have hsq2 : √2 * √2 = 2 := mul_self_sqrt (by norm_num)
    have i0 : Integrable fun u : ℝ => exp (-(1 / (2 * s ^ 2)) * u ^ 2) := integrable_exp_neg_mul_sq hb
    have hshift : ∫ r in Ioi (0 : ℝ), exp (-(1 / (2 * s ^ 2)) * (r - r0) ^ 2) =
        ∫ u in Ioi (-r0), exp (-(1 / (2 * s ^ 2)) * u ^ 2) := by
      have := (measurePreserving_sub_right (volume : Measure ℝ) r0).setIntegral_preimage_emb
        (measurableEmbedding_subRight r0) (fun u : ℝ => exp (-(1 / (2 * s ^ 2)) * u ^ 2))
        (Ioi (-r0))
      rw [← this]
      congr 2
      ext r
      simp
    have hcut := intervalIntegral.integral_Ioi_sub_Ioi' (a := -r0) (b := 0) (f := fun u : ℝ => exp (-(1 / (2 * s ^ 2)) * u ^ 2))
      i0.integrableOn i0.integrableOn
    have h0 : ∫ u in Ioi (0 : ℝ), exp (-(1 / (2 * s ^ 2)) * u ^ 2) = √(π / 2) * s := by
      rw [integral_gaussian_Ioi]
      have : √(π / (1 / (2 * s ^ 2))) = √2 * √π * s := by
        rw [show π / (1 / (2 * s ^ 2)) = 2 * π * s ^ 2 by field_simp, sqrt_mul (by positivity),
          sqrt_mul (by norm_num), sqrt_sq hs.le]
      rw [this, hpi2]
      field_simp
      linarith
    have h1 : ∫ u in (-r0)..(0 : ℝ), exp (-(1 / (2 * s ^ 2)) * u ^ 2) =
        √(π / 2) * s * errf (r0 / (√2 * s)) := by
      have hneg : ∫ u in (-r0)..(0 : ℝ), exp (-(1 / (2 * s ^ 2)) * u ^ 2) =
          ∫ u in (0 : ℝ)..r0, exp (-(1 / (2 * s ^ 2)) * u ^ 2) := by
        have := intervalIntegral.integral_comp_neg (a := 0) (b := r0)
          (fun u : ℝ => exp (-(1 / (2 * s ^ 2)) * u ^ 2))
        simp only [neg_zero, even_two, Even.neg_pow] at this
        exact this.symm
      have hscale := intervalIntegral.integral_comp_div (a := 0) (b := r0)
        (fun t : ℝ => exp (-t ^ 2)) (c := √2 * s) (by positivity)
      have hfun : ∀ u : ℝ, exp (-(u / (√2 * s)) ^ 2) = exp (-(1 / (2 * s ^ 2)) * u ^ 2) := by
        intro u
        congr 1
        rw [div_pow, mul_pow, sq (√2), hsq2]
        ring
      simp only [hfun, zero_div, smul_eq_mul] at hscale
      rw [hneg, hscale, errf, hpi2]
      field_simp
      rw [sq (√2), hsq2, mul_comm]
    rw [hshift]
    have : ∫ u in Ioi (-r0), exp (-(1 / (2 * s ^ 2)) * u ^ 2) =
        (∫ u in (-r0)..(0 : ℝ), exp (-(1 / (2 * s ^ 2)) * u ^ 2)) +
          ∫ u in Ioi (0 : ℝ), exp (-(1 / (2 * s ^ 2)) * u ^ 2) := by
      rw [← hcut]; ring
    rw [this, h1, h0]
    ring
  rw [e1, e2]
  ring

theorem integral_ring0 {s r0 : ℝ} (hs : 0 < s) :
    ∫ p : ℝ × ℝ, exp (-((√(p.1 ^ 2 + p.2 ^ 2) - r0) ^ 2 / (2 * s ^ 2))) =
      2 * π * (s ^ 2 * exp (-(r0 ^ 2 / (2 * s ^ 2))) +
        √(π / 2) * r0 * s * (1 + errf (r0 / (√2 * s)))) := by
  rw [← integral_comp_polarCoord_symm]
  have hrad : ∀ p ∈ polarCoord.target, p.1 • exp (-((√((polarCoord.symm p).1 ^ 2 +
      (polarCoord.symm p).2 ^ 2) - r0) ^ 2 / (2 * s ^ 2))) =
      p.1 * exp (-((p.1 - r0) ^ 2 / (2 * s ^ 2))) * 1 := by
    rintro ⟨r, θ⟩ hp
    rw [polarCoord_target] at hp
    have hr : 0 < r := hp.1
    have : (polarCoord.symm (r, θ)).1 ^ 2 + (polarCoord.symm (r, θ)).2 ^ 2 = r ^ 2 := by
      rw [polarCoord_symm_apply]
      nlinarith [sin_sq_add_cos_sq θ]
    rw [this, sqrt_sq hr.le, smul_eq_mul, mul_one]
  rw [setIntegral_congr_fun polarCoord.open_target.measurableSet hrad, polarCoord_target,
    Measure.volume_eq_prod,
    setIntegral_prod_mul (fun r : ℝ => r * exp (-((r - r0) ^ 2 / (2 * s ^ 2)))) (fun _ => (1 : ℝ)),
    radial hs]
  have : ∫ _ in Ioo (-π) π, (1 : ℝ) = 2 * π := by
    rw [setIntegral_const]
    simp [measureReal_def]
    rw [ENNReal.toReal_ofReal (by have := pi_pos; linarith)]
    ring
  rw [this]
  ring

theorem errf_nonneg {x : ℝ} (hx : 0 ≤ x) : 0 ≤ errf x := by
  unfold errf
  apply mul_nonneg (by positivity)
  apply intervalIntegral.integral_nonneg hx
  intro t _
  positivity

theorem integral_ringPeak {c : PeakRing} (hw : 0 < c.w) (he : 0 < c.ecc) (hr : 0 ≤ c.rad) :
    Integrable (ringPeak errf c) ∧ ∫ q, ringPeak errf c q = c.vol := by
  have hs := sigmaOf_pos hw
  have hπ := pi_pos
  set s := sigmaOf c.w with hsdef
  set K := s ^ 2 * exp (-(c.rad ^ 2 / (2 * s ^ 2))) +
      √(π / 2) * c.rad * s * (1 + errf (c.rad / (√2 * s))) with hK
  have hKpos : 0 < K := by
    have h1 := errf_nonneg (x := c.rad / (√2 * s)) (by positivity)
    have : 0 ≤ √(π / 2) * c.rad * s * (1 + errf (c.rad / (√2 * s))) := by positivity
    have : 0 < s ^ 2 * exp (-(c.rad ^ 2 / (2 * s ^ 2))) := by positivity
    rw [hK]; linarith
  set g : ℝ × ℝ → ℝ := fun p => exp (-((√(p.1 ^ 2 + p.2 ^ 2) - c.rad) ^ 2 / (2 * s ^ 2))) with hg
  have hgI : ∫ p, g p = 2 * π * K := integral_ring0 hs
  have hgint : Integrable g := by
    by_contra h
    rw [integral_undef h] at hgI
    have : 0 < 2 * π * K := by positivity
    linarith
  have hform : ringPeak errf c = fun q => c.vol / (2 * π / c.ecc * K) *
      g (q.1 - c.x0, c.ecc * (q.2 - c.y0)) := rfl
  -- iterated integral, scaling the second coordinate
  have hsc : Integrable (fun q : ℝ × ℝ => g (q.1 - c.x0, c.ecc * (q.2 - c.y0))) ∧
      ∫ q : ℝ × ℝ, g (q.1 - c.x0, c.ecc * (q.2 - c.y0)) = 2 * π * K / c.ecc := by
    have hval : ∀ f : ℝ × ℝ → ℝ, Integrable f → Integrable (fun q : ℝ × ℝ =>
        f (q.1 - c.x0, c.ecc * (q.2 - c.y0))) →
        ∫ q : ℝ × ℝ, f (q.1 - c.x0, c.ecc * (q.2 - c.y0)) = (∫ q, f q) / c.ecc := by
      intro f hf hf'
      rw [Measure.volume_eq_prod] at hf hf' ⊢
      rw [integral_prod _ hf', integral_prod _ hf]
      have : ∀ x : ℝ, ∫ y : ℝ, f (x - c.x0, c.ecc * (y - c.y0)) =
          c.ecc⁻¹ * ∫ y : ℝ, f (x - c.x0, y) := by
        intro x
        rw [integral_sub_right_eq_self (fun y => f (x - c.x0, c.ecc * y)) c.y0,
          Measure.integral_comp_mul_left (fun y => f (x - c.x0, y)) c.ecc, abs_of_pos (by positivity),
          smul_eq_mul]
      simp only [this]
      rw [integral_const_mul, integral_sub_right_eq_self (fun x => ∫ y : ℝ, f (x, y)) c.x0]
      ring
    have hint' : Integrable (fun q : ℝ × ℝ => g (q.1 - c.x0, c.ecc * (q.2 - c.y0))) := by
      have hcont : Continuous g := by rw [hg]; fun_prop
      rw [Measure.volume_eq_prod] at hgint ⊢
      have hc' : Continuous (fun q : ℝ × ℝ => g (q.1 - c.x0, c.ecc * (q.2 - c.y0))) := by fun_prop
      rw [integrable_prod_iff hc'.aestronglyMeasurable]
      rw [integrable_prod_iff hcont.aestronglyMeasurable] at hgint
      have hslice : ∀ x : ℝ, Integrable fun y => g (x, y) := by
        -- every slice is continuous and bounded by a Gaussian
        intro x
        have hb : 0 < 1 / (4 * s ^ 2) := by positivity
        have hdom : Integrable fun y : ℝ => exp (c.rad ^ 2 / (2 * s ^ 2)) *
            exp (-(1 / (4 * s ^ 2)) * y ^ 2) := (integrable_exp_neg_mul_sq hb).const_mul _
        refine hdom.mono' (by fun_prop) (Filter.Eventually.of_forall fun y => ?_)
        rw [hg, Real.norm_eq_abs, abs_exp, ← exp_add, exp_le_exp]
        set R := √(x ^ 2 + y ^ 2) with hR
        have hR2 : R ^ 2 = x ^ 2 + y ^ 2 := sq_sqrt (by positivity)
        have h1 : y ^ 2 ≤ R ^ 2 := by rw [hR2]; nlinarith [sq_nonneg x]
        have h2 : R ^ 2 ≤ 2 * (R - c.rad) ^ 2 + 2 * c.rad ^ 2 := by
          nlinarith [sq_nonneg (R - 2 * c.rad)]
        have h3 : -((R - c.rad) ^ 2 / (2 * s ^ 2)) =
            (-(2 * (R - c.rad) ^ 2)) / (4 * s ^ 2) := by field_simp; ring
        have h4 : c.rad ^ 2 / (2 * s ^ 2) + -(1 / (4 * s ^ 2)) * y ^ 2 =
            (2 * c.rad ^ 2 - y ^ 2) / (4 * s ^ 2) := by field_simp; ring
        rw [h3, h4]
        apply div_le_div_of_nonneg_right _ (by positivity)
        linarith
      constructor
      · refine Filter.Eventually.of_forall fun x => ?_
        have := ((hslice (x - c.x0)).comp_mul_left' he.ne').comp_sub_right c.y0
        exact this
      · have hn : ∀ x : ℝ, ∫ y : ℝ, ‖g (x - c.x0, c.ecc * (y - c.y0))‖ =
            c.ecc⁻¹ * ∫ y : ℝ, ‖g (x - c.x0, y)‖ := by
          intro x
          rw [integral_sub_right_eq_self (fun y => ‖g (x - c.x0, c.ecc * y)‖) c.y0,
            Measure.integral_comp_mul_left (fun y => ‖g (x - c.x0, y)‖) c.ecc,
            abs_of_pos (by positivity), smul_eq_mul]
        simp only [hn]
        exact (hgint.2.comp_sub_right c.x0).const_mul _
    exact ⟨hint', by rw [hval g hgint hint', hgI]⟩
  rw [hform]
  refine ⟨hsc.1.const_mul _, ?_⟩
  rw [integral_const_mul, hsc.2]
  field_simp

/-- **C82** volumes of ring profiles with positive width and eccentricity and
non-negative radius. -/
theorem C82_ring_volume (b0 b1 : ℝ) {peaks : List PeakRing}
    (hw : ∀ c ∈ peaks, 0 < c.w ∧ 0 < c.ecc ∧ 0 ≤ c.rad) {t : List ℝ} (ht : t.length < 6) :
    ∃ f : ℝ × ℝ → ℝ, (∀ q, gaussianRing errf (params6 b0 b1 peaks t) q =
        .ok (b0 + b1 * (q.1 + q.2) + f q)) ∧
      Integrable f ∧ ∫ q, f q = (peaks.map PeakRing.vol).sum := by
  refine ⟨_, C36_gaussian_ring errf b0 b1 (fun c hc => (hw c hc).1) ht, ?_⟩
  have key := fun c hc => integral_ringPeak (hw c hc).1 (hw c hc).2.1 (hw c hc).2.2
  obtain ⟨h1, h2⟩ := integral_list_sum peaks (ringPeak errf) (fun c hc => (key c hc).1)
  refine ⟨h1, h2.trans ?_⟩
  congr 1
  exact List.map_congr_left (fun c hc => (key c hc).2)

example : 0 < (⟨1, 0, 0, 2, 1, 0.3⟩ : PeakRing).w ∧ 0 < (⟨1, 0, 0, 2, 1, 0.3⟩ : PeakRing).ecc ∧
    0 ≤ (⟨1, 0, 0, 2, 1, 0.3⟩ : PeakRing).rad := by norm_num

end Verif.Functions
