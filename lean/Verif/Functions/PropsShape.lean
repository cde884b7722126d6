import Verif.Functions.PropsArea

/-!
# Properties C195, C196: shapes of the Voigt, two-dimensional and ring profiles
-/

namespace Verif.Functions

open Real MeasureTheory Set

/-! ## C195: the Voigt profile -/

/-- Convolution of a Gaussian with a Lorentzian, up to constant factors. -/
noncomputable def voigtCore (y x : ℝ) : ℝ := ∫ t : ℝ, exp (-t ^ 2) * (y / ((t - x) ^ 2 + y ^ 2))

theorem voigtCore_integrable {y : ℝ} (hy : 0 < y) (x : ℝ) :
    Integrable fun t : ℝ => exp (-t ^ 2) * (y / ((t - x) ^ 2 + y ^ 2)) := by
  have hg : Integrable fun t : ℝ => y⁻¹ * exp (-t ^ 2) := by
    have := (integrable_exp_neg_mul_sq (b := 1) one_pos).const_mul y⁻¹
    simpa using this
  have hcont : Continuous fun t : ℝ => exp (-t ^ 2) * (y / ((t - x) ^ 2 + y ^ 2)) := by
    apply Continuous.mul
    · fun_prop
    · apply Continuous.div
      · fun_prop
      · fun_prop
      · intro q; positivity
  refine hg.mono' hcont.aestronglyMeasurable (Filter.Eventually.of_forall fun t => ?_)
  rw [Real.norm_eq_abs, abs_of_pos (by positivity), mul_comm]
  apply mul_le_mul_of_nonneg_right _ (exp_pos _).le
  rw [div_le_iff₀ (by positivity)]
  have : y⁻¹ * y ^ 2 = y := by field_simp
  nlinarith [mul_nonneg (inv_pos.2 hy).le (sq_nonneg (t - x))]

theorem voigtCore_even (y x : ℝ) : voigtCore y (-x) = voigtCore y x := by
  unfold voigtCore
  rw [← integral_neg_eq_self]
  congr 1
  funext t
  congr 2
  · ring
  · congr 1; ring

/-- Farther from the centre the convolution is smaller. -/
theorem voigtCore_anti {y x x' : ℝ} (hy : 0 < y) (h0 : 0 ≤ x) (h : x < x') :
    voigtCore y x' < voigtCore y x := by
  have i1 := voigtCore_integrable hy x
  have i2 := voigtCore_integrable hy x'
  -- reflection at the middle of the two positions
  have refl : ∀ f : ℝ → ℝ, ∫ t, f (x + x' - t) = ∫ t, f t := fun f => integral_sub_left_eq_self f _ _
  have hd : Integrable fun t : ℝ => exp (-t ^ 2) * (y / ((t - x) ^ 2 + y ^ 2)) -
      exp (-t ^ 2) * (y / ((t - x') ^ 2 + y ^ 2)) := i1.sub i2
  have e1 : voigtCore y x - voigtCore y x' = ∫ t : ℝ, (exp (-t ^ 2) * (y / ((t - x) ^ 2 + y ^ 2)) -
      exp (-t ^ 2) * (y / ((t - x') ^ 2 + y ^ 2))) := (integral_sub i1 i2).symm
  have hd' := hd.comp_sub_left (x + x')
  have e2 : voigtCore y x - voigtCore y x' = ∫ t : ℝ,
      (exp (-(x + x' - t) ^ 2) * (y / ((x + x' - t - x) ^ 2 + y ^ 2)) -
      exp (-(x + x' - t) ^ 2) * (y / ((x + x' - t - x') ^ 2 + y ^ 2))) := by
    rw [e1, ← refl]
  have e3 : 2 * (voigtCore y x - voigtCore y x') = ∫ t : ℝ, (exp (-t ^ 2) - exp (-(x + x' - t) ^ 2)) *
      (y / ((t - x) ^ 2 + y ^ 2) - y / ((t - x') ^ 2 + y ^ 2)) := by
    rw [two_mul]
    nth_rw 1 [e1]
    rw [e2, ← integral_add hd hd']
    congr 1
    funext t
    rw [show (x + x' - t - x) ^ 2 = (t - x') ^ 2 by ring,
      show (x + x' - t - x') ^ 2 = (t - x) ^ 2 by ring]
    ring
  have hpos : ∀ t : ℝ, t ≠ (x + x') / 2 → 0 < (exp (-t ^ 2) - exp (-(x + x' - t) ^ 2)) *
      (y / ((t - x) ^ 2 + y ^ 2) - y / ((t - x') ^ 2 + y ^ 2)) := by
    intro t ht
    rcases lt_or_gt_of_ne ht with h1 | h1
    · apply mul_pos
      · rw [sub_pos, exp_lt_exp]; nlinarith
      · rw [sub_pos]
        apply div_lt_div_of_pos_left hy (by positivity)
        nlinarith
    · apply mul_pos_of_neg_of_neg
      · rw [sub_neg, exp_lt_exp]; nlinarith
      · rw [sub_neg]
        apply div_lt_div_of_pos_left hy (by positivity)
        nlinarith
  have hint : Integrable fun t : ℝ => (exp (-t ^ 2) - exp (-(x + x' - t) ^ 2)) *
      (y / ((t - x) ^ 2 + y ^ 2) - y / ((t - x') ^ 2 + y ^ 2)) := by
    refine (hd.add hd').congr (Filter.Eventually.of_forall fun t => ?_)
    simp only [Pi.add_apply]
    rw [show (x + x' - t - x) ^ 2 = (t - x') ^ 2 by ring,
      show (x + x' - t - x') ^ 2 = (t - x) ^ 2 by ring]
    ring
  have : 0 < ∫ t : ℝ, (exp (-t ^ 2) - exp (-(x + x' - t) ^ 2)) *
      (y / ((t - x) ^ 2 + y ^ 2) - y / ((t - x') ^ 2 + y ^ 2)) := by
    rw [integral_pos_iff_support_of_nonneg_ae (Filter.Eventually.of_forall fun t => ?_) hint]
    · refine lt_of_lt_of_le ?_ (measure_mono (s := Ioi ((x + x') / 2)) fun t ht =>
        (hpos t (ne_of_gt ht)).ne')
      simp
    · by_cases ht : t = (x + x') / 2
      · subst ht
        simp only [Pi.zero_apply]
        rw [show x + x' - (x + x') / 2 = (x + x') / 2 by ring]
        simp
      · exact (hpos t ht).le
  linarith

theorem voigtPeak_core {c : ℝ × ℝ × ℝ × ℝ} (hl : 0 < c.2.2.1) (hg : 0 < c.2.2.2) (q : ℝ) :
    voigtPeak faddeeva c q = c.1 / (sigmaOf c.2.2.2 * √(2 * π)) *
      (1 / π * voigtCore (c.2.2.1 / 2 / (sigmaOf c.2.2.2 * √2)) ((q - c.2.1) / (sigmaOf c.2.2.2 * √2))) := by
  have hs := sigmaOf_pos hg
  have h2 : 0 < √2 := sqrt_pos.2 (by norm_num)
  set s := sigmaOf c.2.2.2 * √2 with hsdef
  have hs0 : 0 < s := by positivity
  have hy : 0 < c.2.2.1 / 2 / s := by positivity
  unfold voigtPeak
  have : (((q - c.2.1 : ℝ) : ℂ) + Complex.I * ((c.2.2.1 / 2 : ℝ) : ℂ)) / ((s : ℝ) : ℂ) =
      (((q - c.2.1) / s : ℝ) : ℂ) + Complex.I * ((c.2.2.1 / 2 / s : ℝ) : ℂ) := by
    push_cast
    ring
  rw [← hsdef, this, faddeeva_re _ hy]
  rfl

theorem voigt_single (a x0 wl wg q : ℝ) :
    voigt faddeeva [0, 0, a, x0, wl, wg] q = .ok (voigtPeak faddeeva (a, x0, wl, wg) q) := by
  have := C36_voigt faddeeva 0 0 [(a, x0, wl, wg)] (t := []) (by simp) q
  simpa [params4] using this

/-- **C195** the Voigt profile is the convolution of the Gaussian and the Lorentzian
of the same module. -/
theorem C195_convolution (a x0 : ℝ) {wl wg : ℝ} (hl : 0 < wl) (hg : 0 < wg) :
    ∃ v g l : ℝ → ℝ, (∀ q, voigt faddeeva [0, 0, a, x0, wl, wg] q = .ok (v q)) ∧
      (∀ q, gaussian [0, 0, 1, 0, wg] q = .ok (g q)) ∧
      (∀ q, lorentzian [0, 0, a, x0, wl] q = .ok (l q)) ∧
      ∀ q, Integrable (fun t => g t * l (q - t)) ∧ v q = ∫ t, g t * l (q - t) := by
  have hgs : ∀ q, gaussian [0, 0, 1, 0, wg] q = .ok (gaussPeak (1, 0, wg) q) := by
    intro q
    have := C36_gaussian 0 0 (peaks := [(1, 0, wg)]) (by simpa using hg) (t := []) (by simp) q
    simpa [params] using this
  have hls : ∀ q, lorentzian [0, 0, a, x0, wl] q = .ok (lorentzPeak (a, x0, wl) q) := by
    intro q
    have := C36_lorentzian 0 0 [(a, x0, wl)] (t := []) (by simp) q
    simpa [params] using this
  refine ⟨_, _, _, voigt_single a x0 wl wg, hgs, hls, fun q => ?_⟩
  have hs := sigmaOf_pos hg
  have h2 : 0 < √2 := sqrt_pos.2 (by norm_num)
  have hsq2 : √2 ^ 2 = 2 := sq_sqrt (by norm_num)
  have hπ := pi_pos
  have hp := sqrt_pos.2 (show 0 < 2 * π by positivity)
  rw [voigtPeak_core hl hg]
  simp only
  set s := sigmaOf wg * √2 with hsdef
  have hs0 : 0 < s := by positivity
  have hs2 : s ^ 2 = 2 * sigmaOf wg ^ 2 := by rw [hsdef, mul_pow, hsq2]; ring
  have hy : 0 < wl / 2 / s := by positivity
  have hform : ∀ t, gaussPeak (1, 0, wg) t * lorentzPeak (a, x0, wl) (q - t) =
      a / (sigmaOf wg * √(2 * π) * π * s) *
        (fun u => exp (-u ^ 2) * (wl / 2 / s / ((u - (q - x0) / s) ^ 2 + (wl / 2 / s) ^ 2))) (t / s) := by
    intro t
    rw [← gauss_form hg 1 0 t]
    unfold lorentzPeak
    simp only [sub_zero]
    have e1 : -t ^ 2 / (2 * sigmaOf wg ^ 2) = -(t / s) ^ 2 := by rw [div_pow, hs2]; ring
    have e2 : wl / 2 / ((q - t - x0) ^ 2 + (wl / 2) ^ 2) =
        1 / s * (wl / 2 / s / ((t / s - (q - x0) / s) ^ 2 + (wl / 2 / s) ^ 2)) := by
      have : (t / s - (q - x0) / s) ^ 2 + (wl / 2 / s) ^ 2 =
          ((q - t - x0) ^ 2 + (wl / 2) ^ 2) / s ^ 2 := by field_simp; ring
      rw [this]
      have hden : (q - t - x0) ^ 2 + (wl / 2) ^ 2 ≠ 0 := by positivity
      field_simp
    rw [e1, e2]
    field_simp
  have hi := voigtCore_integrable hy ((q - x0) / s)
  simp only [hform]
  refine ⟨(hi.comp_div hs0.ne').const_mul _, ?_⟩
  rw [integral_const_mul, Measure.integral_comp_div (fun u => exp (-u ^ 2) *
    (wl / 2 / s / ((u - (q - x0) / s) ^ 2 + (wl / 2 / s) ^ 2))) s, abs_of_pos hs0, smul_eq_mul]
  change _ = a / (sigmaOf wg * √(2 * π) * π * s) * (s * voigtCore (wl / 2 / s) ((q - x0) / s))
  generalize voigtCore (wl / 2 / s) ((q - x0) / s) = V
  field_simp

/-- **C195** a Voigt profile is symmetric about its position and decreases strictly on
both sides of it: the position is its only maximum. -/
theorem C195_shape {a x0 wl wg : ℝ} (ha : 0 < a) (hl : 0 < wl) (hg : 0 < wg) :
    ∃ v : ℝ → ℝ, (∀ q, voigt faddeeva [0, 0, a, x0, wl, wg] q = .ok (v q)) ∧
      (∀ d, v (x0 + d) = v (x0 - d)) ∧
      (∀ q q', |q - x0| < |q' - x0| → v q' < v q) ∧ ∀ q, q ≠ x0 → v q < v x0 := by
  have hs := sigmaOf_pos hg
  have h2 : 0 < √2 := sqrt_pos.2 (by norm_num)
  have hπ := pi_pos
  have hp := sqrt_pos.2 (show 0 < 2 * π by positivity)
  have hs0 : 0 < sigmaOf wg * √2 := by positivity
  have hy : 0 < wl / 2 / (sigmaOf wg * √2) := by positivity
  have habs : ∀ q, voigtPeak faddeeva (a, x0, wl, wg) q = a / (sigmaOf wg * √(2 * π)) *
      (1 / π * voigtCore (wl / 2 / (sigmaOf wg * √2)) (|q - x0| / (sigmaOf wg * √2))) := by
    intro q
    rw [voigtPeak_core hl hg]
    simp only
    rcases abs_choice (q - x0) with h | h
    · rw [h]
    · rw [h, neg_div, voigtCore_even]
  have key : ∀ q q', |q - x0| < |q' - x0| → voigtPeak faddeeva (a, x0, wl, wg) q' <
      voigtPeak faddeeva (a, x0, wl, wg) q := by
    intro q q' h
    rw [habs, habs]
    apply mul_lt_mul_of_pos_left _ (by positivity)
    apply mul_lt_mul_of_pos_left _ (by positivity)
    exact voigtCore_anti hy (by positivity) (div_lt_div_of_pos_right h hs0)
  refine ⟨_, voigt_single a x0 wl wg, ?_, key, ?_⟩
  · intro d
    rw [habs, habs]
    simp
  · intro q hq
    apply key
    simpa using sub_ne_zero.2 hq

example : (0 : ℝ) < 1 ∧ (0 : ℝ) < 0.2 ∧ (0 : ℝ) < 0.3 ∧ |(0.1 : ℝ) - 0| < |(-0.2 : ℝ) - 0| := by
  norm_num

/-! ## C196: two-dimensional profiles -/

/-- **C196** a single two-dimensional Gaussian has its only maximum at its position;
half of it is taken exactly on the ellipse whose axes are the two widths. -/
theorem C196_gaussian2d {c : Peak2} (hv : 0 < c.vol) (hx : 0 < c.wx) (hy : 0 < c.wy) :
    ∃ f : ℝ × ℝ → ℝ, (∀ q, gaussian2d [0, 0, c.vol, c.x0, c.y0, c.wx, c.wy] q = .ok (f q)) ∧
      (∀ q, q ≠ (c.x0, c.y0) → f q < f (c.x0, c.y0)) ∧
      ∀ q, f q = f (c.x0, c.y0) / 2 ↔
        ((q.1 - c.x0) / (c.wx / 2)) ^ 2 + ((q.2 - c.y0) / (c.wy / 2)) ^ 2 = 1 := by
  have hl := log2_pos
  have hπ := pi_pos
  obtain ⟨A, hA, hf⟩ : ∃ A, 0 < A ∧ ∀ q, gauss2Peak c q = A * exp (-log 2 *
      (((q.1 - c.x0) / (c.wx / 2)) ^ 2 + ((q.2 - c.y0) / (c.wy / 2)) ^ 2)) := by
    refine ⟨c.vol * (√(4 * log 2 / (π * c.wx ^ 2)) * √(4 * log 2 / (π * c.wy ^ 2))), by positivity, ?_⟩
    intro q
    unfold gauss2Peak gaussPeak
    simp only
    rw [show -log 2 * (((q.1 - c.x0) / (c.wx / 2)) ^ 2 + ((q.2 - c.y0) / (c.wy / 2)) ^ 2) =
      -(4 * log 2 / c.wx ^ 2) * (q.1 - c.x0) ^ 2 + -(4 * log 2 / c.wy ^ 2) * (q.2 - c.y0) ^ 2 by
        field_simp; ring, exp_add]
    ring
  have hm : gauss2Peak c (c.x0, c.y0) = A := by rw [hf]; simp
  refine ⟨gauss2Peak c, ?_, ?_, ?_⟩
  · intro q
    have := C36_gaussian2d 0 0 (peaks := [c]) (by simpa using ⟨hx, hy⟩) (t := []) (by simp) q
    simpa [params5] using this
  · intro q hq
    rw [hm, hf]
    have hne : q.1 - c.x0 ≠ 0 ∨ q.2 - c.y0 ≠ 0 := by
      by_contra h
      push Not at h
      exact hq (Prod.ext (sub_eq_zero.1 h.1) (sub_eq_zero.1 h.2))
    have hpos : 0 < ((q.1 - c.x0) / (c.wx / 2)) ^ 2 + ((q.2 - c.y0) / (c.wy / 2)) ^ 2 := by
      rcases hne with h | h <;> positivity
    have : exp (-log 2 * (((q.1 - c.x0) / (c.wx / 2)) ^ 2 + ((q.2 - c.y0) / (c.wy / 2)) ^ 2)) < 1 := by
      rw [exp_lt_one_iff]; nlinarith
    nlinarith
  · intro q
    rw [hm, hf, div_eq_mul_inv A (2 : ℝ), mul_right_inj' hA.ne',
      show (2 : ℝ)⁻¹ = exp (-log 2) by rw [exp_neg, exp_log (by norm_num)], exp_eq_exp]
    constructor
    · intro h; nlinarith
    · intro h; rw [h]; ring

/-- **C196** a single resolution profile with a positive definite matrix has its only
maximum at its position; half of it is taken exactly on the ellipse on which the
quadratic form of the matrix is `2 ln 2`. -/
theorem C196_resolution {c : PeakR} (hv : 0 < c.vol) (hr : c.r0 ≠ 0) (hx : 0 < c.xx)
    (hD : 0 < c.xx * c.yy - c.xy ^ 2) :
    ∃ f : ℝ × ℝ → ℝ,
      (∀ q, resolution [0, 0, c.vol, c.x0, c.y0, c.r0, c.xx, c.yy, c.xy] q = .ok (f q)) ∧
      (∀ q, q ≠ (c.x0, c.y0) → f q < f (c.x0, c.y0)) ∧
      ∀ q, f q = f (c.x0, c.y0) / 2 ↔
        c.xx * (q.1 - c.x0) ^ 2 + 2 * c.xy * (q.1 - c.x0) * (q.2 - c.y0) +
          c.yy * (q.2 - c.y0) ^ 2 = 2 * log 2 := by
  have hl := log2_pos
  have hπ := pi_pos
  set A := c.vol * (√(c.xx * c.yy - c.xy ^ 2) / (2 * π)) with hAdef
  have hA : 0 < A := by have := sqrt_pos.2 hD; positivity
  have hf : ∀ q, resPeak c q = A * exp (-(c.xx * (q.1 - c.x0) ^ 2 +
      2 * c.xy * (q.1 - c.x0) * (q.2 - c.y0) + c.yy * (q.2 - c.y0) ^ 2) / 2) := fun q => rfl
  have hm : resPeak c (c.x0, c.y0) = A := by rw [hf]; simp
  refine ⟨resPeak c, ?_, ?_, ?_⟩
  · intro q
    have := C36_resolution 0 0 (peaks := [c]) (by simpa using ⟨hx, hr⟩) (t := []) (by simp) q
    simpa [params7] using this
  · intro q hq
    rw [hm, hf]
    have hpos : 0 < c.xx * (q.1 - c.x0) ^ 2 + 2 * c.xy * (q.1 - c.x0) * (q.2 - c.y0) +
        c.yy * (q.2 - c.y0) ^ 2 := by
      have e : c.xx * (c.xx * (q.1 - c.x0) ^ 2 + 2 * c.xy * (q.1 - c.x0) * (q.2 - c.y0) +
          c.yy * (q.2 - c.y0) ^ 2) = (c.xx * (q.1 - c.x0) + c.xy * (q.2 - c.y0)) ^ 2 +
            (c.xx * c.yy - c.xy ^ 2) * (q.2 - c.y0) ^ 2 := by ring
      have : 0 < (c.xx * (q.1 - c.x0) + c.xy * (q.2 - c.y0)) ^ 2 +
            (c.xx * c.yy - c.xy ^ 2) * (q.2 - c.y0) ^ 2 := by
        by_cases h2 : q.2 - c.y0 = 0
        · have h1 : q.1 - c.x0 ≠ 0 := fun h1 =>
            hq (Prod.ext (sub_eq_zero.1 h1) (sub_eq_zero.1 h2))
          rw [h2]
          simp only [mul_zero, add_zero, ne_eq, OfNat.ofNat_ne_zero, not_false_eq_true, zero_pow]
          positivity
        · positivity
      rw [← e] at this
      exact pos_of_mul_pos_right this hx.le
    have : exp (-(c.xx * (q.1 - c.x0) ^ 2 + 2 * c.xy * (q.1 - c.x0) * (q.2 - c.y0) +
        c.yy * (q.2 - c.y0) ^ 2) / 2) < 1 := by
      rw [exp_lt_one_iff]; linarith
    nlinarith
  · intro q
    rw [hm, hf, div_eq_mul_inv A (2 : ℝ), mul_right_inj' hA.ne',
      show (2 : ℝ)⁻¹ = exp (-log 2) by rw [exp_neg, exp_log (by norm_num)], exp_eq_exp]
    constructor <;> intro h <;> linarith

/-- Distance from the centre, measured so that the ellipse of the ring is the circle
of its radius. -/
noncomputable def ringDist (c : PeakRing) (q : ℝ × ℝ) : ℝ :=
  √((q.1 - c.x0) ^ 2 + (c.ecc * (q.2 - c.y0)) ^ 2)

/-- **C196** a single ring takes its maximum exactly on the ellipse with the semi-axes
`rad` along x and `rad / ecc` along y, and half of it exactly where the distance from
the centre (measured in units of the ellipse) is half a width away from the radius. -/
theorem C196_ring {c : PeakRing} (hv : 0 < c.vol) (hw : 0 < c.w) (he : 0 < c.ecc) (hr : 0 < c.rad) :
    ∃ (f : ℝ × ℝ → ℝ) (top : ℝ),
      (∀ q, gaussianRing errf [0, 0, c.vol, c.x0, c.y0, c.rad, c.ecc, c.w] q = .ok (f q)) ∧
      0 < top ∧ (∀ q, f q ≤ top) ∧
      (∀ q, f q = top ↔ ((q.1 - c.x0) / c.rad) ^ 2 + ((q.2 - c.y0) / (c.rad / c.ecc)) ^ 2 = 1) ∧
      ∀ q, f q = top / 2 ↔ |ringDist c q - c.rad| = c.w / 2 := by
  have hl := log2_pos
  have hπ := pi_pos
  have hs := sigmaOf_pos hw
  have hsq := sigmaOf_sq c.w
  have her := errf_nonneg (x := c.rad / (√2 * sigmaOf c.w)) (by positivity)
  set A := c.vol / (2 * π / c.ecc * (sigmaOf c.w ^ 2 * exp (-(c.rad ^ 2 / (2 * sigmaOf c.w ^ 2))) +
      √(π / 2) * c.rad * sigmaOf c.w * (1 + errf (c.rad / (√2 * sigmaOf c.w))))) with hAdef
  have hA : 0 < A := by
    have : 0 < √(π / 2) := sqrt_pos.2 (by positivity)
    positivity
  have hf : ∀ q, ringPeak errf c q = A * exp (-(log 2 * (2 * (ringDist c q - c.rad) / c.w) ^ 2)) := by
    intro q
    show A * exp (-((ringDist c q - c.rad) ^ 2 / (2 * sigmaOf c.w ^ 2))) = _
    rw [hsq]
    congr 3
    field_simp
    ring
  refine ⟨ringPeak errf c, A, ?_, hA, ?_, ?_, ?_⟩
  · intro q
    have := C36_gaussian_ring errf 0 0 (peaks := [c]) (by simpa using hw) (t := []) (by simp) q
    simpa [params6] using this
  · intro q
    rw [hf]
    have : exp (-(log 2 * (2 * (ringDist c q - c.rad) / c.w) ^ 2)) ≤ 1 := by
      rw [exp_le_one_iff, neg_nonpos]; positivity
    nlinarith
  · intro q
    have h1 : ringPeak errf c q = A ↔ ringDist c q = c.rad := by
      rw [hf]
      constructor
      · intro h
        have h2 : exp (-(log 2 * (2 * (ringDist c q - c.rad) / c.w) ^ 2)) = 1 := by
          have := mul_left_cancel₀ hA.ne' (h.trans (mul_one A).symm)
          exact this
        rw [exp_eq_one_iff, neg_eq_zero, mul_eq_zero, or_iff_right hl.ne'] at h2
        have h3 := pow_eq_zero_iff (two_ne_zero) |>.1 h2
        have h4 : ringDist c q - c.rad = 0 := by
          rcases div_eq_zero_iff.1 h3 with h | h
          · linarith
          · exact absurd h hw.ne'
        linarith
      · intro h
        rw [h]; simp
    rw [h1]
    unfold ringDist
    rw [sqrt_eq_iff_mul_self_eq (by positivity) hr.le]
    have e : ((q.1 - c.x0) / c.rad) ^ 2 + ((q.2 - c.y0) / (c.rad / c.ecc)) ^ 2 =
        ((q.1 - c.x0) ^ 2 + (c.ecc * (q.2 - c.y0)) ^ 2) / c.rad ^ 2 := by
      field_simp
    rw [e, div_eq_one_iff_eq (by positivity), ← sq]
  · intro q
    rw [hf, div_eq_mul_inv A (2 : ℝ), mul_right_inj' hA.ne',
      show (2 : ℝ)⁻¹ = exp (-log 2) by rw [exp_neg, exp_log (by norm_num)], exp_eq_exp]
    have e : -(log 2 * (2 * (ringDist c q - c.rad) / c.w) ^ 2) = -log 2 ↔
        (2 * (ringDist c q - c.rad) / c.w) ^ 2 = 1 := by
      constructor
      · intro h; nlinarith
      · intro h; rw [h]; ring
    rw [e, show (1 : ℝ) = 1 ^ 2 by norm_num, sq_eq_sq_iff_eq_or_eq_neg, div_eq_iff hw.ne', div_eq_iff hw.ne', abs_eq (by positivity)]
    constructor
    · rintro (h | h)
      · left; linarith
      · right; linarith
    · rintro (h | h)
      · left; linarith
      · right; linarith

example : 0 < (⟨1, 0, 0, 0.3, 0.2⟩ : Peak2).vol ∧ 0 < (⟨1, 0, 0, 0.3, 0.2⟩ : Peak2).wx ∧
    0 < (⟨1, 0, 0, 0.3, 0.2⟩ : Peak2).wy := by norm_num

example : 0 < (⟨1, 0, 0, 2, 3, 2, 1⟩ : PeakR).xx ∧
    0 < (⟨1, 0, 0, 2, 3, 2, 1⟩ : PeakR).xx * (⟨1, 0, 0, 2, 3, 2, 1⟩ : PeakR).yy -
      (⟨1, 0, 0, 2, 3, 2, 1⟩ : PeakR).xy ^ 2 := by norm_num

example : 0 < (⟨1, 0, 0, 2, 1, 0.3⟩ : PeakRing).rad ∧ 0 < (⟨1, 0, 0, 2, 1, 0.3⟩ : PeakRing).w := by
  norm_num

end Verif.Functions
