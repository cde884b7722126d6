import Verif.Functions.Lemmas

/-!
# Properties C33–C37, C82: peak profiles
-/

namespace Verif.Functions

open Real MeasureTheory

/-! ## Specification -/

/-- One Gaussian of area `a`, position `x0` and full width at half maximum `w`. -/
noncomputable def gaussPeak (c : ℝ × ℝ × ℝ) (q : ℝ) : ℝ :=
  c.1 * √(4 * log 2 / (π * c.2.2 ^ 2)) * exp (-(4 * log 2 / c.2.2 ^ 2) * (q - c.2.1) ^ 2)

/-- One Lorentzian of area `a`, position `x0` and full width at half maximum `w`. -/
noncomputable def lorentzPeak (c : ℝ × ℝ × ℝ) (q : ℝ) : ℝ :=
  c.1 / π * ((c.2.2 / 2) / ((q - c.2.1) ^ 2 + (c.2.2 / 2) ^ 2))

/-- Parameter vector: background, peaks, and whatever is left over. -/
def params (b0 b1 : ℝ) (peaks : List (ℝ × ℝ × ℝ)) (t : List ℝ) : List ℝ :=
  b0 :: b1 :: ((peaks.map fun c => [c.1, c.2.1, c.2.2]).flatten ++ t)

theorem log2_pos : 0 < log 2 := log_pos (by norm_num)

theorem sigmaOf_sq (w : ℝ) : sigmaOf w ^ 2 = w ^ 2 / (8 * log 2) := by
  have h := log2_pos
  unfold sigmaOf
  rw [div_pow, mul_pow, sq_sqrt (by positivity)]
  congr 1; ring

theorem sigmaOf_pos {w : ℝ} (hw : 0 < w) : 0 < sigmaOf w := by
  have h := log2_pos
  unfold sigmaOf; positivity

theorem gauss_form {w : ℝ} (hw : 0 < w) (a x0 q : ℝ) :
    a / (sigmaOf w * √(2 * π)) * exp (-(q - x0) ^ 2 / (2 * sigmaOf w ^ 2)) =
      gaussPeak (a, x0, w) q := by
  have h := log2_pos
  have hs := sigmaOf_pos hw
  have hsq := sigmaOf_sq w
  have hπ := pi_pos
  unfold gaussPeak
  have h1 : a / (sigmaOf w * √(2 * π)) = a * √(4 * log 2 / (π * w ^ 2)) := by
    have : sigmaOf w * √(2 * π) = √(π * w ^ 2 / (4 * log 2)) := by
      rw [← sqrt_sq hs.le, ← sqrt_mul (by positivity), hsq]
      congr 1; field_simp; ring
    rw [this, div_eq_mul_inv, ← sqrt_inv]
    congr 2; field_simp
  have h2 : -(q - x0) ^ 2 / (2 * sigmaOf w ^ 2) = -(4 * log 2 / w ^ 2) * (q - x0) ^ 2 := by
    rw [hsq]; field_simp; ring
  rw [h1, h2]

/-! ## C36 -/

/-- **C36** `gaussian` is the background plus the sum of the peaks; parameters that
do not make up a complete peak have no effect.  In particular appending a peak adds
its profile and the order of the peaks is irrelevant. -/
theorem C36_gaussian (b0 b1 : ℝ) {peaks : List (ℝ × ℝ × ℝ)} (hw : ∀ c ∈ peaks, 0 < c.2.2)
    {t : List ℝ} (ht : t.length < 3) (q : ℝ) :
    gaussian (params b0 b1 peaks t) q =
      .ok (b0 + b1 * q + (peaks.map fun c => gaussPeak c q).sum) := by
  have h := withBackground_eq (k := 3) (by norm_num) b0 b1
    (peaks := peaks.map fun c => [c.1, c.2.1, c.2.2]) (by intro c hc; obtain ⟨x, _, rfl⟩ := List.mem_map.1 hc; rfl) ht q
    (fun g => g 0 / (sigmaOf (g 2) * √(2 * π)) * exp (-(q - g 1) ^ 2 / (2 * sigmaOf (g 2) ^ 2)))
    (by intro g g' h; simp only [h 0 (by norm_num), h 1 (by norm_num), h 2 (by norm_num)])
  refine Eq.trans h ?_
  rw [List.map_map]
  congr 3
  apply List.map_congr_left
  intro c hc
  exact gauss_form (hw c hc) c.1 c.2.1 q

/-- **C36** the same for `lorentzian`. -/
theorem C36_lorentzian (b0 b1 : ℝ) (peaks : List (ℝ × ℝ × ℝ))
    {t : List ℝ} (ht : t.length < 3) (q : ℝ) :
    lorentzian (params b0 b1 peaks t) q =
      .ok (b0 + b1 * q + (peaks.map fun c => lorentzPeak c q).sum) := by
  have h := withBackground_eq (k := 3) (by norm_num) b0 b1
    (peaks := peaks.map fun c => [c.1, c.2.1, c.2.2]) (by intro c hc; obtain ⟨x, _, rfl⟩ := List.mem_map.1 hc; rfl) ht q
    (fun g => g 0 / π * 0.5 * g 2 / ((q - g 1) ^ 2 + (0.5 * g 2) ^ 2))
    (by intro g g' h; simp only [h 0 (by norm_num), h 1 (by norm_num), h 2 (by norm_num)])
  refine Eq.trans h ?_
  rw [List.map_map]
  congr 3
  apply List.map_congr_left
  intro c hc
  simp only [Function.comp, List.getD_cons_zero, List.getD_cons_succ, lorentzPeak]
  have h5 : (0.5 : ℝ) = 1 / 2 := by norm_num
  rw [h5, mul_div_assoc', show 1 / 2 * c.2.2 = c.2.2 / 2 by ring]
  ring

/-- Order of the peaks is irrelevant and appending adds, for any profile that is
background plus sum of peaks. -/
theorem C36_order (b0 b1 : ℝ) {peaks peaks' : List (ℝ × ℝ × ℝ)} (hp : peaks.Perm peaks')
    (hw : ∀ c ∈ peaks, 0 < c.2.2) {t t' : List ℝ} (ht : t.length < 3) (ht' : t'.length < 3) (q : ℝ) :
    gaussian (params b0 b1 peaks t) q = gaussian (params b0 b1 peaks' t') q ∧
      lorentzian (params b0 b1 peaks t) q = lorentzian (params b0 b1 peaks' t') q := by
  rw [C36_gaussian b0 b1 hw ht, C36_gaussian b0 b1 (fun c hc => hw c (hp.mem_iff.2 hc)) ht',
    C36_lorentzian b0 b1 peaks ht, C36_lorentzian b0 b1 peaks' ht',
    (hp.map fun c => gaussPeak c q).sum_eq, (hp.map fun c => lorentzPeak c q).sum_eq]
  exact ⟨rfl, rfl⟩

example : params 1 2 [(3, 4, 5), (6, 7, 8)] [9] = [1, 2, 3, 4, 5, 6, 7, 8, 9] := rfl

/-- One Voigt peak (area, position, Lorentzian and Gaussian width) in terms of the
Faddeeva function. -/
noncomputable def voigtPeak (wofz : ℂ → ℂ) (c : ℝ × ℝ × ℝ × ℝ) (q : ℝ) : ℝ :=
  c.1 / (sigmaOf c.2.2.2 * √(2 * π)) *
    (wofz ((((q - c.2.1 : ℝ) : ℂ) + Complex.I * ((c.2.2.1 / 2 : ℝ) : ℂ)) /
      ((sigmaOf c.2.2.2 * √2 : ℝ) : ℂ))).re

/-- Parameter vector of peaks with four parameters. -/
def params4 (b0 b1 : ℝ) (peaks : List (ℝ × ℝ × ℝ × ℝ)) (t : List ℝ) : List ℝ :=
  b0 :: b1 :: ((peaks.map fun c => [c.1, c.2.1, c.2.2.1, c.2.2.2]).flatten ++ t)

/-- **C36** the same for `voigt`. -/
theorem C36_voigt (wofz : ℂ → ℂ) (b0 b1 : ℝ) (peaks : List (ℝ × ℝ × ℝ × ℝ))
    {t : List ℝ} (ht : t.length < 4) (q : ℝ) :
    voigt wofz (params4 b0 b1 peaks t) q =
      .ok (b0 + b1 * q + (peaks.map fun c => voigtPeak wofz c q).sum) := by
  have h := withBackground_eq (k := 4) (by norm_num) b0 b1
    (peaks := peaks.map fun c => [c.1, c.2.1, c.2.2.1, c.2.2.2]) (by intro c hc; obtain ⟨x, _, rfl⟩ := List.mem_map.1 hc; rfl) ht q
    (fun g => g 0 / (sigmaOf (g 3) * √(2 * π)) *
      (wofz ((((q - g 1 : ℝ) : ℂ) + Complex.I * ((g 2 / 2 : ℝ) : ℂ)) /
      ((sigmaOf (g 3) * √2 : ℝ) : ℂ))).re)
    (by intro g g' h; simp only [h 0 (by norm_num), h 1 (by norm_num), h 2 (by norm_num),
          h 3 (by norm_num)])
  refine Eq.trans h ?_
  rw [List.map_map]
  rfl

/-- Peak of `gaussian2d`: volume, x and y position, x and y full width. -/
structure Peak2 where
  vol : ℝ
  x0 : ℝ
  y0 : ℝ
  wx : ℝ
  wy : ℝ

/-- Product of two normalised Gaussians. -/
noncomputable def gauss2Peak (c : Peak2) (q : ℝ × ℝ) : ℝ :=
  c.vol * (gaussPeak (1, c.x0, c.wx) q.1 * gaussPeak (1, c.y0, c.wy) q.2)

/-- Parameter vector of `gaussian2d`. -/
def params5 (b0 b1 : ℝ) (peaks : List Peak2) (t : List ℝ) : List ℝ :=
  b0 :: b1 :: ((peaks.map fun c => [c.vol, c.x0, c.y0, c.wx, c.wy]).flatten ++ t)

/-- **C36** the same for `gaussian2d`. -/
theorem C36_gaussian2d (b0 b1 : ℝ) {peaks : List Peak2} (hw : ∀ c ∈ peaks, 0 < c.wx ∧ 0 < c.wy)
    {t : List ℝ} (ht : t.length < 5) (q : ℝ × ℝ) :
    gaussian2d (params5 b0 b1 peaks t) q =
      .ok (b0 + b1 * (q.1 + q.2) + (peaks.map fun c => gauss2Peak c q).sum) := by
  have h := withBackground_eq (k := 5) (by norm_num) b0 b1
    (peaks := peaks.map fun c => [c.vol, c.x0, c.y0, c.wx, c.wy]) (by intro c hc; obtain ⟨x, _, rfl⟩ := List.mem_map.1 hc; rfl) ht (q.1 + q.2)
    (fun g => g 0 / (sigmaOf (g 3) * sigmaOf (g 4) * 2 * π) * exp (
      -((q.1 - g 1) ^ 2 / (2 * sigmaOf (g 3) ^ 2) + (q.2 - g 2) ^ 2 / (2 * sigmaOf (g 4) ^ 2))))
    (by intro g g' h; simp only [h 0 (by norm_num), h 1 (by norm_num), h 2 (by norm_num),
          h 3 (by norm_num), h 4 (by norm_num)])
  refine Eq.trans h ?_
  rw [List.map_map]
  congr 3
  apply List.map_congr_left
  intro c hc
  obtain ⟨h1, h2⟩ := hw c hc
  have e1 := gauss_form h1 1 c.x0 q.1
  have e2 := gauss_form h2 1 c.y0 q.2
  have hs1 := sigmaOf_pos h1
  have hs2 := sigmaOf_pos h2
  have hr : √(2 * π) * √(2 * π) = 2 * π := mul_self_sqrt (by positivity)
  have hπ := pi_pos
  have hr0 : 0 < √(2 * π) := sqrt_pos.2 (by positivity)
  simp only [Function.comp, List.getD_cons_zero, List.getD_cons_succ, gauss2Peak]
  rw [← e1, ← e2, neg_add, exp_add]
  have : c.vol / (sigmaOf c.wx * sigmaOf c.wy * 2 * π) =
      c.vol * (1 / (sigmaOf c.wx * √(2 * π)) * (1 / (sigmaOf c.wy * √(2 * π)))) := by
    generalize √(2 * π) = S at hr hr0
    rw [mul_assoc (sigmaOf c.wx * sigmaOf c.wy), ← hr]
    field_simp
  rw [this, neg_div', neg_div']
  ring

/-- Peak of `resolution`: volume, position, R0 and the resolution matrix. -/
structure PeakR where
  vol : ℝ
  x0 : ℝ
  y0 : ℝ
  r0 : ℝ
  xx : ℝ
  yy : ℝ
  xy : ℝ

/-- Normalised Gaussian with the given precision matrix. -/
noncomputable def resPeak (c : PeakR) (q : ℝ × ℝ) : ℝ :=
  c.vol * (√(c.xx * c.yy - c.xy ^ 2) / (2 * π)) *
    exp (-(c.xx * (q.1 - c.x0) ^ 2 + 2 * c.xy * (q.1 - c.x0) * (q.2 - c.y0) +
      c.yy * (q.2 - c.y0) ^ 2) / 2)

/-- Parameter vector of `resolution`. -/
def params7 (b0 b1 : ℝ) (peaks : List PeakR) (t : List ℝ) : List ℝ :=
  b0 :: b1 :: ((peaks.map fun c => [c.vol, c.x0, c.y0, c.r0, c.xx, c.yy, c.xy]).flatten ++ t)

/-- **C36** the same for `resolution`; R0 (non-zero) has no influence. -/
theorem C36_resolution (b0 b1 : ℝ) {peaks : List PeakR} (hw : ∀ c ∈ peaks, 0 < c.xx ∧ c.r0 ≠ 0)
    {t : List ℝ} (ht : t.length < 7) (q : ℝ × ℝ) :
    resolution (params7 b0 b1 peaks t) q =
      .ok (b0 + b1 * (q.1 + q.2) + (peaks.map fun c => resPeak c q).sum) := by
  have h := withBackground_eq (k := 7) (by norm_num) b0 b1
    (peaks := peaks.map fun c => [c.vol, c.x0, c.y0, c.r0, c.xx, c.yy, c.xy]) (by intro c hc; obtain ⟨x, _, rfl⟩ := List.mem_map.1 hc; rfl) ht (q.1 + q.2)
    (fun g => g 0 * g 3 * ((√(g 4) * √(g 5 - g 6 ^ 2 / g 4)) / (2 * π * g 3)) *
      exp (-1 / 2 * (g 4 * (q.1 - g 1) ^ 2 + g 5 * (q.2 - g 2) ^ 2 +
        2 * g 6 * (q.1 - g 1) * (q.2 - g 2))))
    (by intro g g' h; simp only [h 0 (by norm_num), h 1 (by norm_num), h 2 (by norm_num),
          h 3 (by norm_num), h 4 (by norm_num), h 5 (by norm_num), h 6 (by norm_num)])
  refine Eq.trans h ?_
  rw [List.map_map]
  congr 3
  apply List.map_congr_left
  intro c hc
  obtain ⟨h1, h2⟩ := hw c hc
  simp only [Function.comp, List.getD_cons_zero, List.getD_cons_succ, resPeak]
  have hs : √c.xx * √(c.yy - c.xy ^ 2 / c.xx) = √(c.xx * c.yy - c.xy ^ 2) := by
    rw [← sqrt_mul h1.le]
    congr 1; field_simp
  rw [hs]
  congr 1
  · field_simp
  · congr 1; ring

/-- Peak of `gaussian_ring`. -/
structure PeakRing where
  vol : ℝ
  x0 : ℝ
  y0 : ℝ
  rad : ℝ
  ecc : ℝ
  w : ℝ

/-- A Gaussian in the distance from the ellipse, divided by the documented
normalisation. -/
noncomputable def ringPeak (erf : ℝ → ℝ) (c : PeakRing) (q : ℝ × ℝ) : ℝ :=
  c.vol / (2 * π / c.ecc * (sigmaOf c.w ^ 2 * exp (-(c.rad ^ 2 / (2 * sigmaOf c.w ^ 2))) +
      √(π / 2) * c.rad * sigmaOf c.w * (1 + erf (c.rad / (√2 * sigmaOf c.w))))) *
    exp (-((√((q.1 - c.x0) ^ 2 + (c.ecc * (q.2 - c.y0)) ^ 2) - c.rad) ^ 2 / (2 * sigmaOf c.w ^ 2)))

/-- Parameter vector of `gaussian_ring`. -/
def params6 (b0 b1 : ℝ) (peaks : List PeakRing) (t : List ℝ) : List ℝ :=
  b0 :: b1 :: ((peaks.map fun c => [c.vol, c.x0, c.y0, c.rad, c.ecc, c.w]).flatten ++ t)

/-- **C36** the same for `gaussian_ring`. -/
theorem C36_gaussian_ring (erf : ℝ → ℝ) (b0 b1 : ℝ) {peaks : List PeakRing}
    (hw : ∀ c ∈ peaks, 0 < c.w) {t : List ℝ} (ht : t.length < 6) (q : ℝ × ℝ) :
    gaussianRing erf (params6 b0 b1 peaks t) q =
      .ok (b0 + b1 * (q.1 + q.2) + (peaks.map fun c => ringPeak erf c q).sum) := by
  have h := withBackground_eq (k := 6) (by norm_num) b0 b1
    (peaks := peaks.map fun c => [c.vol, c.x0, c.y0, c.rad, c.ecc, c.w]) (by intro c hc; obtain ⟨x, _, rfl⟩ := List.mem_map.1 hc; rfl) ht (q.1 + q.2)
    (fun g => g 0 / (2 * π * (exp (-g 3 ^ 2 / (2 * sigmaOf (g 5) ^ 2)) * sigmaOf (g 5) ^ 2 +
      √(π / 2) * g 3 * sigmaOf (g 5) * (1 + erf (g 3 / (√2 * sigmaOf (g 5))))) / g 4) *
      exp (-4 * log 2 * (√((q.1 - g 1) ^ 2 + g 4 ^ 2 * (q.2 - g 2) ^ 2) - g 3) ^ 2 / g 5 ^ 2))
    (by intro g g' h; simp only [h 0 (by norm_num), h 1 (by norm_num), h 2 (by norm_num),
          h 3 (by norm_num), h 4 (by norm_num), h 5 (by norm_num)])
  refine Eq.trans h ?_
  rw [List.map_map]
  congr 3
  apply List.map_congr_left
  intro c hc
  have hw := hw c hc
  have hl := log2_pos
  simp only [Function.comp, List.getD_cons_zero, List.getD_cons_succ, ringPeak]
  congr 1
  · congr 1
    rw [neg_div]; ring
  · congr 1
    rw [sigmaOf_sq c.w, mul_pow]
    field_simp
    ring

/-- **C36** fewer than two parameters raise an error. -/
theorem C36_short (p : List ℝ) (h : p.length < 2) (q : ℝ) (q2 : ℝ × ℝ) (wofz : ℂ → ℂ)
    (erf : ℝ → ℝ) :
    gaussian p q = .error .indexError ∧ lorentzian p q = .error .indexError ∧
    voigt wofz p q = .error .indexError ∧ gaussian2d p q2 = .error .indexError ∧
    resolution p q2 = .error .indexError ∧ gaussianRing erf p q2 = .error .indexError := by
  refine ⟨?_, ?_, ?_, ?_, ?_, ?_⟩ <;>
    simp [gaussian, lorentzian, voigt, gaussian2d, resolution, gaussianRing, withBackground, h]

/-! ## C33, C34 -/

theorem integral_gaussPeak {c : ℝ × ℝ × ℝ} (hw : 0 < c.2.2) :
    Integrable (gaussPeak c) ∧ ∫ q, gaussPeak c q = c.1 := by
  have h := log2_pos
  have hπ := pi_pos
  have hb : 0 < 4 * log 2 / c.2.2 ^ 2 := by positivity
  unfold gaussPeak
  refine ⟨(integrable_gauss_shift hb _).const_mul _, ?_⟩
  rw [integral_const_mul, integral_gauss_shift, mul_assoc, ← sqrt_mul (by positivity)]
  have : 4 * log 2 / (π * c.2.2 ^ 2) * (π / (4 * log 2 / c.2.2 ^ 2)) = 1 := by field_simp
  rw [this, sqrt_one, mul_one]

theorem integral_list_sum {ι X : Type*} [MeasurableSpace X] {μ : Measure X} (peaks : List ι)
    (f : ι → X → ℝ) (hf : ∀ c ∈ peaks, Integrable (f c) μ) :
    Integrable (fun q => (peaks.map fun c => f c q).sum) μ ∧
      ∫ q, (peaks.map fun c => f c q).sum ∂μ = (peaks.map fun c => ∫ q, f c q ∂μ).sum := by
  induction peaks with
  | nil => simp
  | cons c peaks ih =>
    obtain ⟨h1, h2⟩ := ih (fun c hc => hf c (by simp [hc]))
    have hc := hf c (by simp)
    constructor
    · simp only [List.map_cons, List.sum_cons]
      exact hc.add h1
    · simp only [List.map_cons, List.sum_cons]
      rw [integral_add hc h1, h2]

/-- **C33** the profile minus its linear background is integrable over the real line
and its integral is the sum of the areas. -/
theorem C33_gaussian_area (b0 b1 : ℝ) {peaks : List (ℝ × ℝ × ℝ)} (hw : ∀ c ∈ peaks, 0 < c.2.2)
    {t : List ℝ} (ht : t.length < 3) :
    ∃ f : ℝ → ℝ, (∀ q, gaussian (params b0 b1 peaks t) q = .ok (b0 + b1 * q + f q)) ∧
      Integrable f ∧ ∫ q, f q = (peaks.map Prod.fst).sum := by
  refine ⟨_, C36_gaussian b0 b1 hw ht, ?_⟩
  obtain ⟨h1, h2⟩ := integral_list_sum peaks gaussPeak
    (fun c hc => (integral_gaussPeak (hw c hc)).1)
  refine ⟨h1, h2.trans ?_⟩
  congr 1
  exact List.map_congr_left (fun c hc => (integral_gaussPeak (hw c hc)).2)

example : ∀ c ∈ ([(3, 4, 5), (6, 7, 8)] : List (ℝ × ℝ × ℝ)), 0 < c.2.2 := by
  intro c hc; simp at hc; rcases hc with rfl | rfl <;> norm_num

/-- **C34** a single Gaussian has its only maximum at the position, is symmetric about
it, and takes half of the maximum exactly at the two points half a width away. -/
theorem C34_gaussian_shape {a x0 w : ℝ} (ha : 0 < a) (hw : 0 < w) :
    ∃ f : ℝ → ℝ, (∀ q, gaussian [0, 0, a, x0, w] q = .ok (f q)) ∧
      (∀ q, q ≠ x0 → f q < f x0) ∧ (∀ d, f (x0 + d) = f (x0 - d)) ∧
      ∀ q, f q = f x0 / 2 ↔ q = x0 - w / 2 ∨ q = x0 + w / 2 := by
  have hl := log2_pos
  have hπ := pi_pos
  have hA : 0 < a * √(4 * log 2 / (π * w ^ 2)) := mul_pos ha (sqrt_pos.2 (by positivity))
  refine ⟨gaussPeak (a, x0, w), ?_, ?_, ?_, ?_⟩
  · intro q
    have := C36_gaussian 0 0 (peaks := [(a, x0, w)]) (by simpa using hw) (t := []) (by simp) q
    simpa [params] using this
  · intro q hq
    unfold gaussPeak
    simp only [sub_self]
    apply mul_lt_mul_of_pos_left _ hA
    rw [exp_lt_exp]
    have : 0 < (q - x0) ^ 2 := by
      have : q - x0 ≠ 0 := sub_ne_zero.2 hq
      positivity
    have : 0 < 4 * log 2 / w ^ 2 * (q - x0) ^ 2 := by positivity
    simp only [ne_eq, OfNat.ofNat_ne_zero, not_false_eq_true, zero_pow, mul_zero]
    linarith
  · intro d
    unfold gaussPeak
    congr 2
    ring
  · intro q
    unfold gaussPeak
    simp only [sub_self, ne_eq, OfNat.ofNat_ne_zero, not_false_eq_true, zero_pow, mul_zero, exp_zero,
      mul_one]
    rw [div_eq_mul_inv _ (2 : ℝ), mul_right_inj' hA.ne',
      show (2 : ℝ)⁻¹ = exp (-log 2) by rw [exp_neg, exp_log (by norm_num)], exp_eq_exp]
    constructor
    · intro h
      have h2 : (q - x0) ^ 2 = (w / 2) ^ 2 := by
        have h1 : -(4 * log 2 / w ^ 2) * (q - x0) ^ 2 * w ^ 2 = -log 2 * w ^ 2 := by rw [h]
        field_simp at h1
        have : (q - x0) ^ 2 * 4 = w ^ 2 := by nlinarith
        linarith
      rcases sq_eq_sq_iff_eq_or_eq_neg.1 h2 with h | h
      · right; linarith
      · left; linarith
    · rintro (rfl | rfl) <;> · field_simp; ring

/-! ## C35 -/

/-- **C35** areas of Lorentzians. -/
theorem C35_lorentzian_area (b0 b1 : ℝ) {peaks : List (ℝ × ℝ × ℝ)} (hw : ∀ c ∈ peaks, 0 < c.2.2)
    {t : List ℝ} (ht : t.length < 3) :
    ∃ f : ℝ → ℝ, (∀ q, lorentzian (params b0 b1 peaks t) q = .ok (b0 + b1 * q + f q)) ∧
      Integrable f ∧ ∫ q, f q = (peaks.map Prod.fst).sum := by
  refine ⟨_, C36_lorentzian b0 b1 peaks ht, ?_⟩
  have hpi := pi_pos
  have key : ∀ c ∈ peaks, Integrable (lorentzPeak c) ∧ ∫ q, lorentzPeak c q = c.1 := by
    intro c hc
    obtain ⟨h1, h2⟩ := integral_lorentz (g := c.2.2 / 2) (by have := hw c hc; linarith) c.2.1
    unfold lorentzPeak
    refine ⟨h1.const_mul _, ?_⟩
    rw [integral_const_mul, h2]
    field_simp
  obtain ⟨h1, h2⟩ := integral_list_sum peaks lorentzPeak (fun c hc => (key c hc).1)
  refine ⟨h1, h2.trans ?_⟩
  congr 1
  exact List.map_congr_left (fun c hc => (key c hc).2)

/-- **C35** a single Lorentzian has its only maximum at the position and takes half of
it exactly half a width away. -/
theorem C35_lorentzian_shape {a x0 w : ℝ} (ha : 0 < a) (hw : 0 < w) :
    ∃ f : ℝ → ℝ, (∀ q, lorentzian [0, 0, a, x0, w] q = .ok (f q)) ∧
      (∀ q, q ≠ x0 → f q < f x0) ∧ (∀ d, f (x0 + d) = f (x0 - d)) ∧
      ∀ q, f q = f x0 / 2 ↔ q = x0 - w / 2 ∨ q = x0 + w / 2 := by
  have hπ := pi_pos
  refine ⟨lorentzPeak (a, x0, w), ?_, ?_, ?_, ?_⟩
  · intro q
    have := C36_lorentzian 0 0 [(a, x0, w)] (t := []) (by simp) q
    simpa [params] using this
  · intro q hq
    unfold lorentzPeak
    simp only [sub_self]
    have : 0 < (q - x0) ^ 2 := by
      have : q - x0 ≠ 0 := sub_ne_zero.2 hq
      positivity
    apply mul_lt_mul_of_pos_left _ (by positivity)
    apply div_lt_div_of_pos_left (by positivity) (by positivity)
    simp only [ne_eq, OfNat.ofNat_ne_zero, not_false_eq_true, zero_pow]
    linarith
  · intro d
    unfold lorentzPeak
    congr 3
    ring
  · intro q
    unfold lorentzPeak
    have hA : a / π ≠ 0 := by positivity
    simp only [sub_self, ne_eq, OfNat.ofNat_ne_zero, not_false_eq_true, zero_pow, zero_add]
    rw [mul_div_assoc, mul_right_inj' hA]
    have h1 : 0 < (q - x0) ^ 2 + (w / 2) ^ 2 := by positivity
    constructor
    · intro h
      have h2 : (q - x0) ^ 2 = (w / 2) ^ 2 := by
        rw [div_div (w / 2) ((w / 2) ^ 2) 2, div_eq_div_iff h1.ne' (by positivity)] at h
        have := mul_left_cancel₀ (show w / 2 ≠ 0 by positivity) h
        linarith
      rcases sq_eq_sq_iff_eq_or_eq_neg.1 h2 with h | h
      · right; linarith
      · left; linarith
    · rintro (rfl | rfl) <;> · field_simp; ring

end Verif.Functions
