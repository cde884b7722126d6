import Verif.Functions.Props

/-!
# Units and origins of the axes of the profiles

What the profiles become when positions are given in another unit and from another
origin, and counts in another unit.
-/

namespace Verif.Functions

open Real

/-! ## Specification: the parameters in the new units

A position `x` becomes `s x + t` and a value `y` becomes `c y`, with `s > 0`. -/

/-- A peak of `gaussian` or `lorentzian` in the new units: the area is in units of counts times
positions. -/
def unitPeak (c s t : ℝ) (k : ℝ × ℝ × ℝ) : ℝ × ℝ × ℝ := (c * s * k.1, s * k.2.1 + t, s * k.2.2)

/-- A peak of `voigt` in the new units. -/
def unitPeak4 (c s t : ℝ) (k : ℝ × ℝ × ℝ × ℝ) : ℝ × ℝ × ℝ × ℝ :=
  (c * s * k.1, s * k.2.1 + t, s * k.2.2.1, s * k.2.2.2)

/-- A peak of `gaussian2d` in the new units. -/
def unitPeak5 (c s tx ty : ℝ) (k : Peak2) : Peak2 :=
  ⟨c * s ^ 2 * k.vol, s * k.x0 + tx, s * k.y0 + ty, s * k.wx, s * k.wy⟩

/-- A peak of `gaussian_ring` in the new units: the eccentricity is a ratio. -/
def unitPeak6 (c s tx ty : ℝ) (k : PeakRing) : PeakRing :=
  ⟨c * s ^ 2 * k.vol, s * k.x0 + tx, s * k.y0 + ty, s * k.rad, k.ecc, s * k.w⟩

/-- A peak of `resolution` in the new units: the matrix is in units of inverse squares. -/
noncomputable def unitPeak7 (c s tx ty : ℝ) (k : PeakR) : PeakR :=
  ⟨c * s ^ 2 * k.vol, s * k.x0 + tx, s * k.y0 + ty, k.r0, k.xx / s ^ 2, k.yy / s ^ 2, k.xy / s ^ 2⟩

/-! ## Lemmas -/

theorem sum_unit {ι : Type} (c : ℝ) (u : ι → ι) (f : ι → ℝ) (g : ι → ℝ) (L : List ι)
    (h : ∀ k ∈ L, f (u k) = c * g k) : ((L.map u).map f).sum = c * (L.map g).sum := by
  induction L with
  | nil => simp
  | cons k L ih =>
    simp only [List.map_cons, List.sum_cons]
    rw [ih fun k' hk' => h k' (by simp [hk']), h k (by simp)]
    ring

theorem gaussPeak_unit (c t : ℝ) {s : ℝ} (hs : 0 < s) (k : ℝ × ℝ × ℝ) (q : ℝ) :
    gaussPeak (unitPeak c s t k) (s * q + t) = c * gaussPeak k q := by
  unfold gaussPeak unitPeak
  have h1 : √(4 * log 2 / (π * (s * k.2.2) ^ 2)) = √(4 * log 2 / (π * k.2.2 ^ 2)) / s := by
    rw [← sqrt_sq hs.le, ← sqrt_div' _ (by positivity), sqrt_sq hs.le]
    congr 1
    rw [mul_pow, div_div]
    ring
  have h2 : -(4 * log 2 / (s * k.2.2) ^ 2) * (s * q + t - (s * k.2.1 + t)) ^ 2 =
      -(4 * log 2 / k.2.2 ^ 2) * (q - k.2.1) ^ 2 := by
    have : s * q + t - (s * k.2.1 + t) = s * (q - k.2.1) := by ring
    rw [this, mul_pow, mul_pow]
    field_simp
  simp only
  rw [h1, h2]
  field_simp

theorem lorentzPeak_unit (c t : ℝ) {s : ℝ} (hs : 0 < s) (k : ℝ × ℝ × ℝ) (q : ℝ) :
    lorentzPeak (unitPeak c s t k) (s * q + t) = c * lorentzPeak k q := by
  unfold lorentzPeak unitPeak
  simp only
  have h1 : (s * q + t - (s * k.2.1 + t)) ^ 2 + (s * k.2.2 / 2) ^ 2 =
      s ^ 2 * ((q - k.2.1) ^ 2 + (k.2.2 / 2) ^ 2) := by ring
  rw [h1]
  generalize (q - k.2.1) ^ 2 + (k.2.2 / 2) ^ 2 = D
  rw [div_mul_eq_div_div_swap]
  field_simp

theorem sigmaOf_unit (s w : ℝ) : sigmaOf (s * w) = s * sigmaOf w := by
  unfold sigmaOf; rw [mul_div_assoc]

theorem voigtPeak_unit (wofz : ℂ → ℂ) (c t : ℝ) {s : ℝ} (hs : 0 < s) (k : ℝ × ℝ × ℝ × ℝ) (q : ℝ) :
    voigtPeak wofz (unitPeak4 c s t k) (s * q + t) = c * voigtPeak wofz k q := by
  unfold voigtPeak unitPeak4
  simp only
  have hs' : (s : ℂ) ≠ 0 := by exact_mod_cast hs.ne'
  have h1 : (((s * q + t - (s * k.2.1 + t) : ℝ) : ℂ) + Complex.I * ((s * k.2.2.1 / 2 : ℝ) : ℂ)) /
      ((sigmaOf (s * k.2.2.2) * √2 : ℝ) : ℂ) =
      (((q - k.2.1 : ℝ) : ℂ) + Complex.I * ((k.2.2.1 / 2 : ℝ) : ℂ)) /
      ((sigmaOf k.2.2.2 * √2 : ℝ) : ℂ) := by
    rw [sigmaOf_unit, show s * q + t - (s * k.2.1 + t) = s * (q - k.2.1) by ring, mul_div_assoc,
      mul_assoc s, Complex.ofReal_mul s, Complex.ofReal_mul s, Complex.ofReal_mul s,
      mul_left_comm Complex.I, ← mul_add, mul_div_mul_left _ _ hs']
  rw [h1, sigmaOf_unit]
  generalize (wofz _).re = R
  rw [show c * s * k.1 / (s * sigmaOf k.2.2.2 * √(2 * π)) =
    (s * (c * k.1)) / (s * (sigmaOf k.2.2.2 * √(2 * π))) by ring, mul_div_mul_left _ _ hs.ne']
  ring

theorem gauss2Peak_unit (c tx ty : ℝ) {s : ℝ} (hs : 0 < s) (k : Peak2) (q : ℝ × ℝ) :
    gauss2Peak (unitPeak5 c s tx ty k) (s * q.1 + tx, s * q.2 + ty) = c * gauss2Peak k q := by
  have h1 := gaussPeak_unit (1 / s) tx hs (1, k.x0, k.wx) q.1
  have h2 := gaussPeak_unit (1 / s) ty hs (1, k.y0, k.wy) q.2
  unfold unitPeak at h1 h2
  simp only [div_mul_cancel₀ (1 : ℝ) hs.ne', mul_one] at h1 h2
  unfold gauss2Peak unitPeak5
  simp only
  rw [h1, h2]
  field_simp

theorem ringPeak_unit (erf : ℝ → ℝ) (c tx ty : ℝ) {s : ℝ} (hs : 0 < s) (k : PeakRing) (q : ℝ × ℝ) :
    ringPeak erf (unitPeak6 c s tx ty k) (s * q.1 + tx, s * q.2 + ty) = c * ringPeak erf k q := by
  unfold ringPeak unitPeak6
  simp only
  have h1 : √((s * q.1 + tx - (s * k.x0 + tx)) ^ 2 + (k.ecc * (s * q.2 + ty - (s * k.y0 + ty))) ^ 2) =
      s * √((q.1 - k.x0) ^ 2 + (k.ecc * (q.2 - k.y0)) ^ 2) := by
    rw [show (s * q.1 + tx - (s * k.x0 + tx)) ^ 2 + (k.ecc * (s * q.2 + ty - (s * k.y0 + ty))) ^ 2 =
      s ^ 2 * ((q.1 - k.x0) ^ 2 + (k.ecc * (q.2 - k.y0)) ^ 2) by ring, sqrt_mul (by positivity),
      sqrt_sq hs.le]
  rw [h1, sigmaOf_unit]
  generalize √((q.1 - k.x0) ^ 2 + (k.ecc * (q.2 - k.y0)) ^ 2) = D
  generalize sigmaOf k.w = g
  have h2 : -((s * k.rad) ^ 2 / (2 * (s * g) ^ 2)) = -(k.rad ^ 2 / (2 * g ^ 2)) := by
    rw [mul_pow, mul_pow, mul_left_comm, mul_div_mul_left _ _ (by positivity)]
  have h3 : s * k.rad / (√2 * (s * g)) = k.rad / (√2 * g) := by
    rw [mul_left_comm, mul_div_mul_left _ _ hs.ne']
  have h4 : -((s * D - s * k.rad) ^ 2 / (2 * (s * g) ^ 2)) = -((D - k.rad) ^ 2 / (2 * g ^ 2)) := by
    rw [← mul_sub, mul_pow, mul_pow, mul_left_comm, mul_div_mul_left _ _ (by positivity)]
  rw [h2, h3, h4]
  generalize exp (-(k.rad ^ 2 / (2 * g ^ 2))) = E
  generalize erf (k.rad / (√2 * g)) = F
  have h5 : 2 * π / k.ecc * ((s * g) ^ 2 * E + √(π / 2) * (s * k.rad) * (s * g) * (1 + F)) =
      s ^ 2 * (2 * π / k.ecc * (g ^ 2 * E + √(π / 2) * k.rad * g * (1 + F))) := by ring
  rw [h5, show c * s ^ 2 * k.vol = s ^ 2 * (c * k.vol) by ring, mul_div_mul_left _ _ (by positivity)]
  ring

theorem resPeak_unit (c tx ty : ℝ) {s : ℝ} (hs : 0 < s) (k : PeakR) (q : ℝ × ℝ) :
    resPeak (unitPeak7 c s tx ty k) (s * q.1 + tx, s * q.2 + ty) = c * resPeak k q := by
  unfold resPeak unitPeak7
  simp only
  have h1 : √(k.xx / s ^ 2 * (k.yy / s ^ 2) - (k.xy / s ^ 2) ^ 2) = √(k.xx * k.yy - k.xy ^ 2) / s ^ 2 := by
    rw [show k.xx / s ^ 2 * (k.yy / s ^ 2) - (k.xy / s ^ 2) ^ 2 = (k.xx * k.yy - k.xy ^ 2) / (s ^ 2) ^ 2 by
      field_simp, sqrt_div' _ (by positivity), sqrt_sq (by positivity)]
  have h2 : -(k.xx / s ^ 2 * (s * q.1 + tx - (s * k.x0 + tx)) ^ 2 +
      2 * (k.xy / s ^ 2) * (s * q.1 + tx - (s * k.x0 + tx)) * (s * q.2 + ty - (s * k.y0 + ty)) +
      k.yy / s ^ 2 * (s * q.2 + ty - (s * k.y0 + ty)) ^ 2) / 2 =
      -(k.xx * (q.1 - k.x0) ^ 2 + 2 * k.xy * (q.1 - k.x0) * (q.2 - k.y0) +
      k.yy * (q.2 - k.y0) ^ 2) / 2 := by
    rw [show s * q.1 + tx - (s * k.x0 + tx) = s * (q.1 - k.x0) by ring,
      show s * q.2 + ty - (s * k.y0 + ty) = s * (q.2 - k.y0) by ring]
    field_simp
  rw [h1, h2]
  field_simp

/-! ## C230 -/

/-- **C230** `gaussian`, `lorentzian` and `voigt` in other units of positions and of counts, and from
another origin, with the parameters converted, are the same curves. -/
theorem C230_curves (wofz : ℂ → ℂ) (b0 b1 c t : ℝ) {s : ℝ} (hs : 0 < s)
    {peaks : List (ℝ × ℝ × ℝ)} (hw : ∀ k ∈ peaks, 0 < k.2.2) (peaks4 : List (ℝ × ℝ × ℝ × ℝ)) (q : ℝ) :
    gaussian (params (c * (b0 - b1 * t / s)) (c * b1 / s) (peaks.map (unitPeak c s t)) []) (s * q + t) =
      (gaussian (params b0 b1 peaks []) q).map (c * ·) ∧
    lorentzian (params (c * (b0 - b1 * t / s)) (c * b1 / s) (peaks.map (unitPeak c s t)) []) (s * q + t) =
      (lorentzian (params b0 b1 peaks []) q).map (c * ·) ∧
    voigt wofz (params4 (c * (b0 - b1 * t / s)) (c * b1 / s) (peaks4.map (unitPeak4 c s t)) []) (s * q + t) =
      (voigt wofz (params4 b0 b1 peaks4 []) q).map (c * ·) := by
  have hb : ∀ S : ℝ, c * (b0 - b1 * t / s) + c * b1 / s * (s * q + t) + c * S = c * (b0 + b1 * q + S) := by
    intro S; field_simp; ring
  have hw' : ∀ k ∈ peaks.map (unitPeak c s t), 0 < k.2.2 := by
    intro k hk
    obtain ⟨k', hk', rfl⟩ := List.mem_map.1 hk
    exact mul_pos hs (hw k' hk')
  refine ⟨?_, ?_, ?_⟩
  · rw [C36_gaussian _ _ hw' (by simp), C36_gaussian _ _ hw (by simp), Except.map,
      sum_unit c _ _ (fun k => gaussPeak k q) _ fun k _ => gaussPeak_unit c t hs k q, hb]
  · rw [C36_lorentzian _ _ _ (by simp), C36_lorentzian _ _ _ (by simp), Except.map,
      sum_unit c _ _ (fun k => lorentzPeak k q) _ fun k _ => lorentzPeak_unit c t hs k q, hb]
  · rw [C36_voigt _ _ _ _ (by simp), C36_voigt _ _ _ _ (by simp), Except.map,
      sum_unit c _ _ (fun k => voigtPeak wofz k q) _ fun k _ => voigtPeak_unit wofz c t hs k q, hb]

/-- **C230** the same for `gaussian2d`, `gaussian_ring` and `resolution`, with one unit for both
axes. -/
theorem C230_surfaces (erf : ℝ → ℝ) (b0 b1 c tx ty : ℝ) {s : ℝ} (hs : 0 < s)
    {peaks5 : List Peak2} (h5 : ∀ k ∈ peaks5, 0 < k.wx ∧ 0 < k.wy)
    {peaks6 : List PeakRing} (h6 : ∀ k ∈ peaks6, 0 < k.w)
    {peaks7 : List PeakR} (h7 : ∀ k ∈ peaks7, 0 < k.xx ∧ k.r0 ≠ 0) (q : ℝ × ℝ) :
    gaussian2d (params5 (c * (b0 - b1 * (tx + ty) / s)) (c * b1 / s)
        (peaks5.map (unitPeak5 c s tx ty)) []) (s * q.1 + tx, s * q.2 + ty) =
      (gaussian2d (params5 b0 b1 peaks5 []) q).map (c * ·) ∧
    gaussianRing erf (params6 (c * (b0 - b1 * (tx + ty) / s)) (c * b1 / s)
        (peaks6.map (unitPeak6 c s tx ty)) []) (s * q.1 + tx, s * q.2 + ty) =
      (gaussianRing erf (params6 b0 b1 peaks6 []) q).map (c * ·) ∧
    resolution (params7 (c * (b0 - b1 * (tx + ty) / s)) (c * b1 / s)
        (peaks7.map (unitPeak7 c s tx ty)) []) (s * q.1 + tx, s * q.2 + ty) =
      (resolution (params7 b0 b1 peaks7 []) q).map (c * ·) := by
  have hb : ∀ S : ℝ, c * (b0 - b1 * (tx + ty) / s) + c * b1 / s * (s * q.1 + tx + (s * q.2 + ty)) + c * S =
      c * (b0 + b1 * (q.1 + q.2) + S) := by
    intro S; field_simp; ring
  refine ⟨?_, ?_, ?_⟩
  · rw [C36_gaussian2d _ _ _ (by simp), C36_gaussian2d _ _ h5 (by simp), Except.map,
      sum_unit c _ _ (fun k => gauss2Peak k q) _ fun k _ => gauss2Peak_unit c tx ty hs k q]
    · simp only [hb]
    · intro k hk
      obtain ⟨k', hk', rfl⟩ := List.mem_map.1 hk
      exact ⟨mul_pos hs (h5 k' hk').1, mul_pos hs (h5 k' hk').2⟩
  · rw [C36_gaussian_ring _ _ _ _ (by simp), C36_gaussian_ring _ _ _ h6 (by simp), Except.map,
      sum_unit c _ _ (fun k => ringPeak erf k q) _ fun k _ => ringPeak_unit erf c tx ty hs k q]
    · simp only [hb]
    · intro k hk
      obtain ⟨k', hk', rfl⟩ := List.mem_map.1 hk
      exact mul_pos hs (h6 k' hk')
  · rw [C36_resolution _ _ _ (by simp), C36_resolution _ _ h7 (by simp), Except.map,
      sum_unit c _ _ (fun k => resPeak k q) _ fun k _ => resPeak_unit c tx ty hs k q]
    · simp only [hb]
    · intro k hk
      obtain ⟨k', hk', rfl⟩ := List.mem_map.1 hk
      exact ⟨div_pos (h7 k' hk').1 (by positivity), (h7 k' hk').2⟩

/-- A peak of area 3 at 4 with width 5, in a unit half as large. -/
example : params (1 * (1 - 2 * 0 / 2)) (1 * 2 / 2) ([(3, 4, 5)].map (unitPeak 1 2 0)) [] =
    [1, 1, 6, 8, 10] := by
  norm_num [params, unitPeak]

end Verif.Functions
