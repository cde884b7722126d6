import Verif.Crystal.Props

/-!
# Properties C40 to C42: B matrix, spacings, angles
-/

namespace Verif.Crystal

open Real Matrix

variable {l : Lattice}

/-! ## C40 -/

/-- **C40** (partial) `Bᵀ B` is the reciprocal metric exactly when the sines of `alphastar` and
`alpha` agree.  Missing: the full claim, which fails for the cells of `C40_rhombohedral_false`;
`lattice.py` 317 takes the sine of `alphastar` where the sine of `alpha` is needed. -/
theorem C40_b_matrix_partial (h : Valid l) : ∃ B gs al, l.Bmatrix = .ok B ∧ l.Gstar = .ok gs ∧
    l.alphastarRad = .ok al ∧ (Bᵀ * B = gs ↔ sin al = sin l.alphaRad) := by
  obtain ⟨B, cs, be, hB, hcs, hbe, hpos, hgram⟩ := bmatrix_gram h (alphastar_eq h)
  refine ⟨B, gstarOf l, _, hB, gstar_eq h, alphastar_eq h, ?_⟩
  obtain ⟨_, _, a0, a1⟩ := cos_alphastar h (alphastar_eq h)
  have hs := sin_pos_of_pos_of_lt_pi a0 a1
  have hsa := h.sa
  rw [hgram]
  constructor
  · intro heq
    have := congrFun (congrFun heq 2) 2
    simp only [Matrix.add_apply, Matrix.of_apply, Matrix.cons_val, add_eq_left, mul_eq_zero] at this
    rcases this with h0 | h0
    · exact absurd h0 (by positivity)
    · have h0 := sub_eq_zero.1 h0
      exact (sq_eq_sq₀ hs.le hsa.le).1 h0
  · intro heq
    rw [heq, sub_self, mul_zero]
    ext i j
    fin_cases i <;> fin_cases j <;> simp

/-- **C40** (partial) images of reciprocal vectors under `B` have the scalar products of the
reciprocal vectors in space, for cells with `alpha` and one more angle right: cubic, tetragonal,
orthorhombic, hexagonal and monoclinic cells. -/
theorem C40_two_right_angles_partial (h : Valid l) (hα : l.alpha = 90)
    (hor : l.beta = 90 ∨ l.gamma = 90) {E F : Mat} (hE : Realises l E) (hF : Dual E F) :
    ∃ B, l.Bmatrix = .ok B ∧ ∀ p q : Vec, (B *ᵥ p) ⬝ᵥ (B *ᵥ q) = vecOf F p ⬝ᵥ vecOf F q := by
  obtain ⟨B, gs, al, hB, hgs, hal, hiff⟩ := C40_b_matrix_partial h
  rw [gstar_eq h] at hgs
  cases hgs
  have h90 : cos (deg2rad 90) = 0 := by
    rw [show deg2rad 90 = π / 2 by unfold deg2rad; ring]; exact cos_pi_div_two
  have hca : cos l.alphaRad = 0 := by unfold Lattice.alphaRad; rw [hα, h90]
  have hcos : cos al = 0 := by
    rw [(cos_alphastar h hal).1, hca]
    rcases hor with h1 | h1
    · have : cos l.betaRad = 0 := by unfold Lattice.betaRad; rw [h1, h90]
      rw [this]; simp
    · have : cos l.gammaRad = 0 := by unfold Lattice.gammaRad; rw [h1, h90]
      rw [this]; simp
  obtain ⟨_, _, a0, a1⟩ := cos_alphastar h hal
  have e1 := sin_sq_add_cos_sq al
  have e2 := sin_sq_add_cos_sq l.alphaRad
  rw [hcos] at e1
  rw [hca] at e2
  have hsin : sin al = sin l.alphaRad :=
    (sq_eq_sq₀ (sin_pos_of_pos_of_lt_pi a0 a1).le h.sa.le).1 (by linarith)
  have hBB := hiff.2 hsin
  refine ⟨B, hB, fun p q => ?_⟩
  rw [vecOf_dot (dual_gram h hE hF), ← hBB]
  simp only [Matrix.mulVec, dotProduct, Matrix.mul_apply, Fin.sum_univ_three,
    Matrix.transpose_apply]
  ring

theorem cos60 : cos (deg2rad 60) = 1 / 2 := by
  rw [show deg2rad 60 = π / 3 by unfold deg2rad; ring, cos_pi_div_three]

theorem cos90 : cos (deg2rad 90) = 0 := by
  rw [show deg2rad 90 = π / 2 by unfold deg2rad; ring, cos_pi_div_two]

theorem cos120 : cos (deg2rad 120) = -(1 / 2) := by
  rw [show deg2rad 120 = π - π / 3 by unfold deg2rad; ring, cos_pi_sub, cos_pi_div_three]

/-- **C40** fails for a rhombohedral cell with angles of 60 degrees. -/
theorem C40_rhombohedral_false : ∃ l : Lattice, Valid l ∧ ∃ B gs, l.Bmatrix = .ok B ∧
    l.Gstar = .ok gs ∧ Bᵀ * B ≠ gs := by
  refine ⟨⟨1, 1, 1, 60, 60, 60⟩, by constructor <;> norm_num, ?_⟩
  have h : Valid ⟨1, 1, 1, 60, 60, 60⟩ := by constructor <;> norm_num
  obtain ⟨B, gs, al, hB, hgs, hal, hiff⟩ := C40_b_matrix_partial h
  refine ⟨B, gs, hB, hgs, fun heq => ?_⟩
  have hs := hiff.1 heq
  have hc := (cos_alphastar h hal).1
  have c60 : cos (Lattice.alphaRad ⟨1, 1, 1, 60, 60, 60⟩) = 1 / 2 := cos60
  have c60' : cos (Lattice.betaRad ⟨1, 1, 1, 60, 60, 60⟩) = 1 / 2 := cos60
  have c60'' : cos (Lattice.gammaRad ⟨1, 1, 1, 60, 60, 60⟩) = 1 / 2 := cos60
  have s60 : sin (Lattice.betaRad ⟨1, 1, 1, 60, 60, 60⟩) * sin (Lattice.gammaRad ⟨1, 1, 1, 60, 60, 60⟩)
      = 3 / 4 := by
    have : sin (deg2rad 60) ^ 2 = 3 / 4 := by rw [sin_sq, cos60]; norm_num
    rw [← this, sq]; rfl
  rw [s60, c60, c60', c60''] at hc
  have e1 := sin_sq_add_cos_sq al
  have e2 := sin_sq_add_cos_sq (Lattice.alphaRad ⟨1, 1, 1, 60, 60, 60⟩)
  rw [hs, hc] at e1
  rw [c60] at e2
  norm_num at e1 e2
  linarith

/-- **C40** the documented relation `B Bᵀ = Gstar` (lattice.py 310-311) fails for a hexagonal cell. -/
theorem C40_documented_false : ∃ l : Lattice, Valid l ∧ ∃ B gs, l.Bmatrix = .ok B ∧
    l.Gstar = .ok gs ∧ B * Bᵀ ≠ gs := by
  have h : Valid ⟨1, 1, 2, 90, 90, 120⟩ := by constructor <;> norm_num
  refine ⟨⟨1, 1, 2, 90, 90, 120⟩, h, ?_⟩
  obtain ⟨as, bs, cs, be, ga, h1, h2, h3, h5, h6, hB⟩ := bmatrix_eq h (alphastar_eq h)
  refine ⟨_, _, hB, gstar_eq h, fun heq => ?_⟩
  have h22 := congrFun (congrFun heq 1) 1
  obtain ⟨_, sg, g0, g1⟩ := cos_gammastar h h6
  obtain ⟨cb, _, _, _⟩ := cos_betastar h h5
  have ca : cos (Lattice.alphaRad ⟨1, 1, 2, 90, 90, 120⟩) = 0 := cos90
  have cbe : cos (Lattice.betaRad ⟨1, 1, 2, 90, 90, 120⟩) = 0 := cos90
  have cg : cos (Lattice.gammaRad ⟨1, 1, 2, 90, 90, 120⟩) = -(1 / 2) := cos120
  have sa : sin (Lattice.alphaRad ⟨1, 1, 2, 90, 90, 120⟩) = 1 := by
    change sin (deg2rad 90) = 1
    rw [show deg2rad 90 = π / 2 by unfold deg2rad; ring, sin_pi_div_two]
  have sb : sin (Lattice.betaRad ⟨1, 1, 2, 90, 90, 120⟩) = 1 := sa
  have hdisc : disc ⟨1, 1, 2, 90, 90, 120⟩ = 3 / 4 := by
    unfold disc; rw [ca, cbe, cg]; norm_num
  have hr : √(3 / 4 : ℝ) ^ 2 = 3 / 4 := sq_sqrt (by norm_num)
  have hp := pi_pos
  rw [bstar_eq h] at h2
  cases h2
  rw [hdisc, sb] at h22
  rw [sa, sb, hdisc] at sg
  simp only [Matrix.mul_apply, Fin.sum_univ_three, Matrix.transpose_apply, Matrix.of_apply,
    Matrix.cons_val, ca, sg, gstarOf, Matrix.smul_apply, smul_eq_mul, sb, hdisc] at h22
  have hrne : √(3 / 4 : ℝ) ≠ 0 := by positivity
  field_simp at h22
  norm_num at h22
  nlinarith

/-! ## C41 -/

/-- Length of a Cartesian vector. -/
noncomputable def len (v : Vec) : ℝ := √(v ⬝ᵥ v)

theorem dot_self_nonneg (v : Vec) : 0 ≤ v ⬝ᵥ v := by
  simp only [dotProduct, Fin.sum_univ_three]
  nlinarith [sq_nonneg (v 0), sq_nonneg (v 1), sq_nonneg (v 2)]

theorem vecOf_ne_zero (h : Valid l) {E F : Mat} (hE : Realises l E) (hF : Dual E F) {hkl : Vec}
    (hne : hkl ≠ 0) : 0 < vecOf F hkl ⬝ᵥ vecOf F hkl := by
  obtain ⟨gs, hgs, _, _, hpos⟩ := C38_inverse h
  rw [gstar_eq h] at hgs
  cases hgs
  rw [vecOf_dot (dual_gram h hE hF)]
  exact hpos _ hne

theorem dSpacing_form (h : Valid l) {E F : Mat} (hE : Realises l E) (hF : Dual E F) (hkl : Vec) :
    l.getDSpacing hkl = npDiv 1 (len (vecOf F hkl) / (2 * π)) := by
  have hp := pi_pos
  unfold Lattice.getDSpacing
  rw [gstar_eq h, ok_bind]
  have e : (hkl ᵥ* ((1 / 4 / π ^ 2) • gstarOf l)) ⬝ᵥ hkl =
      (vecOf F hkl ⬝ᵥ vecOf F hkl) / (2 * π) ^ 2 := by
    rw [vecOf_dot (dual_gram h hE hF), Matrix.vecMul_smul, smul_dotProduct, smul_eq_mul,
      ← dotProduct_mulVec, dotProduct_comm hkl]
    field_simp
    ring
  rw [e, npSqrt_ok (div_nonneg (dot_self_nonneg _) (by positivity)), ok_bind,
    sqrt_div (dot_self_nonneg _), sqrt_sq (by positivity)]
  rfl

/-- **C41** the spacing and the momentum transfer are those of the vector in space. -/
theorem C41_spacing (h : Valid l) {E F : Mat} (hE : Realises l E) (hF : Dual E F) {hkl : Vec}
    (hne : hkl ≠ 0) : ∃ d, l.getDSpacing hkl = .ok d ∧ 0 < d ∧ l.getQ hkl = .ok (len (vecOf F hkl)) ∧
      len (vecOf F hkl) * d = 2 * π := by
  have hp := pi_pos
  have hq : 0 < len (vecOf F hkl) := sqrt_pos.2 (vecOf_ne_zero h hE hF hne)
  have hd : l.getDSpacing hkl = .ok (2 * π / len (vecOf F hkl)) := by
    rw [dSpacing_form h hE hF, npDiv_ok (by positivity)]
    congr 1; field_simp
  refine ⟨_, hd, by positivity, ?_, by field_simp⟩
  unfold Lattice.getQ
  rw [hd]
  simp only
  rw [npDiv_ok (by positivity)]
  congr 1; field_simp

/-- **C41** the zero vector has momentum transfer zero; its spacing is no number. -/
theorem C41_origin (h : Valid l) : l.getQ 0 = .ok 0 ∧ l.getDSpacing 0 = .error .inf := by
  obtain ⟨E, F, hE, hF⟩ := valid_realised h
  have hd : l.getDSpacing 0 = .error .inf := by
    rw [dSpacing_form h hE hF]
    have : len (vecOf F 0) = 0 := by simp [len, vecOf]
    rw [this, zero_div]
    unfold npDiv
    rw [if_pos rfl, if_neg one_ne_zero]
  refine ⟨?_, hd⟩
  unfold Lattice.getQ
  rw [hd]

/-- **C41** a multiple of a vector has the spacing divided by the modulus of the factor. -/
theorem C41_scaling (h : Valid l) {hkl : Vec} (hne : hkl ≠ 0) {n : ℝ} (hn : n ≠ 0) :
    ∃ d, l.getDSpacing hkl = .ok d ∧ l.getDSpacing (n • hkl) = .ok (d / |n|) := by
  obtain ⟨E, F, hE, hF⟩ := valid_realised h
  obtain ⟨d, h1, h2, _, h4⟩ := C41_spacing h hE hF hne
  refine ⟨d, h1, ?_⟩
  have hne' : n • hkl ≠ 0 := smul_ne_zero hn hne
  obtain ⟨d', h1', h2', _, h4'⟩ := C41_spacing h hE hF hne'
  rw [h1']
  have hn' := abs_pos.2 hn
  have : len (vecOf F (n • hkl)) = |n| * len (vecOf F hkl) := by
    unfold len
    rw [show vecOf F (n • hkl) = n • vecOf F hkl by
      simp only [vecOf, Pi.smul_apply, smul_add, smul_smul, smul_eq_mul]]
    rw [smul_dotProduct, dotProduct_smul, smul_eq_mul, smul_eq_mul, ← mul_assoc,
      sqrt_mul (mul_self_nonneg n), sqrt_mul_self_eq_abs]
  rw [this] at h4'
  have hq : 0 < len (vecOf F hkl) := sqrt_pos.2 (vecOf_ne_zero h hE hF hne)
  congr 1
  rw [eq_div_iff hn'.ne']
  have : len (vecOf F hkl) * (d' * |n|) = len (vecOf F hkl) * d := by rw [h4, ← h4']; ring
  exact mul_left_cancel₀ hq.ne' this

/-- **C41** opposite vectors have the same spacing. -/
theorem C41_opposite (h : Valid l) {hkl : Vec} (hne : hkl ≠ 0) :
    l.getDSpacing (-hkl) = l.getDSpacing hkl := by
  obtain ⟨d, h1, h2⟩ := C41_scaling h hne (n := -1) (by norm_num)
  rw [h1, ← neg_one_smul ℝ hkl, h2]
  simp

/-- **C41** Bragg's law for reachable reflections. -/
theorem C41_bragg (h : Valid l) {hkl : Vec} (hne : hkl ≠ 0) {w d : ℝ}
    (hd : l.getDSpacing hkl = .ok d) (h0 : 0 ≤ w) (hw : w ≤ 2 * d) :
    ∃ t, l.getTwoTheta hkl w = .ok t ∧ 0 ≤ t ∧ t ≤ 180 ∧ w = 2 * d * sin (t / 2 * π / 180) := by
  have hp := pi_pos
  obtain ⟨E, F, hE, hF⟩ := valid_realised h
  obtain ⟨d', h1, h2, _, _⟩ := C41_spacing h hE hF hne
  rw [hd] at h1
  cases h1
  have hx0 : 0 ≤ w / 2 / d := by positivity
  have hx1 : w / 2 / d ≤ 1 := by rw [div_le_one h2]; linarith
  have ht : l.getTwoTheta hkl w = .ok (2 * rad2deg (arcsin (w / 2 / d))) := by
    unfold Lattice.getTwoTheta
    rw [hd]
    simp only
    rw [npDiv_ok h2.ne', ok_bind, npArcsin_ok ⟨by linarith, hx1⟩]
    rfl
  have a0 := arcsin_nonneg.2 hx0
  have a1 := arcsin_le_pi_div_two (w / 2 / d)
  refine ⟨_, ht, ?_, ?_, ?_⟩
  · unfold rad2deg; positivity
  · unfold rad2deg
    rw [show 2 * (arcsin (w / 2 / d) * 180 / π) = 360 * arcsin (w / 2 / d) / π by ring,
      div_le_iff₀ hp]
    linarith
  · have : 2 * rad2deg (arcsin (w / 2 / d)) / 2 * π / 180 = arcsin (w / 2 / d) := by
      unfold rad2deg; field_simp
    rw [this, sin_arcsin (by linarith) hx1]
    field_simp

/-- **C41** an unreachable reflection has no scattering angle. -/
theorem C41_unreachable (h : Valid l) {hkl : Vec} (hne : hkl ≠ 0) {w d : ℝ}
    (hd : l.getDSpacing hkl = .ok d) (hw : 2 * d < w) : l.getTwoTheta hkl w = .error .nan := by
  obtain ⟨E, F, hE, hF⟩ := valid_realised h
  obtain ⟨d', h1, h2, _, _⟩ := C41_spacing h hE hF hne
  rw [hd] at h1
  cases h1
  unfold Lattice.getTwoTheta
  rw [hd]
  simp only
  rw [npDiv_ok h2.ne', ok_bind]
  unfold npArcsin
  rw [if_neg]
  · rfl
  · rintro ⟨_, h3⟩
    rw [div_le_one h2] at h3
    linarith

/-- A triclinic cell and a reflection. -/
example : Valid ⟨5, 6, 7, 80, 95, 110⟩ ∧ (![1, 2, -1] : Vec) ≠ 0 :=
  ⟨by constructor <;> norm_num, fun h => by simpa using congrFun h 0⟩

/-! ## C42 -/

theorem cauchy (p q : Vec) : (p ⬝ᵥ q) ^ 2 ≤ (p ⬝ᵥ p) * (q ⬝ᵥ q) := by
  simp only [dotProduct, Fin.sum_univ_three]
  nlinarith [sq_nonneg (p 0 * q 1 - p 1 * q 0), sq_nonneg (p 0 * q 2 - p 2 * q 0),
    sq_nonneg (p 1 * q 2 - p 2 * q 1)]

/-- The angle in degrees between two vectors in space. -/
noncomputable def angleDeg (p q : Vec) : ℝ := arccos (p ⬝ᵥ q / (len p * len q)) * 180 / π

theorem cosine_bounds {p q : Vec} (hp : 0 < p ⬝ᵥ p) (hq : 0 < q ⬝ᵥ q) :
    -1 ≤ p ⬝ᵥ q / (len p * len q) ∧ p ⬝ᵥ q / (len p * len q) ≤ 1 := by
  have h1 : 0 < len p := sqrt_pos.2 hp
  have h2 : 0 < len q := sqrt_pos.2 hq
  have hsq : (p ⬝ᵥ q / (len p * len q)) ^ 2 ≤ 1 := by
    rw [div_pow, div_le_one (by positivity), mul_pow]
    unfold len
    rw [sq_sqrt hp.le, sq_sqrt hq.le]
    exact cauchy p q
  exact abs_le.1 ((sq_le_one_iff_abs_le_one _).1 hsq)

/-- **C42** the angle is the angle between the vectors in space. -/
theorem C42_angle (h : Valid l) {E F : Mat} (hE : Realises l E) (hF : Dual E F) {v1 v2 : Vec}
    (h1 : v1 ≠ 0) (h2 : v2 ≠ 0) :
    l.getAngleBetweenPlanes v1 v2 = .ok (angleDeg (vecOf F v1) (vecOf F v2)) := by
  have hp1 := vecOf_ne_zero h hE hF h1
  have hp2 := vecOf_ne_zero h hE hF h2
  unfold Lattice.getAngleBetweenPlanes
  rw [gstar_eq h, ok_bind]
  simp only [← vecOf_dot (dual_gram h hE hF)]
  rw [npSqrt_ok hp1.le, ok_bind, npSqrt_ok hp2.le, ok_bind, npDiv_ok (sqrt_pos.2 hp1).ne', ok_bind,
    npDiv_ok (sqrt_pos.2 hp2).ne', ok_bind, div_div]
  have := cosine_bounds hp1 hp2
  unfold len at this
  rw [npArccos_ok this]
  rfl

/-- **C42** range and symmetry. -/
theorem C42_range (h : Valid l) {v1 v2 : Vec} (h1 : v1 ≠ 0) (h2 : v2 ≠ 0) :
    ∃ φ, l.getAngleBetweenPlanes v1 v2 = .ok φ ∧ 0 ≤ φ ∧ φ ≤ 180 ∧
      l.getAngleBetweenPlanes v2 v1 = .ok φ := by
  obtain ⟨E, F, hE, hF⟩ := valid_realised h
  have hp := pi_pos
  refine ⟨_, C42_angle h hE hF h1 h2, ?_, ?_, ?_⟩
  · unfold angleDeg
    have := arccos_nonneg (vecOf F v1 ⬝ᵥ vecOf F v2 / (len (vecOf F v1) * len (vecOf F v2)))
    positivity
  · unfold angleDeg
    rw [div_le_iff₀ hp]
    nlinarith [arccos_le_pi (vecOf F v1 ⬝ᵥ vecOf F v2 / (len (vecOf F v1) * len (vecOf F v2)))]
  · rw [C42_angle h hE hF h2 h1]
    unfold angleDeg
    rw [dotProduct_comm, mul_comm (len _)]

theorem vecOf_smul (F : Mat) (n : ℝ) (p : Vec) : vecOf F (n • p) = n • vecOf F p := by
  simp only [vecOf, Pi.smul_apply, smul_add, smul_smul, smul_eq_mul]

theorem len_smul (n : ℝ) (p : Vec) : len (n • p) = |n| * len p := by
  unfold len
  rw [smul_dotProduct, dotProduct_smul, smul_eq_mul, smul_eq_mul, ← mul_assoc,
    sqrt_mul (mul_self_nonneg n), sqrt_mul_self_eq_abs]

/-- **C42** positive factors do not matter, and a negative one gives the supplement. -/
theorem C42_scaling (h : Valid l) {v1 v2 : Vec} (h1 : v1 ≠ 0) (h2 : v2 ≠ 0) {n : ℝ} :
    ∃ φ, l.getAngleBetweenPlanes v1 v2 = .ok φ ∧
      (0 < n → l.getAngleBetweenPlanes (n • v1) v2 = .ok φ) ∧
      (n < 0 → l.getAngleBetweenPlanes (n • v1) v2 = .ok (180 - φ)) := by
  obtain ⟨E, F, hE, hF⟩ := valid_realised h
  have hp := pi_pos
  have q1 := sqrt_pos.2 (vecOf_ne_zero h hE hF h1)
  have q2 := sqrt_pos.2 (vecOf_ne_zero h hE hF h2)
  refine ⟨_, C42_angle h hE hF h1 h2, ?_, ?_⟩
  · intro hn
    rw [C42_angle h hE hF (smul_ne_zero hn.ne' h1) h2]
    unfold angleDeg
    rw [vecOf_smul, len_smul, smul_dotProduct, abs_of_pos hn, smul_eq_mul, mul_assoc,
      mul_div_mul_left _ _ hn.ne']
  · intro hn
    rw [C42_angle h hE hF (smul_ne_zero hn.ne h1) h2]
    unfold angleDeg
    rw [vecOf_smul, len_smul, smul_dotProduct, abs_of_neg hn, smul_eq_mul, neg_mul, neg_mul, mul_assoc, div_neg,
      mul_div_mul_left _ _ hn.ne, arccos_neg]
    congr 1
    field_simp

/-- **C42** parallel vectors enclose 0 and antiparallel vectors 180 degrees, and only these. -/
theorem C42_parallel (h : Valid l) {v1 v2 : Vec} (h1 : v1 ≠ 0) (h2 : v2 ≠ 0) :
    (l.getAngleBetweenPlanes v1 v2 = .ok 0 ↔ ∃ n : ℝ, 0 < n ∧ v2 = n • v1) ∧
    (l.getAngleBetweenPlanes v1 v2 = .ok 180 ↔ ∃ n : ℝ, n < 0 ∧ v2 = n • v1) := by
  obtain ⟨E, F, hE, hF⟩ := valid_realised h
  have hp := pi_pos
  have w1 := vecOf_ne_zero h hE hF h1
  have w2 := vecOf_ne_zero h hE hF h2
  have q1 : 0 < len (vecOf F v1) := sqrt_pos.2 w1
  have q2 : 0 < len (vecOf F v2) := sqrt_pos.2 w2
  have s1 : len (vecOf F v1) ^ 2 = vecOf F v1 ⬝ᵥ vecOf F v1 := sq_sqrt w1.le
  have s2 : len (vecOf F v2) ^ 2 = vecOf F v2 ⬝ᵥ vecOf F v2 := sq_sqrt w2.le
  have hb := cosine_bounds w1 w2
  have h0 : l.getAngleBetweenPlanes v1 v1 = .ok 0 := by
    rw [C42_angle h hE hF h1 h1]
    unfold angleDeg
    rw [← sq, s1, div_self w1.ne', arccos_one]; simp
  -- equality case
  have heq : ∀ s : ℝ, vecOf F v1 ⬝ᵥ vecOf F v2 = s * (len (vecOf F v1) * len (vecOf F v2)) → s ^ 2 = 1 →
      v2 = (s * len (vecOf F v2) / len (vecOf F v1)) • v1 := by
    intro s hs hs2
    by_contra hne
    have hne' : v2 - (s * len (vecOf F v2) / len (vecOf F v1)) • v1 ≠ 0 := sub_ne_zero.2 hne
    have hpos := vecOf_ne_zero h hE hF hne'
    have hv : vecOf F (v2 - (s * len (vecOf F v2) / len (vecOf F v1)) • v1) =
        vecOf F v2 - (s * len (vecOf F v2) / len (vecOf F v1)) • vecOf F v1 := by
      rw [← vecOf_smul]
      simp only [vecOf, Pi.sub_apply, sub_smul]
      abel
    rw [hv] at hpos
    simp only [sub_dotProduct, dotProduct_sub, smul_dotProduct, dotProduct_smul, smul_eq_mul] at hpos
    rw [dotProduct_comm (vecOf F v2) (vecOf F v1), hs, ← s1, ← s2] at hpos
    have : s * s = 1 := by rw [← sq]; exact hs2
    have hz : len (vecOf F v2) ^ 2 - s * len (vecOf F v2) / len (vecOf F v1) *
        (s * (len (vecOf F v1) * len (vecOf F v2))) -
        s * len (vecOf F v2) / len (vecOf F v1) * (s * (len (vecOf F v1) * len (vecOf F v2)) -
        s * len (vecOf F v2) / len (vecOf F v1) * len (vecOf F v1) ^ 2) = 0 := by
      field_simp
      linear_combination (-len (vecOf F v2) ^ 2) * hs2
    linarith
  constructor
  · constructor
    · intro hz
      rw [C42_angle h hE hF h1 h2] at hz
      have hz := Except.ok.inj hz
      unfold angleDeg at hz
      have : arccos (vecOf F v1 ⬝ᵥ vecOf F v2 / (len (vecOf F v1) * len (vecOf F v2))) = 0 := by
        field_simp at hz
        linarith
      have hle := arccos_eq_zero.1 this
      have hone := le_antisymm hb.2 hle
      rw [div_eq_one_iff_eq (by positivity)] at hone
      exact ⟨_, by positivity, heq 1 (by rw [one_mul]; exact hone) (by norm_num)⟩
    · rintro ⟨n, hn, rfl⟩
      obtain ⟨φ, e1, e2, _⟩ := C42_scaling h h1 h1 (n := n)
      rw [h0] at e1
      cases e1
      obtain ⟨ψ, f1, _, _, f2⟩ := C42_range h (smul_ne_zero hn.ne' h1) h1
      rw [e2 hn] at f1
      cases f1
      exact f2
  · constructor
    · intro hz
      rw [C42_angle h hE hF h1 h2] at hz
      have hz := Except.ok.inj hz
      unfold angleDeg at hz
      have : arccos (vecOf F v1 ⬝ᵥ vecOf F v2 / (len (vecOf F v1) * len (vecOf F v2))) = π := by
        field_simp at hz
        linarith
      have hle := arccos_eq_pi.1 this
      have hone := le_antisymm hle hb.1
      rw [div_eq_iff (by positivity)] at hone
      refine ⟨-1 * len (vecOf F v2) / len (vecOf F v1), ?_, heq (-1) hone (by norm_num)⟩
      rw [neg_one_mul, neg_div, neg_lt_zero]
      positivity
    · rintro ⟨n, hn, rfl⟩
      obtain ⟨φ, e1, _, e2⟩ := C42_scaling h h1 h1 (n := n)
      rw [h0] at e1
      cases e1
      obtain ⟨ψ, f1, _, _, f2⟩ := C42_range h (smul_ne_zero hn.ne h1) h1
      rw [e2 hn, sub_zero] at f1
      cases f1
      exact f2

/-- **C42** the zero vector has no angle. -/
theorem C42_zero (h : Valid l) (v : Vec) : ∃ e, l.getAngleBetweenPlanes 0 v = .error e := by
  obtain ⟨gs, hgs, _, _, hpos⟩ := C38_inverse h
  unfold Lattice.getAngleBetweenPlanes
  rw [hgs, ok_bind]
  have hz : npSqrt ((gs *ᵥ (0 : Vec)) ⬝ᵥ (0 : Vec)) = .ok 0 := by
    rw [dotProduct_zero]; unfold npSqrt; simp
  rw [hz, ok_bind]
  have hn2 : ∃ r, npSqrt ((gs *ᵥ v) ⬝ᵥ v) = .ok r := by
    by_cases hv : v = 0
    · subst hv; exact ⟨_, hz⟩
    · exact ⟨_, npSqrt_ok (hpos v hv).le⟩
  obtain ⟨r, hr⟩ := hn2
  rw [hr, ok_bind]
  simp only [Matrix.mulVec_zero, zero_dotProduct]
  exact ⟨.nan, by unfold npDiv; rw [if_pos rfl, if_pos rfl, error_bind]⟩

end Verif.Crystal
