import Verif.Crystal.Lemmas
import Mathlib.LinearAlgebra.Matrix.ToLinearEquiv
import Mathlib.LinearAlgebra.Matrix.DotProduct

/-!
# Properties C38 to C42: the unit cell

The specification is Cartesian: three vectors in space with the given lengths and angles,
and their reciprocal vectors.
-/

namespace Verif.Crystal

open Real Matrix

variable {l : Lattice}

/-- Cartesian vectors with the lengths and angles of the cell. -/
noncomputable def cartesian (l : Lattice) : Mat :=
  !![l.a, 0, 0;
     l.b * cos l.gammaRad, l.b * sin l.gammaRad, 0;
     l.c * cos l.betaRad, l.c * ((cos l.alphaRad - cos l.betaRad * cos l.gammaRad) / sin l.gammaRad),
       l.c * (√(disc l) / sin l.gammaRad)]

/-- Every valid cell is the cell of three vectors in space. -/
theorem valid_realised (h : Valid l) : ∃ E F, Realises l E ∧ Dual E F := by
  have hg := h.sg.ne'
  have hd := sq_sqrt h.disc_pos.le
  have hR : Realises l (cartesian l) := by
    have hs := sin_sq_add_cos_sq l.gammaRad
    constructor
    · simp [cartesian, dotProduct, Fin.sum_univ_three]; ring
    · simp [cartesian, dotProduct, Fin.sum_univ_three]
      linear_combination l.b ^ 2 * hs
    · simp only [cartesian, dotProduct, Fin.sum_univ_three, Matrix.of_apply, Matrix.cons_val]
      field_simp
      rw [hd]
      unfold disc
      rw [sin_sq]
      ring
    · change _ = l.b * l.c * cos l.alphaRad
      simp only [cartesian, dotProduct, Fin.sum_univ_three, Matrix.of_apply, Matrix.cons_val]
      field_simp
      ring
    · change _ = l.a * l.c * cos l.betaRad
      simp [cartesian, dotProduct, Fin.sum_univ_three]; ring
    · change _ = l.a * l.b * cos l.gammaRad
      simp [cartesian, dotProduct, Fin.sum_univ_three]; ring
  have hE : IsUnit (cartesian l).det := by
    have : (cartesian l).det * (cartesian l).det = l.G.det := by
      rw [← realises_gram hR, Matrix.det_mul, Matrix.det_transpose]
    apply isUnit_iff_ne_zero.2
    intro h0
    rw [h0, zero_mul] at this
    exact h.det_pos.ne this
  refine ⟨cartesian l, (2 * π) • ((cartesian l)⁻¹)ᵀ, hR, ?_⟩
  intro i j
  have : ((2 * π) • ((cartesian l)⁻¹)ᵀ) i ⬝ᵥ (cartesian l) j =
      (2 * π) * ((cartesian l) * (cartesian l)⁻¹) j i := by
    simp only [dotProduct, Matrix.mul_apply, Fin.sum_univ_three, Matrix.smul_apply,
      Matrix.transpose_apply, smul_eq_mul]
    ring
  rw [this, Matrix.mul_nonsing_inv _ hE, Matrix.one_apply]
  by_cases hij : i = j
  · simp [hij]
  · rw [if_neg (fun h => hij h.symm), if_neg hij, mul_zero]

/-- A cell with no right angle and no equal lengths. -/
example : Valid ⟨5, 6, 7, 80, 95, 110⟩ := by constructor <;> norm_num

/-- The metric form is positive definite. -/
theorem gram_pos {M F : Mat} (h : F * Fᵀ = M) (hdet : M.det ≠ 0) {x : Vec} (hx : x ≠ 0) :
    0 < (M *ᵥ x) ⬝ᵥ x := by
  rw [← vecOf_dot h]
  have hF : F.det ≠ 0 := by
    intro h0
    apply hdet
    rw [← h, Matrix.det_mul, h0, zero_mul]
  have hv : vecOf F x = x ᵥ* F := by
    funext i
    simp [vecOf, Matrix.vecMul, dotProduct, Fin.sum_univ_three]
  have hne : vecOf F x ≠ 0 := by
    rw [hv]
    intro h0
    exact hx (Matrix.eq_zero_of_vecMul_eq_zero hF h0)
  have hnn : 0 ≤ vecOf F x ⬝ᵥ vecOf F x := by
    simp only [dotProduct, Fin.sum_univ_three]
    nlinarith [sq_nonneg (vecOf F x 0), sq_nonneg (vecOf F x 1), sq_nonneg (vecOf F x 2)]
  refine lt_of_le_of_ne hnn fun h0 => hne ?_
  exact dotProduct_self_eq_zero.1 h0.symm

/-- **C38** the direct metric tensor is symmetric and positive definite. -/
theorem C38_metric (h : Valid l) : (l.G)ᵀ = l.G ∧ ∀ x : Vec, x ≠ 0 → 0 < (l.G *ᵥ x) ⬝ᵥ x := by
  obtain ⟨E, F, hE, _⟩ := valid_realised h
  refine ⟨?_, fun x hx => gram_pos (realises_gram hE) h.det_pos.ne' hx⟩
  rw [← realises_gram hE]; simp

/-- **C38** the reciprocal metric tensor is the inverse of the direct one up to `4 π²`,
symmetric and positive definite. -/
theorem C38_inverse (h : Valid l) : ∃ gs, l.Gstar = .ok gs ∧ gs * l.G = (4 * π ^ 2) • (1 : Mat) ∧
    gsᵀ = gs ∧ ∀ x : Vec, x ≠ 0 → 0 < (gs *ᵥ x) ⬝ᵥ x := by
  obtain ⟨E, F, hE, hF⟩ := valid_realised h
  have hg := dual_gram h hE hF
  have hdet : (gstarOf l).det ≠ 0 := by
    intro h0
    have := congrArg Matrix.det (gstarOf_mul h)
    rw [Matrix.det_mul, h0, zero_mul, Matrix.det_smul, Matrix.det_one] at this
    have hp := pi_pos
    have : (0 : ℝ) < (4 * π ^ 2) ^ Fintype.card (Fin 3) * 1 := by positivity
    linarith
  refine ⟨gstarOf l, gstar_eq h, gstarOf_mul h, ?_, fun x hx => gram_pos hg hdet hx⟩
  rw [← hg]; simp

/-- **C38** the volume is the volume spanned by the cell vectors. -/
theorem C38_volume (h : Valid l) {E : Mat} (hE : Realises l E) :
    ∃ v, l.volume = .ok v ∧ 0 < v ∧ v = |E.det| ∧
      v ^ 2 = l.a ^ 2 * l.b ^ 2 * l.c ^ 2 * (1 + 2 * cos l.alphaRad * cos l.betaRad * cos l.gammaRad -
        cos l.alphaRad ^ 2 - cos l.betaRad ^ 2 - cos l.gammaRad ^ 2) := by
  have hs := sq_sqrt h.disc_pos.le
  have h2 : volOf l ^ 2 = (l.a * l.b * l.c) ^ 2 * disc l := by
    unfold volOf; rw [mul_pow, hs]
  refine ⟨volOf l, volume_eq h, volOf_pos h, ?_, ?_⟩
  · rw [← abs_of_pos (volOf_pos h), ← sq_eq_sq_iff_abs_eq_abs, h2, ← det_G, ← realises_gram hE,
      Matrix.det_mul, Matrix.det_transpose, sq]
  · rw [h2]; unfold disc; ring

/-- **C38** the two volumes multiply to `(2 π)³`. -/
theorem C38_reciprocal_volume (h : Valid l) :
    ∃ v w, l.volume = .ok v ∧ l.reciprocalVolume = .ok w ∧ v * w = (2 * π) ^ 3 := by
  have hp := pi_pos
  have hdet : (gstarOf l).det * l.G.det = (4 * π ^ 2) ^ 3 := by
    rw [← Matrix.det_mul, gstarOf_mul h, Matrix.det_smul, Matrix.det_one]; simp
  have hpos : 0 < (gstarOf l).det := by
    have h1 := h.det_pos
    have : 0 < (gstarOf l).det * l.G.det := by rw [hdet]; positivity
    exact pos_of_mul_pos_left this h1.le
  refine ⟨_, √((gstarOf l).det), by unfold Lattice.volume; exact npSqrt_ok h.det_pos.le, ?_, ?_⟩
  · unfold Lattice.reciprocalVolume
    rw [gstar_eq h, ok_bind, npSqrt_ok hpos.le]
  · rw [← sqrt_mul h.det_pos.le, mul_comm, hdet, show ((4 * π ^ 2) ^ 3 : ℝ) = ((2 * π) ^ 3) ^ 2 by ring,
      sqrt_sq (by positivity)]

/-- **C39** the reciprocal constants describe the reciprocal metric. -/
theorem C39_reciprocal_constants (h : Valid l) : ∃ as bs cs al be ga gs,
    l.astar = .ok as ∧ l.bstar = .ok bs ∧ l.cstar = .ok cs ∧
    l.alphastarRad = .ok al ∧ l.betastarRad = .ok be ∧ l.gammastarRad = .ok ga ∧
    l.Gstar = .ok gs ∧ 0 < as ∧ 0 < bs ∧ 0 < cs ∧ 0 < al ∧ al < π ∧ 0 < be ∧ be < π ∧ 0 < ga ∧ ga < π ∧
    gs = !![as ^ 2, as * bs * cos ga, as * cs * cos be;
            as * bs * cos ga, bs ^ 2, bs * cs * cos al;
            as * cs * cos be, bs * cs * cos al, cs ^ 2] := by
  have hp := pi_pos
  have ha := h.a_pos; have hb := h.b_pos; have hc := h.c_pos
  have hsa := h.sa; have hsb := h.sb; have hsg := h.sg
  have hdp := h.disc_pos
  have hr := sqrt_pos.2 hdp
  obtain ⟨ca, _, a0, a1⟩ := cos_alphastar h (alphastar_eq h)
  obtain ⟨cb, _, b0, b1⟩ := cos_betastar h (betastar_eq h)
  obtain ⟨cg, _, g0, g1⟩ := cos_gammastar h (gammastar_eq h)
  refine ⟨_, _, _, _, _, _, _, astar_eq h, bstar_eq h, cstar_eq h, alphastar_eq h, betastar_eq h,
    gammastar_eq h, gstar_eq h, by positivity, by positivity, by positivity, a0, a1, b0, b1, g0, g1, ?_⟩
  rw [ca, cb, cg]
  have hd := sq_sqrt h.disc_pos.le
  unfold gstarOf
  ext i j
  fin_cases i <;> fin_cases j <;>
    simp only [Fin.zero_eta, Fin.mk_one, Fin.reduceFinMk, Matrix.smul_apply, Matrix.of_apply,
      Matrix.cons_val, smul_eq_mul] <;> field_simp <;> (try rw [hd]) <;> ring

/-- **C39** the reciprocal constants are the lengths of, and the angles between, the reciprocal
vectors. -/
theorem C39_cartesian (h : Valid l) {E F : Mat} (hE : Realises l E) (hF : Dual E F) :
    ∃ as bs cs al be ga, l.astar = .ok as ∧ l.bstar = .ok bs ∧ l.cstar = .ok cs ∧
      l.alphastar = .ok al ∧ l.betastar = .ok be ∧ l.gammastar = .ok ga ∧
      Realises ⟨as, bs, cs, al, be, ga⟩ F ∧ 0 < al ∧ al < 180 ∧ 0 < be ∧ be < 180 ∧ 0 < ga ∧ ga < 180 := by
  obtain ⟨as, bs, cs, al, be, ga, gs, h1, h2, h3, h4, h5, h6, h7, _, _, _, a0, a1, b0, b1, g0, g1, hgs⟩ :=
    C39_reciprocal_constants h
  have hg := dual_gram h hE hF
  rw [gstar_eq h] at h7
  cases h7
  have hgram : ∀ i j, F i ⬝ᵥ F j = (F * Fᵀ) i j := fun i j => rfl
  have hp := pi_pos
  have hdeg : ∀ x : ℝ, rad2deg x * π / 180 = x := by
    intro x; unfold rad2deg; field_simp
  have hb : ∀ x : ℝ, 0 < x → x < π → 0 < rad2deg x ∧ rad2deg x < 180 := by
    intro x h0 h1
    unfold rad2deg
    refine ⟨by positivity, ?_⟩
    rw [div_lt_iff₀ hp]; linarith
  refine ⟨as, bs, cs, rad2deg al, rad2deg be, rad2deg ga, h1, h2, h3, ?_, ?_, ?_, ?_, (hb _ a0 a1).1,
    (hb _ a0 a1).2, (hb _ b0 b1).1, (hb _ b0 b1).2, (hb _ g0 g1).1, (hb _ g0 g1).2⟩
  · unfold Lattice.alphastar; rw [h4]; rfl
  · unfold Lattice.betastar; rw [h5]; rfl
  · unfold Lattice.gammastar; rw [h6]; rfl
  · constructor <;> rw [hgram, hg, hgs] <;> simp [hdeg]

/-! ## B matrix -/

theorem bmatrix_eq (h : Valid l) {al : ℝ} (hal : l.alphastarRad = .ok al) :
    ∃ as bs cs be ga, l.astar = .ok as ∧ l.bstar = .ok bs ∧ l.cstar = .ok cs ∧
      l.betastarRad = .ok be ∧ l.gammastarRad = .ok ga ∧
    l.Bmatrix = .ok !![as, bs * cos ga, cs * cos be;
          0, bs * sin ga, -cs * sin be * cos l.alphaRad;
          0, 0, cs * sin be * sin al] := by
  refine ⟨_, _, _, _, _, astar_eq h, bstar_eq h, cstar_eq h, betastar_eq h, gammastar_eq h, ?_⟩
  unfold Lattice.Bmatrix
  rw [astar_eq h, bstar_eq h, cstar_eq h, hal, betastar_eq h, gammastar_eq h]
  rfl

/-- `Bᵀ B` differs from `Gstar` at most in the last entry. -/
theorem bmatrix_gram (h : Valid l) {al : ℝ} (hal : l.alphastarRad = .ok al) :
    ∃ B cs be, l.Bmatrix = .ok B ∧ l.cstar = .ok cs ∧ l.betastarRad = .ok be ∧
      0 < cs * sin be ∧
      Bᵀ * B = gstarOf l +
        !![0, 0, 0; 0, 0, 0; 0, 0, (cs * sin be) ^ 2 * (sin al ^ 2 - sin l.alphaRad ^ 2)] := by
  obtain ⟨as, bs, cs, be, ga, h1, h2, h3, h5, h6, hB⟩ := bmatrix_eq h hal
  have hp := pi_pos
  have ha := h.a_pos; have hb := h.b_pos; have hc := h.c_pos
  have hsa := h.sa; have hsb := h.sb; have hsg := h.sg
  have hr := sqrt_pos.2 h.disc_pos
  obtain ⟨cb, sb, b0, b1⟩ := cos_betastar h h5
  obtain ⟨cg, sg, _, _⟩ := cos_gammastar h h6
  have hdn := h.disc_pos.ne'
  have hd := sq_sqrt h.disc_pos.le
  rw [astar_eq h] at h1; rw [bstar_eq h] at h2
  have h3' := h3
  rw [cstar_eq h] at h3
  cases h1; cases h2; cases h3
  refine ⟨_, _, be, hB, h3', h5, ?_, ?_⟩
  · have := sin_pos_of_pos_of_lt_pi b0 b1
    positivity
  · rw [cb, sb, cg, sg]
    have e1 := sin_sq l.alphaRad
    have e2 := sin_sq l.betaRad
    have e3 := sin_sq l.gammaRad
    unfold gstarOf
    ext i j
    fin_cases i <;> fin_cases j <;>
      simp only [Fin.zero_eta, Fin.mk_one, Fin.reduceFinMk, Matrix.mul_apply, Fin.sum_univ_three,
        Matrix.transpose_apply, Matrix.add_apply, Matrix.smul_apply, Matrix.of_apply,
        Matrix.cons_val, smul_eq_mul] <;> field_simp <;> (try rw [hd]) <;>
      (try simp only [e1, e2, e3]) <;> (try unfold disc) <;> ring

end Verif.Crystal
