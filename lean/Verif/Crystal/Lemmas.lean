import Verif.Crystal.Model
import Mathlib.LinearAlgebra.Matrix.Determinant.Basic
import Mathlib.LinearAlgebra.Matrix.Adjugate
import Mathlib.Tactic.FieldSimp
import Mathlib.Tactic.LinearCombination
import Mathlib.Tactic.Positivity
import Mathlib.Tactic.FinCases

/-! # Specification of a unit cell, and helper lemmas -/

namespace Verif.Crystal

open Real Matrix

/-- A physically possible unit cell: positive lengths, and angles (in degrees) that three
vectors in space can have pairwise. -/
structure Valid (l : Lattice) : Prop where
  a_pos : 0 < l.a
  b_pos : 0 < l.b
  c_pos : 0 < l.c
  sum : l.alpha + l.beta + l.gamma < 360
  tri_a : l.alpha < l.beta + l.gamma
  tri_b : l.beta < l.alpha + l.gamma
  tri_c : l.gamma < l.alpha + l.beta

/-- Three Cartesian vectors (the rows of `E`) with the lengths and angles of the cell. -/
structure Realises (l : Lattice) (E : Mat) : Prop where
  aa : E 0 ⬝ᵥ E 0 = l.a ^ 2
  bb : E 1 ⬝ᵥ E 1 = l.b ^ 2
  cc : E 2 ⬝ᵥ E 2 = l.c ^ 2
  bc : E 1 ⬝ᵥ E 2 = l.b * l.c * cos (l.alpha * π / 180)
  ac : E 0 ⬝ᵥ E 2 = l.a * l.c * cos (l.beta * π / 180)
  ab : E 0 ⬝ᵥ E 1 = l.a * l.b * cos (l.gamma * π / 180)

/-- The rows of `F` are the reciprocal vectors of the rows of `E`. -/
def Dual (E F : Mat) : Prop := ∀ i j, F i ⬝ᵥ E j = if i = j then 2 * π else 0

/-- The scattering vector with indices `hkl` in the frame of the reciprocal vectors `F`. -/
def vecOf (F : Mat) (hkl : Vec) : Vec := hkl 0 • F 0 + hkl 1 • F 1 + hkl 2 • F 2

/-- One plus twice the product of the cosines less their squares. -/
noncomputable def disc (l : Lattice) : ℝ :=
  1 + 2 * cos l.alphaRad * cos l.betaRad * cos l.gammaRad - cos l.alphaRad ^ 2 -
    cos l.betaRad ^ 2 - cos l.gammaRad ^ 2

theorem disc_eq (x y z : ℝ) :
    1 + 2 * cos x * cos y * cos z - cos x ^ 2 - cos y ^ 2 - cos z ^ 2 =
      4 * (sin ((x + y + z) / 2) * sin ((-x + y + z) / 2) * sin ((x - y + z) / 2) *
        sin ((x + y - z) / 2)) := by
  have h1 : 2 * sin ((x + y + z) / 2) * sin ((-x + y + z) / 2) = cos x - cos (y + z) := by
    have e1 : x = (x + y + z) / 2 - (-x + y + z) / 2 := by ring
    have e2 : y + z = (x + y + z) / 2 + (-x + y + z) / 2 := by ring
    conv_rhs => rw [e2, e1, cos_add, cos_sub]
    ring_nf
  have h2 : 2 * sin ((x - y + z) / 2) * sin ((x + y - z) / 2) = cos (y - z) - cos x := by
    have e1 : y - z = (x + y - z) / 2 - (x - y + z) / 2 := by ring
    have e2 : x = (x + y - z) / 2 + (x - y + z) / 2 := by ring
    conv_rhs => rw [e1, e2, cos_add, cos_sub]
    ring_nf
  have h3 : 4 * (sin ((x + y + z) / 2) * sin ((-x + y + z) / 2) * sin ((x - y + z) / 2) *
      sin ((x + y - z) / 2)) = (cos x - cos (y + z)) * (cos (y - z) - cos x) := by
    rw [← h1, ← h2]; ring
  rw [h3, cos_add, cos_sub]
  have hy := sin_sq_add_cos_sq y
  have hz := sin_sq_add_cos_sq z
  linear_combination (cos z ^ 2 - 1) * hy - sin y ^ 2 * hz

variable {l : Lattice}

namespace Valid

theorem alpha_bounds (h : Valid l) : 0 < l.alpha ∧ l.alpha < 180 := by
  have := h.tri_a; have := h.tri_b; have := h.tri_c; have := h.sum
  constructor <;> linarith

theorem beta_bounds (h : Valid l) : 0 < l.beta ∧ l.beta < 180 := by
  have := h.tri_a; have := h.tri_b; have := h.tri_c; have := h.sum
  constructor <;> linarith

theorem gamma_bounds (h : Valid l) : 0 < l.gamma ∧ l.gamma < 180 := by
  have := h.tri_a; have := h.tri_b; have := h.tri_c; have := h.sum
  constructor <;> linarith

theorem sin_deg_pos {x : ℝ} (h0 : 0 < x) (h1 : x < 180) : 0 < sin (deg2rad x) := by
  have hπ := pi_pos
  apply sin_pos_of_pos_of_lt_pi
  · unfold deg2rad; positivity
  · unfold deg2rad
    rw [div_lt_iff₀ (by norm_num)]
    nlinarith

theorem sa (h : Valid l) : 0 < sin l.alphaRad := sin_deg_pos h.alpha_bounds.1 h.alpha_bounds.2
theorem sb (h : Valid l) : 0 < sin l.betaRad := sin_deg_pos h.beta_bounds.1 h.beta_bounds.2
theorem sg (h : Valid l) : 0 < sin l.gammaRad := sin_deg_pos h.gamma_bounds.1 h.gamma_bounds.2

theorem halfProd_pos (h : Valid l) :
    0 < sin ((l.alphaRad + l.betaRad + l.gammaRad) / 2) *
      sin ((-l.alphaRad + l.betaRad + l.gammaRad) / 2) *
      sin ((l.alphaRad - l.betaRad + l.gammaRad) / 2) *
      sin ((l.alphaRad + l.betaRad - l.gammaRad) / 2) := by
  have := h.alpha_bounds; have := h.beta_bounds; have := h.gamma_bounds
  have h1 := h.tri_a; have h2 := h.tri_b; have h3 := h.tri_c; have h4 := h.sum
  have e1 : (l.alphaRad + l.betaRad + l.gammaRad) / 2 =
      deg2rad ((l.alpha + l.beta + l.gamma) / 2) := by
    unfold Lattice.alphaRad Lattice.betaRad Lattice.gammaRad deg2rad; ring
  have e2 : (-l.alphaRad + l.betaRad + l.gammaRad) / 2 =
      deg2rad ((-l.alpha + l.beta + l.gamma) / 2) := by
    unfold Lattice.alphaRad Lattice.betaRad Lattice.gammaRad deg2rad; ring
  have e3 : (l.alphaRad - l.betaRad + l.gammaRad) / 2 =
      deg2rad ((l.alpha - l.beta + l.gamma) / 2) := by
    unfold Lattice.alphaRad Lattice.betaRad Lattice.gammaRad deg2rad; ring
  have e4 : (l.alphaRad + l.betaRad - l.gammaRad) / 2 =
      deg2rad ((l.alpha + l.beta - l.gamma) / 2) := by
    unfold Lattice.alphaRad Lattice.betaRad Lattice.gammaRad deg2rad; ring
  rw [e1, e2, e3, e4]
  have p1 := sin_deg_pos (x := (l.alpha + l.beta + l.gamma) / 2) (by linarith) (by linarith)
  have p2 := sin_deg_pos (x := (-l.alpha + l.beta + l.gamma) / 2) (by linarith) (by linarith)
  have p3 := sin_deg_pos (x := (l.alpha - l.beta + l.gamma) / 2) (by linarith) (by linarith)
  have p4 := sin_deg_pos (x := (l.alpha + l.beta - l.gamma) / 2) (by linarith) (by linarith)
  positivity

theorem disc_pos (h : Valid l) : 0 < disc l := by
  unfold disc
  rw [disc_eq]
  have := h.halfProd_pos
  linarith

end Valid

theorem det_G (l : Lattice) : l.G.det = (l.a * l.b * l.c) ^ 2 * disc l := by
  rw [Matrix.det_fin_three]
  simp [Lattice.G, disc]
  ring

theorem Valid.det_pos (h : Valid l) : 0 < l.G.det := by
  rw [det_G]
  have := h.disc_pos; have := h.a_pos; have := h.b_pos; have := h.c_pos
  positivity

/-- The reciprocal metric tensor, entry by entry. -/
noncomputable def gstarOf (l : Lattice) : Mat :=
  (4 * π ^ 2 / disc l) •
  !![sin l.alphaRad ^ 2 / l.a ^ 2,
      (cos l.alphaRad * cos l.betaRad - cos l.gammaRad) / (l.a * l.b),
      (cos l.alphaRad * cos l.gammaRad - cos l.betaRad) / (l.a * l.c);
     (cos l.alphaRad * cos l.betaRad - cos l.gammaRad) / (l.a * l.b),
      sin l.betaRad ^ 2 / l.b ^ 2,
      (cos l.betaRad * cos l.gammaRad - cos l.alphaRad) / (l.b * l.c);
     (cos l.alphaRad * cos l.gammaRad - cos l.betaRad) / (l.a * l.c),
      (cos l.betaRad * cos l.gammaRad - cos l.alphaRad) / (l.b * l.c),
      sin l.gammaRad ^ 2 / l.c ^ 2]

theorem gstarOf_mul (h : Valid l) : gstarOf l * l.G = (4 * π ^ 2) • (1 : Mat) := by
  have hd := h.disc_pos.ne'
  have ha := h.a_pos.ne'; have hb := h.b_pos.ne'; have hc := h.c_pos.ne'
  have key : !![sin l.alphaRad ^ 2 / l.a ^ 2,
      (cos l.alphaRad * cos l.betaRad - cos l.gammaRad) / (l.a * l.b),
      (cos l.alphaRad * cos l.gammaRad - cos l.betaRad) / (l.a * l.c);
     (cos l.alphaRad * cos l.betaRad - cos l.gammaRad) / (l.a * l.b),
      sin l.betaRad ^ 2 / l.b ^ 2,
      (cos l.betaRad * cos l.gammaRad - cos l.alphaRad) / (l.b * l.c);
     (cos l.alphaRad * cos l.gammaRad - cos l.betaRad) / (l.a * l.c),
      (cos l.betaRad * cos l.gammaRad - cos l.alphaRad) / (l.b * l.c),
      sin l.gammaRad ^ 2 / l.c ^ 2] * l.G = disc l • (1 : Mat) := by
    simp only [sin_sq]
    ext i j
    fin_cases i <;> fin_cases j <;>
      simp [Matrix.mul_apply, Fin.sum_univ_three, Lattice.G, disc] <;> field_simp <;> ring
  rw [gstarOf, smul_mul_assoc, key, smul_smul]
  congr 1
  field_simp

theorem gstar_eq (h : Valid l) : l.Gstar = .ok (gstarOf l) := by
  unfold Lattice.Gstar
  rw [if_neg h.det_pos.ne']
  have hu : IsUnit l.G.det := isUnit_iff_ne_zero.2 h.det_pos.ne'
  have hπ : (4 * π ^ 2 : ℝ) ≠ 0 := by positivity
  have : gstarOf l = (4 * π ^ 2) • (l.G)⁻¹ := by
    calc gstarOf l = gstarOf l * l.G * (l.G)⁻¹ := by
          rw [Matrix.mul_assoc, Matrix.mul_nonsing_inv _ hu, Matrix.mul_one]
      _ = _ := by rw [gstarOf_mul h, smul_mul_assoc, Matrix.one_mul]
  rw [this]

/-- The volume of the cell. -/
noncomputable def volOf (l : Lattice) : ℝ := l.a * l.b * l.c * √(disc l)

theorem volOf_pos (h : Valid l) : 0 < volOf l := by
  have := h.a_pos; have := h.b_pos; have := h.c_pos
  have := sqrt_pos.2 h.disc_pos
  unfold volOf; positivity

theorem volume_eq (h : Valid l) : l.volume = .ok (volOf l) := by
  have := h.a_pos; have := h.b_pos; have := h.c_pos
  unfold Lattice.volume npSqrt
  rw [if_pos h.det_pos.le, det_G, sqrt_mul (by positivity), sqrt_sq (by positivity)]
  rfl

theorem npDiv_ok {x y : ℝ} (h : y ≠ 0) : npDiv x y = .ok (x / y) := by
  unfold npDiv; rw [if_neg h]

theorem npSqrt_ok {x : ℝ} (h : 0 ≤ x) : npSqrt x = .ok (√x) := by
  unfold npSqrt; rw [if_pos h]

theorem npArccos_ok {x : ℝ} (h : -1 ≤ x ∧ x ≤ 1) : npArccos x = .ok (arccos x) := by
  unfold npArccos; rw [if_pos h]

theorem npArcsin_ok {x : ℝ} (h : -1 ≤ x ∧ x ≤ 1) : npArcsin x = .ok (arcsin x) := by
  unfold npArcsin; rw [if_pos h]

theorem astar_eq (h : Valid l) :
    l.astar = .ok (2 * π * sin l.alphaRad / (l.a * √(disc l))) := by
  unfold Lattice.astar
  rw [volume_eq h, ok_bind, npDiv_ok (volOf_pos h).ne', ok_bind, pure_ok]
  have := h.a_pos.ne'; have := h.b_pos.ne'; have := h.c_pos.ne'
  have := (sqrt_pos.2 h.disc_pos).ne'
  unfold volOf
  congr 1; field_simp

theorem bstar_eq (h : Valid l) :
    l.bstar = .ok (2 * π * sin l.betaRad / (l.b * √(disc l))) := by
  unfold Lattice.bstar
  rw [volume_eq h, ok_bind, npDiv_ok (volOf_pos h).ne', ok_bind, pure_ok]
  have := h.a_pos.ne'; have := h.b_pos.ne'; have := h.c_pos.ne'
  have := (sqrt_pos.2 h.disc_pos).ne'
  unfold volOf
  congr 1; field_simp

theorem cstar_eq (h : Valid l) :
    l.cstar = .ok (2 * π * sin l.gammaRad / (l.c * √(disc l))) := by
  unfold Lattice.cstar
  rw [volume_eq h, ok_bind, npDiv_ok (volOf_pos h).ne', ok_bind, pure_ok]
  have := h.a_pos.ne'; have := h.b_pos.ne'; have := h.c_pos.ne'
  have := (sqrt_pos.2 h.disc_pos).ne'
  unfold volOf
  congr 1; field_simp

/-- A reciprocal angle: its cosine and its sine. -/
theorem recip_angle {x y z : ℝ} (hy : 0 < sin y) (hz : 0 < sin z)
    (hd : 0 < 1 + 2 * cos x * cos y * cos z - cos x ^ 2 - cos y ^ 2 - cos z ^ 2) :
    -1 < (cos y * cos z - cos x) / (sin y * sin z) ∧ (cos y * cos z - cos x) / (sin y * sin z) < 1 ∧
    sin (arccos ((cos y * cos z - cos x) / (sin y * sin z))) =
      √(1 + 2 * cos x * cos y * cos z - cos x ^ 2 - cos y ^ 2 - cos z ^ 2) / (sin y * sin z) := by
  have hp : 0 < sin y * sin z := by positivity
  have e : 1 - ((cos y * cos z - cos x) / (sin y * sin z)) ^ 2 =
      (1 + 2 * cos x * cos y * cos z - cos x ^ 2 - cos y ^ 2 - cos z ^ 2) / (sin y * sin z) ^ 2 := by
    rw [div_pow, one_sub_div (by positivity)]
    congr 1
    rw [mul_pow, sin_sq, sin_sq]; ring
  have hlt : ((cos y * cos z - cos x) / (sin y * sin z)) ^ 2 < 1 := by
    have : 0 < (1 + 2 * cos x * cos y * cos z - cos x ^ 2 - cos y ^ 2 - cos z ^ 2) /
        (sin y * sin z) ^ 2 := by positivity
    linarith
  have habs := abs_lt.1 ((sq_lt_one_iff_abs_lt_one _).1 hlt)
  refine ⟨habs.1, habs.2, ?_⟩
  rw [sin_arccos, e, sqrt_div hd.le, sqrt_sq hp.le]

theorem alphastar_eq (h : Valid l) : l.alphastarRad =
    .ok (arccos ((cos l.betaRad * cos l.gammaRad - cos l.alphaRad) /
      (sin l.betaRad * sin l.gammaRad))) := by
  obtain ⟨h1, h2, _⟩ := recip_angle (x := l.alphaRad) h.sb h.sg h.disc_pos
  unfold Lattice.alphastarRad
  rw [npDiv_ok (mul_pos h.sb h.sg).ne', ok_bind, npArccos_ok ⟨h1.le, h2.le⟩]

theorem Valid.disc_b (h : Valid l) : 0 < 1 + 2 * cos l.betaRad * cos l.alphaRad * cos l.gammaRad -
    cos l.betaRad ^ 2 - cos l.alphaRad ^ 2 - cos l.gammaRad ^ 2 := by
  have := h.disc_pos; unfold disc at this; nlinarith

theorem Valid.disc_g (h : Valid l) : 0 < 1 + 2 * cos l.gammaRad * cos l.alphaRad * cos l.betaRad -
    cos l.gammaRad ^ 2 - cos l.alphaRad ^ 2 - cos l.betaRad ^ 2 := by
  have := h.disc_pos; unfold disc at this; nlinarith

theorem betastar_eq (h : Valid l) : l.betastarRad =
    .ok (arccos ((cos l.alphaRad * cos l.gammaRad - cos l.betaRad) /
      (sin l.alphaRad * sin l.gammaRad))) := by
  obtain ⟨h1, h2, _⟩ := recip_angle (x := l.betaRad) h.sa h.sg h.disc_b
  unfold Lattice.betastarRad
  rw [npDiv_ok (mul_pos h.sa h.sg).ne', ok_bind, npArccos_ok ⟨h1.le, h2.le⟩]

theorem gammastar_eq (h : Valid l) : l.gammastarRad =
    .ok (arccos ((cos l.alphaRad * cos l.betaRad - cos l.gammaRad) /
      (sin l.alphaRad * sin l.betaRad))) := by
  obtain ⟨h1, h2, _⟩ := recip_angle (x := l.gammaRad) h.sa h.sb h.disc_g
  unfold Lattice.gammastarRad
  rw [npDiv_ok (mul_pos h.sa h.sb).ne', ok_bind, npArccos_ok ⟨h1.le, h2.le⟩]

theorem cos_alphastar (h : Valid l) {x : ℝ} (hx : l.alphastarRad = .ok x) :
    cos x = (cos l.betaRad * cos l.gammaRad - cos l.alphaRad) / (sin l.betaRad * sin l.gammaRad) ∧
    sin x = √(disc l) / (sin l.betaRad * sin l.gammaRad) ∧ 0 < x ∧ x < π := by
  obtain ⟨h1, h2, h3⟩ := recip_angle (x := l.alphaRad) h.sb h.sg h.disc_pos
  rw [alphastar_eq h] at hx
  cases hx
  exact ⟨cos_arccos h1.le h2.le, h3, arccos_pos.2 h2, arccos_lt_pi.2 h1⟩

theorem cos_betastar (h : Valid l) {x : ℝ} (hx : l.betastarRad = .ok x) :
    cos x = (cos l.alphaRad * cos l.gammaRad - cos l.betaRad) / (sin l.alphaRad * sin l.gammaRad) ∧
    sin x = √(disc l) / (sin l.alphaRad * sin l.gammaRad) ∧ 0 < x ∧ x < π := by
  obtain ⟨h1, h2, h3⟩ := recip_angle (x := l.betaRad) h.sa h.sg h.disc_b
  rw [betastar_eq h] at hx
  cases hx
  refine ⟨cos_arccos h1.le h2.le, ?_, arccos_pos.2 h2, arccos_lt_pi.2 h1⟩
  rw [h3]; congr 2; unfold disc; ring

theorem cos_gammastar (h : Valid l) {x : ℝ} (hx : l.gammastarRad = .ok x) :
    cos x = (cos l.alphaRad * cos l.betaRad - cos l.gammaRad) / (sin l.alphaRad * sin l.betaRad) ∧
    sin x = √(disc l) / (sin l.alphaRad * sin l.betaRad) ∧ 0 < x ∧ x < π := by
  obtain ⟨h1, h2, h3⟩ := recip_angle (x := l.gammaRad) h.sa h.sb h.disc_g
  rw [gammastar_eq h] at hx
  cases hx
  refine ⟨cos_arccos h1.le h2.le, ?_, arccos_pos.2 h2, arccos_lt_pi.2 h1⟩
  rw [h3]; congr 2; unfold disc; ring

/-! ## Cartesian realisations -/

theorem realises_gram {E : Mat} (h : Realises l E) : E * Eᵀ = l.G := by
  have h1 : ∀ i j, (E * Eᵀ) i j = E i ⬝ᵥ E j := fun i j => rfl
  ext i j
  rw [h1]
  fin_cases i <;> fin_cases j <;>
    simp only [Fin.zero_eta, Fin.mk_one, Fin.reduceFinMk, Lattice.G, Matrix.of_apply, Matrix.cons_val,
      h.aa, h.bb, h.cc, h.ab, h.ac, h.bc, dotProduct_comm (E 1) (E 0), dotProduct_comm (E 2) (E 0),
      dotProduct_comm (E 2) (E 1)] <;> rfl

theorem dual_gram {E F : Mat} (hv : Valid l) (h : Realises l E) (hd : Dual E F) :
    F * Fᵀ = gstarOf l := by
  have h1 : F * Eᵀ = (2 * π) • (1 : Mat) := by
    ext i j
    have : (F * Eᵀ) i j = F i ⬝ᵥ E j := rfl
    rw [this, hd i j]
    simp [Matrix.one_apply]
  have h2 : E * Fᵀ = (2 * π) • (1 : Mat) := by
    have := congrArg Matrix.transpose h1
    simpa using this
  -- E is invertible
  have hE : IsUnit E.det := by
    have : E.det * E.det = l.G.det := by
      rw [← realises_gram h, Matrix.det_mul, Matrix.det_transpose]
    apply isUnit_iff_ne_zero.2
    intro h0
    rw [h0, zero_mul] at this
    exact hv.det_pos.ne this
  have hG : IsUnit l.G.det := isUnit_iff_ne_zero.2 hv.det_pos.ne'
  have h3 : F * Fᵀ * l.G = (4 * π ^ 2) • (1 : Mat) := by
    -- Fᵀ E = 2π as well
    have h4 : Fᵀ * E = (2 * π) • (1 : Mat) := by
      have : E * (Fᵀ * E) = E * ((2 * π) • (1 : Mat)) := by
        rw [← Matrix.mul_assoc, h2]; simp
      have := congrArg (E⁻¹ * ·) this
      simpa [← Matrix.mul_assoc, Matrix.nonsing_inv_mul E hE] using this
    rw [← realises_gram h, Matrix.mul_assoc, ← Matrix.mul_assoc Fᵀ, h4]
    simp only [Matrix.smul_mul, Matrix.one_mul, Matrix.mul_smul, h1, smul_smul]
    congr 1; ring
  calc F * Fᵀ = F * Fᵀ * l.G * (l.G)⁻¹ := by
        rw [Matrix.mul_assoc, Matrix.mul_nonsing_inv _ hG, Matrix.mul_one]
    _ = gstarOf l * l.G * (l.G)⁻¹ := by rw [h3, gstarOf_mul hv]
    _ = gstarOf l := by rw [Matrix.mul_assoc, Matrix.mul_nonsing_inv _ hG, Matrix.mul_one]

theorem vecOf_dot {F : Mat} {M : Mat} (h : F * Fᵀ = M) (p q : Vec) :
    vecOf F p ⬝ᵥ vecOf F q = (M *ᵥ p) ⬝ᵥ q := by
  rw [← h]
  simp only [vecOf, Matrix.mulVec, dotProduct, Matrix.mul_apply, Fin.sum_univ_three,
    Matrix.transpose_apply, Pi.add_apply, Pi.smul_apply, smul_eq_mul]
  ring

end Verif.Crystal
