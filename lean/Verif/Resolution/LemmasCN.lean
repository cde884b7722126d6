import Verif.Resolution.Lemmas

/-! # Helper lemmas: the Cooper-Nathans and Popovici forms are positive definite -/

namespace Verif.Resolution

open Real Matrix
open Verif.Crystal (Fail npSqrt npArcsin npDiv)
open Verif.Tools (arctan2 quad SPD)

theorem sqpos {x : ℝ} (h : x ≠ 0) : 0 < x ^ 2 := by positivity

/-- The divergences are not zero. -/
structure Loop.Good (l : Loop) : Prop where
  alpha : ∀ i, l.alpha i ≠ 0
  beta : ∀ i, l.beta i ≠ 0

/-- The radii of curvature are not zero. -/
structure Loop.Curved (l : Loop) : Prop where
  monorh : l.monorh ≠ 0
  monorv : l.monorv ≠ 0
  anarh : l.anarh ≠ 0
  anarv : l.anarv ≠ 0

theorem cnH_posDef {c : Conf} {l : Loop} (hc : c.Mosaics) (hl : l.Good) (k : Kin) :
    (matG l + (matC k)ᵀ * matF c * matC k).PosDef :=
  (matG_posDef hl.alpha hl.beta).add_posSemidef (gram_posSemidef (matF_posDef hc) _)

theorem comm_inv {n : ℕ} {X H : Matrix (Fin n) (Fin n) ℝ} (hH : H.PosDef) (h : X * H = H * X) :
    X * H⁻¹ = H⁻¹ * X := by
  have hu : IsUnit H.det := hH.det_pos.ne'.isUnit
  calc X * H⁻¹ = H⁻¹ * (H * X) * H⁻¹ := by rw [nonsing_inv_mul_cancel_left _ _ hu]
    _ = H⁻¹ * X * (H * H⁻¹) := by rw [← h]; simp only [Matrix.mul_assoc]
    _ = H⁻¹ * X := by rw [mul_nonsing_inv _ hu, Matrix.mul_one]

/-- Weights that are constant on the four independent groups of angles (horizontal and vertical, before
and after the sample), as vectors on the angles, on the crystals and on the wavevector components. -/
def p4 (a b c d : ℝ) : Fin 4 → ℝ := ![a, b, c, d]
def p6 (a b c d : ℝ) : Fin 6 → ℝ := ![a, a, b, c, c, d]
def p8 (a b c d : ℝ) : Fin 8 → ℝ := ![a, a, b, b, c, c, d, d]

theorem matC_comm (a b c d : ℝ) (k : Kin) : matC k * diagonal (p8 a b c d) = diagonal (p4 a b c d) * matC k := by
  ext i j
  rw [mul_diagonal, diagonal_mul]
  fin_cases i <;> fin_cases j <;> simp [matC, p4, p8, mul_comm]

theorem matA_comm (a b c d : ℝ) (k : Kin) : matA k * diagonal (p8 a b c d) = diagonal (p6 a b c d) * matA k := by
  ext i j
  rw [mul_diagonal, diagonal_mul]
  fin_cases i <;> fin_cases j <;> simp [matA, p6, p8, mul_comm]

theorem cnH_comm (x y z w : ℝ) (c : Conf) (l : Loop) (k : Kin) :
    diagonal (p8 x y z w) * (matG l + (matC k)ᵀ * matF c * matC k) =
      (matG l + (matC k)ᵀ * matF c * matC k) * diagonal (p8 x y z w) := by
  have t : diagonal (p8 x y z w) * (matC k)ᵀ = (matC k)ᵀ * diagonal (p4 x y z w) := by
    have := congrArg transpose (matC_comm x y z w k)
    simpa only [transpose_mul, diagonal_transpose] using this
  rw [Matrix.mul_add, Matrix.add_mul]
  congr 1
  · simp only [matG, diagonal_mul_diagonal]
    congr 1
    ext i
    exact mul_comm _ _
  · calc diagonal (p8 x y z w) * ((matC k)ᵀ * matF c * matC k) =
          (diagonal (p8 x y z w) * (matC k)ᵀ) * matF c * matC k := by
          simp only [Matrix.mul_assoc]
      _ = (matC k)ᵀ * (diagonal (p4 x y z w) * matF c) * matC k := by rw [t]; simp only [Matrix.mul_assoc]
      _ = (matC k)ᵀ * (matF c * diagonal (p4 x y z w)) * matC k := by
          congr 2
          simp only [matF, diagonal_mul_diagonal]
          congr 1
          ext i
          exact mul_comm _ _
      _ = (matC k)ᵀ * matF c * (matC k * diagonal (p8 x y z w)) := by rw [matC_comm]; simp only [Matrix.mul_assoc]
      _ = (matC k)ᵀ * matF c * matC k * diagonal (p8 x y z w) := by simp only [Matrix.mul_assoc]

theorem cnN_comm (x y z w : ℝ) {c : Conf} {l : Loop} (hc : c.Mosaics) (hl : l.Good) (k : Kin) :
    diagonal (p6 x y z w) * (matA k * (matG l + (matC k)ᵀ * matF c * matC k)⁻¹ * (matA k)ᵀ) =
      (matA k * (matG l + (matC k)ᵀ * matF c * matC k)⁻¹ * (matA k)ᵀ) * diagonal (p6 x y z w) := by
  have h1 := comm_inv (cnH_posDef hc hl k) (cnH_comm x y z w c l k)
  set H := matG l + (matC k)ᵀ * matF c * matC k
  have t : diagonal (p8 x y z w) * (matA k)ᵀ = (matA k)ᵀ * diagonal (p6 x y z w) := by
    have := congrArg transpose (matA_comm x y z w k)
    simpa only [transpose_mul, diagonal_transpose] using this
  calc diagonal (p6 x y z w) * (matA k * H⁻¹ * (matA k)ᵀ) = (diagonal (p6 x y z w) * matA k) * H⁻¹ * (matA k)ᵀ := by
        simp only [Matrix.mul_assoc]
    _ = matA k * (diagonal (p8 x y z w) * H⁻¹) * (matA k)ᵀ := by rw [← matA_comm]; simp only [Matrix.mul_assoc]
    _ = matA k * H⁻¹ * (diagonal (p8 x y z w) * (matA k)ᵀ) := by rw [h1]; simp only [Matrix.mul_assoc]
    _ = matA k * H⁻¹ * (matA k)ᵀ * diagonal (p6 x y z w) := by rw [t]; simp only [Matrix.mul_assoc]

/-- An entry between different weights of a matrix that commutes with the weights is zero. -/
theorem comm_zero {n : ℕ} {N : Matrix (Fin n) (Fin n) ℝ} {p : Fin n → ℝ} (comm : diagonal p * N = N * diagonal p)
    {i j : Fin n} (hij : p i ≠ p j) : N i j = 0 := by
  have := congrFun (congrFun comm i) j
  rw [mul_diagonal, diagonal_mul] at this
  have h' : (p i - p j) * N i j = 0 := by linear_combination this
  rcases mul_eq_zero.1 h' with h | h
  · exact absurd (sub_eq_zero.1 h) hij
  · exact h

theorem focus_posDef {c : Conf} {l : Loop} {k : Kin} {q : ℝ} (hc : c.Mosaics) (hl : l.Good) (hk : k.Good q)
    {N : Matrix (Fin 6) (Fin 6) ℝ} (hN : N.PosDef) (comm : diagonal (p6 1 1 0 1) * N = N * diagonal (p6 1 1 0 1)) :
    (focusBlock c l k N).PosDef := by
  have z : ∀ i j, p6 1 1 0 1 i ≠ p6 1 1 0 1 j → N i j = 0 := fun i j h => comm_zero comm h
  have ta : tan k.thetaa ≠ 0 := left_ne_zero_of_mul hk.sa.ne'
  have apos : 0 < (tan k.thetaa / (c.etaa * k.kf)) ^ 2 :=
    sqpos (div_ne_zero ta (mul_ne_zero hc.a hk.kf.ne'))
  have bpos : 0 < (1 / (k.kf * l.alpha 2)) ^ 2 :=
    sqpos (div_ne_zero one_ne_zero (mul_ne_zero hk.kf.ne' (hl.alpha 2)))
  have e : focusBlock c l k N = (diagonal (p6 1 1 0 1))ᵀ * N * diagonal (p6 1 1 0 1) +
      diagonal ![0, 0, 0, (tan k.thetaa / (c.etaa * k.kf)) ^ 2, (1 / (k.kf * l.alpha 2)) ^ 2, 0] := by
    have zs : ∀ i : Fin 6, p6 1 1 0 1 i = 0 → ∀ j, p6 1 1 0 1 j = 1 → N i j = 0 ∧ N j i = 0 := fun i hi j hj =>
      ⟨z i j (by rw [hi, hj]; norm_num), z j i (by rw [hi, hj]; norm_num)⟩
    have h3 := zs 3 rfl
    have h4 := zs 4 rfl
    ext i j
    rw [Matrix.add_apply, diagonal_transpose, mul_diagonal, diagonal_mul]
    fin_cases i <;> fin_cases j <;>
      simp [focusBlock, p6, (h3 0 rfl), (h3 1 rfl), (h3 2 rfl), (h3 5 rfl), (h4 0 rfl), (h4 1 rfl),
        (h4 2 rfl), (h4 5 rfl)]
  rw [e]
  set a := (tan k.thetaa / (c.etaa * k.kf)) ^ 2
  set b := (1 / (k.kf * l.alpha 2)) ^ 2
  have ps1 : ((diagonal (p6 1 1 0 1))ᵀ * N * diagonal (p6 1 1 0 1)).PosSemidef := gram_posSemidef hN _
  have ps2 : (diagonal ![0, 0, 0, a, b, 0]).PosSemidef :=
    PosSemidef.diagonal fun i => by fin_cases i <;> simp [apos.le, bpos.le]
  refine PosDef.of_dotProduct_mulVec_pos (ps1.add ps2).isHermitian fun {x} hx => ?_
  have n1 := ps1.dotProduct_mulVec_nonneg x
  rw [add_mulVec, dotProduct_add]
  simp only [star_trivial] at n1 ⊢
  have d2 : x ⬝ᵥ (diagonal ![0, 0, 0, a, b, 0] *ᵥ x) = a * x 3 ^ 2 + b * x 4 ^ 2 := by
    simp [mulVec_diagonal, dotProduct, Fin.sum_univ_succ]
    ring
  have d1 : x ⬝ᵥ (((diagonal (p6 1 1 0 1))ᵀ * N * diagonal (p6 1 1 0 1)) *ᵥ x) = (diagonal (p6 1 1 0 1) *ᵥ x) ⬝ᵥ (N *ᵥ (diagonal (p6 1 1 0 1) *ᵥ x)) := by
    rw [← mulVec_mulVec, ← mulVec_mulVec, dotProduct_mulVec, vecMul_transpose]
  rw [d1] at n1 ⊢
  rw [d2]
  by_cases hp : diagonal (p6 1 1 0 1) *ᵥ x = 0
  · have h34 : x 3 ≠ 0 ∨ x 4 ≠ 0 := by
      by_contra hcon
      push Not at hcon
      apply hx
      have hz (i : Fin 6) : p6 1 1 0 1 i * x i = 0 := by
        have := congrFun hp i
        rwa [mulVec_diagonal] at this
      ext i
      have := hz i
      fin_cases i <;> simp [p6] at this ⊢ <;> first | exact this | exact hcon.1 | exact hcon.2
    rcases h34 with h | h
    · have : 0 < a * x 3 ^ 2 := mul_pos apos (sqpos h)
      have : 0 ≤ b * x 4 ^ 2 := by positivity
      linarith
    · have : 0 < b * x 4 ^ 2 := mul_pos bpos (sqpos h)
      have : 0 ≤ a * x 3 ^ 2 := by positivity
      linarith
  · have := hN.dotProduct_mulVec_pos hp
    simp only [star_trivial] at this
    have h1 : 0 ≤ a * x 3 ^ 2 := by positivity
    have h2 : 0 ≤ b * x 4 ^ 2 := by positivity
    linarith

theorem cooperNathans_ok {c : Conf} {l : Loop} {k : Kin} {q : ℝ} (hc : c.Mosaics) (hl : l.Good) (hk : k.Good q) :
    ∃ Ninv d, cooperNathansN c l k = .ok (Ninv, d) ∧ Ninv.PosDef ∧ 0 < d := by
  have hH := cnH_posDef hc hl k
  have hN := congr_posDef hH.inv (matA k) (matA_inj hk)
  unfold cooperNathansN
  simp only [npInv_ok hH, ok_bind]
  by_cases hf : 0 < c.horifoc
  · simp only [if_pos hf, npInv_ok hN, ok_bind]
    have hfb := focus_posDef hc hl hk hN.inv (comm_inv hN (cnN_comm 1 1 0 1 hc hl k))
    simp only [npInv_ok hfb, ok_bind]
    exact ⟨_, _, rfl, hfb.inv, hH.det_pos⟩
  · simp only [if_neg hf]
    exact ⟨_, _, rfl, hN, hH.det_pos⟩

theorem popovici_ok {c : Conf} {l : Loop} {k : Kin} {q : ℝ} {S : Matrix (Fin 13) (Fin 13) ℝ} (hc : c.Mosaics)
    (ha : c.Arms) (hl : l.Good) (hr : l.Curved) (hk : k.Good q) (hS : S.PosDef) :
    ∃ Ninv d, popoviciN c l k S = .ok (Ninv, d) ∧ Ninv.PosDef ∧ 0 < d := by
  have hK : (S + (matT c l k)ᵀ * matF c * matT c l k).PosDef :=
    hS.add_posSemidef (gram_posSemidef (matF_posDef hc) _)
  have hD := congr_posDef hK.inv (matD c k) (matD_inj ha k)
  have hG := hD.inv.add (matG_posDef hl.alpha hl.beta)
  have hN := congr_posDef hG.inv (matA k) (matA_inj hk)
  unfold popoviciN
  rw [if_neg (by simp [ha.l0, ha.l1, ha.l2, ha.l3, hr.monorh, hr.monorv, hr.anarh, hr.anarv])]
  simp only [npInv_ok hK, ok_bind, npInv_ok hD, npInv_ok hG]
  exact ⟨_, _, rfl, hN, hG.det_pos⟩

end Verif.Resolution
