import Verif.Resolution.PropsBatch

/-! # Lemmas on the vertical width of a Cooper-Nathans matrix -/

namespace Verif.Resolution

open Real Matrix
open Verif.Crystal (Fail npSqrt npArcsin npDiv)
open Verif.Tools (arctan2 quad SPD Closes)

/-- Inverse of the Cooper-Nathans matrix. -/
noncomputable def cnMinv (c : Conf) (l : Loop) (k : Kin) : M4 :=
  matB k * (matA k * (matG l + (matC k)ᵀ * matF c * matC k)⁻¹ * (matA k)ᵀ) * (matB k)ᵀ

theorem cnMinv_posDef {c : Conf} {l : Loop} {k : Kin} {q : ℝ} (hc : c.Mosaics) (hl : l.Good) (hk : k.Good q) :
    (cnMinv c l k).PosDef :=
  congr_posDef (congr_posDef (cnH_posDef hc hl k).inv _ (matA_inj hk)) _ (matB_inj hk)

theorem pointAt_cn {c : Conf} {l : Loop} {k : Kin} {q : ℝ} (hc : c.Mosaics) (hl : l.Good)
    (hp : c.popovici = false) (hf : ¬ 0 < c.horifoc) (he : c.etas = none) {X : M3} {r : ℝ × M4}
    (h : pointAt c l X k q = .ok r) : r.2 = (cnMinv c l k)⁻¹ := by
  have hH := npInv_ok (cnH_posDef hc hl k)
  unfold pointAt at h
  split_ifs at h
  cases hS : npInv (matSinv c (turnShape k X)) with
  | error e => rw [hS] at h; exact nomatch h
  | ok S =>
    rw [hS, ok_bind] at h
    have core : coreMatrix c l k S = .ok (cnMinv c l k, (matG l + (matC k)ᵀ * matF c * matC k).det) := by
      simp only [coreMatrix, hp, cooperNathansN, hH, ok_bind, hf, if_false, Bool.false_eq_true]
      rfl
    rw [core, ok_bind] at h
    dsimp only at h
    unfold npInv at h
    split_ifs at h
    · exact nomatch h
    · rw [ok_bind] at h
      cases hr : prefactor c l k (matG l + (matC k)ᵀ * matF c * matC k).det (cnMinv c l k)⁻¹ with
      | error e => rw [hr] at h; exact nomatch h
      | ok r0 =>
        simp only [hr, ok_bind, withMosaic, he] at h
        change (do let r0 ← withReflectivity c l k r0; pure (r0, (cnMinv c l k)⁻¹)) = .ok r at h
        cases hw : withReflectivity c l k r0 with
        | error e => rw [hw] at h; exact nomatch h
        | ok r1 =>
          rw [hw, ok_bind] at h
          rw [← Except.ok.inj h]

/-- The vertical width is that of the two flight directions at the sample. -/
theorem cnMinv_22 {c : Conf} {l : Loop} {k : Kin} (hc : c.Mosaics) (hl : l.Good) :
    cnMinv c l k 2 2 = k.ki ^ 2 * (matG l + (matC k)ᵀ * matF c * matC k)⁻¹ 3 3 +
      k.kf ^ 2 * (matG l + (matC k)ᵀ * matF c * matC k)⁻¹ 6 6 := by
  have hcm := comm_inv (cnH_posDef hc hl k) (cnH_comm 1 2 3 4 c l k)
  have z1 := comm_zero hcm (i := 3) (j := 6) (by simp [p8])
  have z2 := comm_zero hcm (i := 6) (j := 3) (by simp [p8])
  have hJ : ∀ j, (matB k * matA k) 2 j = ![0, 0, 0, k.ki, 0, 0, -k.kf, 0] j := by
    intro j
    rw [Matrix.mul_apply, Fin.sum_univ_six]
    fin_cases j <;> simp [matB, matA]
  have e : cnMinv c l k = (matB k * matA k) * (matG l + (matC k)ᵀ * matF c * matC k)⁻¹ * (matB k * matA k)ᵀ := by
    simp only [cnMinv, transpose_mul, Matrix.mul_assoc]
  rw [e]
  generalize (matG l + (matC k)ᵀ * matF c * matC k)⁻¹ = W at *
  rw [Matrix.mul_apply, Fin.sum_univ_eight]
  simp only [Matrix.mul_apply (M := matB k * matA k) (N := W), Fin.sum_univ_eight, Matrix.transpose_apply, hJ]
  simp [z1, z2]
  ring

theorem inv_sub_inv {n : ℕ} {X Y : Matrix (Fin n) (Fin n) ℝ} (hX : X.PosDef) (hY : Y.PosDef) :
    X⁻¹ - Y⁻¹ = X⁻¹ * (Y - X) * Y⁻¹ := by
  have h1 : IsUnit X.det := hX.det_pos.ne'.isUnit
  have h2 : IsUnit Y.det := hY.det_pos.ne'.isUnit
  rw [Matrix.mul_sub, Matrix.sub_mul, nonsing_inv_mul _ h1, Matrix.one_mul, Matrix.mul_assoc, mul_nonsing_inv _ h2,
    Matrix.mul_one]

/-- Two sets of divergences that differ in the vertical divergence before the sample only give different
matrices. -/
theorem cn_differ {c : Conf} {l l' : Loop} {k : Kin} {q : ℝ} (hc : c.Mosaics) (hl : l.Good) (hl' : l'.Good)
    (hk : k.Good q) (ha : l.alpha = l'.alpha) (hb : ∀ i, i ≠ 1 → l.beta i = l'.beta i)
    (hne : (l.beta 1) ^ 2 ≠ (l'.beta 1) ^ 2) : (cnMinv c l k)⁻¹ ≠ (cnMinv c l' k)⁻¹ := by
  intro heq
  have hM := cnMinv_posDef hc hl hk
  have hM' := cnMinv_posDef hc hl' hk
  have heq : cnMinv c l k = cnMinv c l' k := by
    rw [← nonsing_inv_nonsing_inv _ hM.det_pos.ne'.isUnit, heq, nonsing_inv_nonsing_inv _ hM'.det_pos.ne'.isUnit]
  have e := congrFun (congrFun heq 2) 2
  rw [cnMinv_22 hc hl, cnMinv_22 hc hl'] at e
  have hP := cnH_posDef hc hl k
  have hP' := cnH_posDef hc hl' k
  have z := comm_zero (comm_inv hP (cnH_comm 1 2 3 4 c l k)) (i := 6) (j := 3) (by simp [p8])
  have d := inv_sub_inv hP hP'
  have g : matG l' + (matC k)ᵀ * matF c * matC k - (matG l + (matC k)ᵀ * matF c * matC k) =
      diagonal fun i => if i = 3 then 1 / (l'.beta 1) ^ 2 - 1 / (l.beta 1) ^ 2 else 0 := by
    rw [add_sub_add_right_eq_sub]
    unfold matG
    rw [diagonal_sub]
    congr 1
    funext i
    have b0 := hb 0 (by decide)
    have b2 := hb 2 (by decide)
    have b3 := hb 3 (by decide)
    fin_cases i <;> simp [ha, b0, b2, b3]
  rw [g] at d
  have d33 := congrFun (congrFun d 3) 3
  have d66 := congrFun (congrFun d 6) 6
  have p1 := hP.inv.diag_pos (i := 3)
  have p2 := hP'.inv.diag_pos (i := 3)
  generalize (matG l + (matC k)ᵀ * matF c * matC k)⁻¹ = W at *
  generalize (matG l' + (matC k)ᵀ * matF c * matC k)⁻¹ = W' at *
  rw [Matrix.mul_assoc, Matrix.sub_apply, Matrix.mul_apply] at d33 d66
  simp only [diagonal_mul, ite_mul, zero_mul, mul_ite, mul_zero, Finset.sum_ite_eq',
    Finset.mem_univ, if_true] at d33 d66
  rw [z] at d66
  have hb1 := sqpos (hl.beta 1)
  have hb2 := sqpos (hl'.beta 1)
  have hd : 1 / (l'.beta 1) ^ 2 - 1 / (l.beta 1) ^ 2 ≠ 0 := by
    intro h
    apply hne
    have := sub_eq_zero.1 h
    rw [one_div, one_div] at this
    exact (inv_injective this).symm
  have hki := sqpos hk.ki.ne'
  have h0 : k.ki ^ 2 * (W 3 3 - W' 3 3) = 0 := by linear_combination e - k.kf ^ 2 * d66
  rw [d33] at h0
  have : k.ki ^ 2 * (W 3 3 * ((1 / l'.beta 1 ^ 2 - 1 / l.beta 1 ^ 2) * W' 3 3)) ≠ 0 :=
    mul_ne_zero hki.ne' (mul_ne_zero p1.ne' (mul_ne_zero hd p2.ne'))
  exact this h0

end Verif.Resolution
