import Verif.Angles.PropsQ

/-!
# Property C129: the crystal axes that `get_angles_and_Q` builds
-/

namespace Verif.Angles

open Real Matrix
open Verif.Crystal (Vec Mat Lattice deg2rad Valid Realises Dual vecOf len gstarOf disc)

/-- **C129** (partial: the first step only; what follows is wrong for most orientations, see `C129_q_false`) for every
cell, oblique ones included, the vectors that `bb` assigns to Miller indices have the lengths and angles of the vectors of
the reciprocal lattice. -/
theorem C129_axes_partial {l : Lattice} (h : Valid l) {E F : Mat} (hE : Realises l E) (hF : Dual E F) :
    ∃ bb, bMatrix l = some bb ∧ ∀ x y, (bb *ᵥ x) ⬝ᵥ (bb *ᵥ y) = vecOf F x ⬝ᵥ vecOf F y := by
  have hp := pi_pos
  have ha := h.a_pos
  have hb := h.b_pos
  have hc := h.c_pos
  have sa := h.sa
  have sb := h.sb
  have sg := h.sg
  have hd := h.disc_pos
  set ca := cos l.alphaRad with hca
  set cb := cos l.betaRad with hcb
  set cg := cos l.gammaRad with hcg
  set s1 := sin l.alphaRad with hs1
  set s2 := sin l.betaRad with hs2
  set s3 := sin l.gammaRad with hs3
  have q1 : s1 ^ 2 + ca ^ 2 = 1 := sin_sq_add_cos_sq _
  have q2 : s2 ^ 2 + cb ^ 2 = 1 := sin_sq_add_cos_sq _
  have q3 : s3 ^ 2 + cg ^ 2 = 1 := sin_sq_add_cos_sq _
  have hD : disc l = 1 + 2 * (ca * cb * cg) - (ca * ca + cb * cb + cg * cg) := by
    unfold disc
    ring
  obtain ⟨r, hr⟩ : ∃ r, r = √(disc l) := ⟨_, rfl⟩
  have hr0 : 0 < r := hr ▸ sqrt_pos.2 hd
  have hr2 : r ^ 2 = disc l := hr ▸ sq_sqrt hd.le
  have e1 : root (1 + 2 * (ca * cb * cg) - (ca * ca + cb * cb + cg * cg)) = some r := by
    rw [← hD, root, if_pos hd.le, hr]
  have o (x : ℝ) {y : ℝ} (hy : y ≠ 0) : over x y = some (x / y) := by rw [over, if_neg hy]
  have t1 : 1 - ((cg * ca - cb) / (s3 * s1)) * ((cg * ca - cb) / (s3 * s1)) = (r / (s3 * s1)) ^ 2 := by
    rw [div_pow, hr2, hD]
    field_simp
    linear_combination (s1 ^ 2) * q3 + (1 - cg ^ 2) * q1
  have t2 : 1 - ((ca * cb - cg) / (s1 * s2)) * ((ca * cb - cg) / (s1 * s2)) = (r / (s1 * s2)) ^ 2 := by
    rw [div_pow, hr2, hD]
    field_simp
    linear_combination (s1 ^ 2) * q2 + (1 - cb ^ 2) * q1
  have e2 : root (1 - ((cg * ca - cb) / (s3 * s1)) * ((cg * ca - cb) / (s3 * s1))) = some (r / (s3 * s1)) := by
    rw [t1, root, if_pos (sq_nonneg _), sqrt_sq (by positivity)]
  have e3 : root (1 - ((ca * cb - cg) / (s1 * s2)) * ((ca * cb - cg) / (s1 * s2))) = some (r / (s1 * s2)) := by
    rw [t2, root, if_pos (sq_nonneg _), sqrt_sq (by positivity)]
  have hB : bMatrix l = some !![s1 / (l.a / (2 * π) * r), s2 / (l.b / (2 * π) * r) * ((ca * cb - cg) / (s1 * s2)),
      s3 / (l.c / (2 * π) * r) * ((cg * ca - cb) / (s3 * s1));
      0, s2 / (l.b / (2 * π) * r) * (r / (s1 * s2)), -(s3 / (l.c / (2 * π) * r)) * (r / (s3 * s1)) * ca;
      0, 0, 1 / (l.c / (2 * π))] := by
    unfold bMatrix
    simp only [cons_val_zero, cons_val_one, cons_val]
    rw [show deg2rad l.alpha = l.alphaRad from rfl, show deg2rad l.beta = l.betaRad from rfl, show deg2rad l.gamma = l.gammaRad from rfl,
      ← hca, ← hcb, ← hcg, ← hs1, ← hs2, ← hs3, e1]
    simp only [Option.bind_eq_bind, Option.bind_some]
    rw [o _ (by positivity), o _ (by positivity), o _ (by positivity), o _ (by positivity), o _ (by positivity), o _ (by positivity)]
    simp only [Option.bind_some]
    rw [e2, e3]
    simp only [Option.bind_some]
    rfl
  refine ⟨_, hB, fun x y => ?_⟩
  rw [Verif.Crystal.vecOf_dot (Verif.Crystal.dual_gram h hE hF)]
  have hG : (!![s1 / (l.a / (2 * π) * r), s2 / (l.b / (2 * π) * r) * ((ca * cb - cg) / (s1 * s2)),
      s3 / (l.c / (2 * π) * r) * ((cg * ca - cb) / (s3 * s1));
      0, s2 / (l.b / (2 * π) * r) * (r / (s1 * s2)), -(s3 / (l.c / (2 * π) * r)) * (r / (s3 * s1)) * ca;
      0, 0, 1 / (l.c / (2 * π))] : Mat)ᵀ * !![s1 / (l.a / (2 * π) * r), s2 / (l.b / (2 * π) * r) * ((ca * cb - cg) / (s1 * s2)),
      s3 / (l.c / (2 * π) * r) * ((cg * ca - cb) / (s3 * s1));
      0, s2 / (l.b / (2 * π) * r) * (r / (s1 * s2)), -(s3 / (l.c / (2 * π) * r)) * (r / (s3 * s1)) * ca;
      0, 0, 1 / (l.c / (2 * π))] = gstarOf l := by
    unfold gstarOf
    rw [← hr2, ← hca, ← hcb, ← hcg, ← hs1, ← hs2, ← hs3]
    rw [hD] at hr2
    ext i j
    fin_cases i <;> fin_cases j <;>
      simp [Matrix.mul_apply, Fin.sum_univ_three] <;> field_simp
    all_goals first
      | ring1
      | linear_combination 4 * hr2 - 4 * s2 ^ 2 * q1 - 4 * (1 - ca ^ 2) * q2
      | linear_combination -4 * ca * hr2 - 4 * (cb * cg - ca) * q1
      | linear_combination 4 * r ^ 2 * q1 + 4 * hr2 - 4 * s3 ^ 2 * q1 - 4 * (1 - ca ^ 2) * q3
  have hGt : (gstarOf l)ᵀ = gstarOf l := by rw [← hG, transpose_mul, transpose_transpose]
  rw [dotProduct_mulVec, vecMul_mulVec, hG]
  rw [← mulVec_transpose, hGt]

example : Valid ⟨5, 6, 7, 80, 95, 110⟩ := by constructor <;> norm_num

end Verif.Angles
