import Verif.Tools.Model
import Mathlib.Algebra.BigOperators.Fin
import Mathlib.Analysis.SpecialFunctions.Gaussian.GaussianIntegral
import Mathlib.Analysis.Complex.ExponentialBounds
import Mathlib.MeasureTheory.Group.Integral
import Mathlib.Tactic.FieldSimp
import Mathlib.Tactic.LinearCombination

/-!
# Properties C55 and C56: projections of the resolution ellipsoid
-/

namespace Verif.Tools

open Real Matrix MeasureTheory
open Verif.Crystal (Fail npSqrt npArccos npDiv)

/-- The quadratic form `Σ M_kl x_k x_l`. -/
def quad {n : ℕ} (M : Matrix (Fin n) (Fin n) ℝ) (x : Fin n → ℝ) : ℝ := ∑ k, ∑ l, M k l * x k * x l

/-- Symmetric and positive definite. -/
structure SPD {n : ℕ} (M : Matrix (Fin n) (Fin n) ℝ) : Prop where
  symm : ∀ k l, M k l = M l k
  pos : ∀ x : Fin n → ℝ, (∃ k, x k ≠ 0) → 0 < quad M x

theorem quad_insert {n : ℕ} (i : Fin (n + 1)) (M : Matrix (Fin (n + 1)) (Fin (n + 1)) ℝ) (t : ℝ) (y : Fin n → ℝ) :
    quad M (i.insertNth (α := fun _ => ℝ) t y) = M i i * t ^ 2 +
      t * (∑ k, (M (i.succAbove k) i + M i (i.succAbove k)) * y k) + quad (M.submatrix i.succAbove i.succAbove) y := by
  unfold quad
  rw [Fin.sum_univ_succAbove _ i, Fin.sum_univ_succAbove _ i]
  simp only [Fin.insertNth_apply_same, Fin.insertNth_apply_succAbove, submatrix_apply]
  have : ∀ k : Fin n, ∑ l, M (i.succAbove k) l * y k * (i.insertNth (α := fun _ => ℝ) t y : Fin (n + 1) → ℝ) l =
      M (i.succAbove k) i * y k * t + ∑ l, M (i.succAbove k) (i.succAbove l) * y k * y l := by
    intro k
    rw [Fin.sum_univ_succAbove _ i]
    simp only [Fin.insertNth_apply_same, Fin.insertNth_apply_succAbove]
  simp only [this, Finset.sum_add_distrib, add_mul, mul_add, Finset.mul_sum]
  have e1 : ∀ k : Fin n, M i (i.succAbove k) * t * y k = t * (M i (i.succAbove k) * y k) := fun k => by ring
  have e2 : ∀ k : Fin n, M (i.succAbove k) i * y k * t = t * (M (i.succAbove k) i * y k) := fun k => by ring
  simp only [e1, e2]
  ring

/-- The diagonal element is the form at a unit vector. -/
theorem quad_single {n : ℕ} (i : Fin (n + 1)) (M : Matrix (Fin (n + 1)) (Fin (n + 1)) ℝ) :
    quad M (i.insertNth (α := fun _ => ℝ) 1 0) = M i i := by
  rw [quad_insert]
  simp [quad]

theorem SPD.diag {n : ℕ} {M : Matrix (Fin (n + 1)) (Fin (n + 1)) ℝ} (h : SPD M) (i : Fin (n + 1)) : 0 < M i i := by
  rw [← quad_single i M]
  exact h.pos _ ⟨i, by simp⟩

/-- The matrix of a successful projection, entry by entry. -/
theorem project_ok {n : ℕ} {i : Fin (n + 1)} {r0 : ℝ} {M : Matrix (Fin (n + 1)) (Fin (n + 1)) ℝ} (h : 0 < M i i) :
    projectIntoPlane i r0 M = .ok (√(2 * π / M i i) * r0,
      M.submatrix i.succAbove i.succAbove - (1 / (4 * M i i)) •
        vecMulVec (fun k => M (i.succAbove k) i + M i (i.succAbove k)) (fun k => M (i.succAbove k) i + M i (i.succAbove k))) := by
  unfold projectIntoPlane npDiv npSqrt
  rw [if_neg h.ne', ok_bind, if_pos (by positivity), ok_bind]
  rfl

/-- Completing the square. -/
theorem quad_project {n : ℕ} {i : Fin (n + 1)} {M : Matrix (Fin (n + 1)) (Fin (n + 1)) ℝ} (h : 0 < M i i)
    (b : Fin n → ℝ) (t : ℝ) (y : Fin n → ℝ) (hb : b = fun k => M (i.succAbove k) i + M i (i.succAbove k)) :
    quad M (i.insertNth (α := fun _ => ℝ) t y) = M i i * (t + (∑ k, b k * y k) / (2 * M i i)) ^ 2 +
      quad (M.submatrix i.succAbove i.succAbove - (1 / (4 * M i i)) • vecMulVec b b) y := by
  have hq : quad (M.submatrix i.succAbove i.succAbove - (1 / (4 * M i i)) • vecMulVec b b) y =
      quad (M.submatrix i.succAbove i.succAbove) y - (∑ k, b k * y k) ^ 2 / (4 * M i i) := by
    unfold quad
    have : ∀ k l, (M.submatrix i.succAbove i.succAbove - (1 / (4 * M i i)) • vecMulVec b b) k l * y k * y l =
        M.submatrix i.succAbove i.succAbove k l * y k * y l - 1 / (4 * M i i) * ((b k * y k) * (b l * y l)) := by
      intro k l
      simp only [Matrix.sub_apply, Matrix.smul_apply, vecMulVec_apply, smul_eq_mul]
      ring
    simp only [this, Finset.sum_sub_distrib, ← Finset.mul_sum, ← Finset.sum_mul]
    ring
  rw [hq, quad_insert, hb]
  field_simp
  ring

theorem integral_shifted (m s : ℝ) : ∫ t : ℝ, exp (-(m * (t + s) ^ 2) / 2) = √(2 * π / m) := by
  have h1 := integral_add_right_eq_self (μ := volume) (fun t : ℝ => exp (-(m / 2) * t ^ 2)) s
  rw [integral_gaussian] at h1
  have h2 : π / (m / 2) = 2 * π / m := by
    rw [div_div_eq_mul_div]
    ring
  rw [← h2, ← h1]
  congr 1
  funext t
  congr 1
  ring

/-- **C55** the projection of a positive definite matrix exists, is symmetric positive definite, and its
Gaussian with the new prefactor is the integral of the Gaussian over the axis. -/
theorem C55_marginal {n : ℕ} {M : Matrix (Fin (n + 1)) (Fin (n + 1)) ℝ} (h : SPD M) (i : Fin (n + 1)) (r0 : ℝ) :
    ∃ r P, projectIntoPlane i r0 M = .ok (r, P) ∧ r = √(2 * π / M i i) * r0 ∧ SPD P ∧
      ∀ y, ∫ t : ℝ, r0 * exp (-quad M (i.insertNth (α := fun _ => ℝ) t y) / 2) = r * exp (-quad P y / 2) := by
  have hd := h.diag i
  refine ⟨_, _, project_ok hd, rfl, ⟨?_, ?_⟩, ?_⟩
  · intro k l
    simp only [Matrix.sub_apply, Matrix.smul_apply, vecMulVec_apply, submatrix_apply, smul_eq_mul]
    rw [h.symm (i.succAbove k) (i.succAbove l)]
    ring
  · rintro y ⟨k, hk⟩
    have := quad_project hd _ (-(∑ k, (M (i.succAbove k) i + M i (i.succAbove k)) * y k) / (2 * M i i)) y rfl
    rw [← add_div, neg_add_cancel, zero_div, zero_pow two_ne_zero, mul_zero, zero_add] at this
    rw [← this]
    exact h.pos _ ⟨i.succAbove k, by simpa using hk⟩
  · intro y
    simp only [quad_project hd _ _ y rfl]
    have : ∀ t q s : ℝ, r0 * exp (-(M i i * (t + s) ^ 2 + q) / 2) = r0 * exp (-q / 2) * exp (-(M i i * (t + s) ^ 2) / 2) := by
      intro t q s
      rw [mul_assoc, ← exp_add]
      congr 2
      ring
    simp only [this]
    rw [integral_const_mul, integral_shifted]
    ring

/-- **C55** axes can be projected out in either order: `i` and then the remaining axis `j`, which is the
axis `i'` of the full space, or `i'` first and then `i`. -/
theorem C55_order {n : ℕ} {M : Matrix (Fin (n + 2)) (Fin (n + 2)) ℝ} (h : SPD M) (r0 : ℝ)
    {i i' : Fin (n + 2)} {j j' : Fin (n + 1)} (hi : i' = i.succAbove j) (hi' : i = i'.succAbove j') :
    (projectIntoPlane i r0 M >>= fun p => projectIntoPlane j p.1 p.2) =
      (projectIntoPlane i' r0 M >>= fun p => projectIntoPlane j' p.1 p.2) := by
  have hj : j' = j.predAbove i := by
    have h1 := Fin.succAbove_succAbove_predAbove i j
    rw [← hi] at h1
    exact Fin.succAbove_right_injective (hi'.symm.trans h1.symm)
  have hcomp : ∀ k, i.succAbove (j.succAbove k) = i'.succAbove (j'.succAbove k) := by
    intro k
    rw [hi, hj, Fin.succAbove_succAbove_succAbove_predAbove]
  obtain ⟨r1, P1, h1, hr1, hs1, -⟩ := C55_marginal h i r0
  obtain ⟨r2, P2, h2, hr2, hs2, -⟩ := C55_marginal h i' r0
  rw [h1, h2, ok_bind, ok_bind]
  have e1 := (project_ok (r0 := r0) (h.diag i)).symm.trans h1
  have e2 := (project_ok (r0 := r0) (h.diag i')).symm.trans h2
  have d1 := hs1.diag j
  have d2 := hs2.diag j'
  have ent1 : ∀ k l, P1 k l = M (i.succAbove k) (i.succAbove l) - M (i.succAbove k) i * M (i.succAbove l) i / M i i := by
    intro k l
    rw [← (Prod.mk.inj (Except.ok.inj e1)).2]
    simp only [Matrix.sub_apply, Matrix.smul_apply, vecMulVec_apply, submatrix_apply, smul_eq_mul]
    rw [h.symm i (i.succAbove k), h.symm i (i.succAbove l)]
    have := (h.diag i).ne'
    field_simp
    ring
  have ent2 : ∀ k l, P2 k l = M (i'.succAbove k) (i'.succAbove l) - M (i'.succAbove k) i' * M (i'.succAbove l) i' / M i' i' := by
    intro k l
    rw [← (Prod.mk.inj (Except.ok.inj e2)).2]
    simp only [Matrix.sub_apply, Matrix.smul_apply, vecMulVec_apply, submatrix_apply, smul_eq_mul]
    rw [h.symm i' (i'.succAbove k), h.symm i' (i'.succAbove l)]
    have := (h.diag i').ne'
    field_simp
    ring
  have da := h.diag i
  have db := h.diag i'
  have m1 : P1 j j * M i i = M i i * M i' i' - M i i' ^ 2 := by
    rw [ent1, ← hi, h.symm i' i]
    field_simp
  have m2 : P2 j' j' * M i' i' = M i i * M i' i' - M i i' ^ 2 := by
    rw [ent2, ← hi']
    field_simp
  have hm : 0 < M i i * M i' i' - M i i' ^ 2 := by
    rw [← m1]
    positivity
  rw [project_ok d1, project_ok d2]
  congr 2
  · rw [hr1, hr2, ← mul_assoc, ← mul_assoc, ← sqrt_mul (by positivity), ← sqrt_mul (by positivity)]
    congr 2
    rw [div_mul_div_comm, div_mul_div_comm, m1, m2]
  · ext k l
    simp only [Matrix.sub_apply, Matrix.smul_apply, vecMulVec_apply, submatrix_apply, smul_eq_mul]
    rw [hs1.symm j (j.succAbove k), hs1.symm j (j.succAbove l), hs2.symm j' (j'.succAbove k), hs2.symm j' (j'.succAbove l)]
    have q1 : P1 j j = (M i i * M i' i' - M i i' ^ 2) / M i i := by rw [← m1]; field_simp
    have q2 : P2 j' j' = (M i i * M i' i' - M i i' ^ 2) / M i' i' := by rw [← m2]; field_simp
    rw [q1, q2]
    simp only [ent1, ent2, hcomp, ← hi, ← hi', h.symm i' i]
    generalize M (i'.succAbove (j'.succAbove k)) (i'.succAbove (j'.succAbove l)) = a
    generalize M (i'.succAbove (j'.succAbove k)) i = b
    generalize M (i'.succAbove (j'.succAbove l)) i = c
    generalize M (i'.succAbove (j'.succAbove k)) i' = d
    generalize M (i'.succAbove (j'.succAbove l)) i' = e
    generalize M i i = x at *
    generalize M i' i' = y at *
    generalize M i i' = z at *
    have := hm.ne'
    field_simp
    ring

/-- **C55** a matrix whose diagonal element is not positive gives no number. -/
theorem C55_error {n : ℕ} (i : Fin (n + 1)) (r0 : ℝ) (M : Matrix (Fin (n + 1)) (Fin (n + 1)) ℝ) (h : M i i ≤ 0) :
    ∃ e, projectIntoPlane i r0 M = .error e := by
  unfold projectIntoPlane npDiv npSqrt
  split_ifs with h0 h1
  · exact ⟨_, rfl⟩
  · exact ⟨_, rfl⟩
  · rw [ok_bind, if_neg]
    · exact ⟨_, rfl⟩
    · rw [not_le]
      exact div_neg_of_pos_of_neg (by positivity) (lt_of_le_of_ne h h0)

/-- A positive definite matrix with off-diagonal elements. -/
theorem spd_example : SPD (!![2, 1, 0; 1, 3, -1; 0, -1, 4] : Matrix (Fin 3) (Fin 3) ℝ) := by
  constructor
  · intro k l
    fin_cases k <;> fin_cases l <;> rfl
  · rintro x ⟨k, hk⟩
    have : quad (!![2, 1, 0; 1, 3, -1; 0, -1, 4] : Matrix (Fin 3) (Fin 3) ℝ) x =
        (x 0 + x 1) ^ 2 + x 0 ^ 2 + x 1 ^ 2 + (x 1 - x 2) ^ 2 + 3 * x 2 ^ 2 := by
      simp [quad, Fin.sum_univ_three]
      ring
    rw [this]
    fin_cases k
    all_goals
      have := pow_pos (abs_pos.2 hk) 2
      simp only [sq_abs] at this
    · have : 0 < x 0 ^ 2 := this
      nlinarith [sq_nonneg (x 0 + x 1), sq_nonneg (x 1), sq_nonneg (x 1 - x 2), sq_nonneg (x 2)]
    · have : 0 < x 1 ^ 2 := this
      nlinarith [sq_nonneg (x 0 + x 1), sq_nonneg (x 0), sq_nonneg (x 1 - x 2), sq_nonneg (x 2)]
    · have : 0 < x 2 ^ 2 := this
      nlinarith [sq_nonneg (x 0 + x 1), sq_nonneg (x 0), sq_nonneg (x 1 - x 2), sq_nonneg (x 1)]

example : (2 : Fin 3) = (0 : Fin 3).succAbove 1 ∧ (0 : Fin 3) = (2 : Fin 3).succAbove 0 := by decide

/-! ## C56 -/

theorem theta_spec (a b d : ℝ) : (d - a) * (sin (0.5 * arctan2 (2 * b) (a - d)) * cos (0.5 * arctan2 (2 * b) (a - d))) +
    b * (cos (0.5 * arctan2 (2 * b) (a - d)) ^ 2 - sin (0.5 * arctan2 (2 * b) (a - d)) ^ 2) = 0 := by
  unfold arctan2
  set z : ℂ := ⟨a - d, 2 * b⟩ with hz
  have h1 : ‖z‖ * cos z.arg = a - d := by
    rw [mul_comm]
    simpa [hz, mul_comm] using Complex.norm_mul_cos_arg z
  have h2 : ‖z‖ * sin z.arg = 2 * b := by
    simp [hz]
  set t := (0.5 : ℝ) * z.arg with ht
  have h3 : z.arg = 2 * t := by rw [ht]; ring
  rw [h3, cos_two_mul'] at h1
  rw [h3, sin_two_mul] at h2
  linear_combination (sin t * cos t) * h1 - (cos t ^ 2 - sin t ^ 2) / 2 * h2

/-- The rotated matrix of `calculate_projection_hwhm`. -/
theorem rotated (M : Matrix (Fin 2) (Fin 2) ℝ) (t : ℝ) :
    (!![cos t, sin t; -sin t, cos t] * M * (!![cos t, sin t; -sin t, cos t] : Matrix (Fin 2) (Fin 2) ℝ)ᵀ) =
      !![quad M ![cos t, sin t], (M 1 1 - M 0 0) * (sin t * cos t) + M 0 1 * cos t ^ 2 - M 1 0 * sin t ^ 2;
        (M 1 1 - M 0 0) * (sin t * cos t) + M 1 0 * cos t ^ 2 - M 0 1 * sin t ^ 2, quad M ![-sin t, cos t]] := by
  generalize ha : M 0 0 = a
  generalize hb : M 0 1 = b
  generalize hc : M 1 0 = c
  generalize hd : M 1 1 = d
  have hM : M = !![a, b; c, d] := by rw [← ha, ← hb, ← hc, ← hd]; exact eta_fin_two M
  rw [hM]
  ext i j
  fin_cases i <;> fin_cases j <;>
    simp [Matrix.mul_apply, Fin.sum_univ_two, quad] <;> ring

theorem quad_two (M : Matrix (Fin 2) (Fin 2) ℝ) (x y : ℝ) :
    quad M ![x, y] = M 0 0 * x ^ 2 + (M 0 1 + M 1 0) * (x * y) + M 1 1 * y ^ 2 := by
  simp [quad, Fin.sum_univ_two]
  ring

theorem hwhm_ok {M : Matrix (Fin 2) (Fin 2) ℝ} (h : SPD M) (t : ℝ) (ht : t = 0.5 * arctan2 (2 * M 0 1) (M 0 0 - M 1 1)) :
    0 < quad M ![cos t, sin t] ∧ 0 < quad M ![-sin t, cos t] ∧
    projectionHwhm M = .ok (1.17741 / √(quad M ![cos t, sin t]), 1.17741 / √(quad M ![-sin t, cos t]), t) := by
  have hne : cos t ≠ 0 ∨ sin t ≠ 0 := by
    by_contra hc
    push Not at hc
    have := sin_sq_add_cos_sq t
    rw [hc.1, hc.2] at this
    norm_num at this
  have p1 : 0 < quad M ![cos t, sin t] := by
    refine h.pos _ ?_
    rcases hne with hne | hne
    · exact ⟨0, hne⟩
    · exact ⟨1, hne⟩
  have p2 : 0 < quad M ![-sin t, cos t] := by
    refine h.pos _ ?_
    rcases hne with hne | hne
    · exact ⟨1, hne⟩
    · exact ⟨0, neg_ne_zero.2 hne⟩
  refine ⟨p1, p2, ?_⟩
  unfold projectionHwhm
  simp only
  rw [← ht, rotated]
  change (do
    let a ← npDiv 1.17741 (← npSqrt (quad M ![cos t, sin t]))
    let b ← npDiv 1.17741 (← npSqrt (quad M ![-sin t, cos t]))
    return (a, b, t)) = _
  simp only [npSqrt, npDiv, if_pos p1.le, if_pos p2.le, ok_bind, if_neg (sqrt_pos.2 p1).ne',
    if_neg (sqrt_pos.2 p2).ne', pure_ok]

/-- **C56** the angle turns the axes onto eigenvectors, and the half widths belong to the eigenvalues. -/
theorem C56_axes {M : Matrix (Fin 2) (Fin 2) ℝ} (h : SPD M) : ∃ a b t, projectionHwhm M = .ok (a, b, t) ∧
    0 < a ∧ 0 < b ∧ ∃ l1 l2, 0 < l1 ∧ 0 < l2 ∧
      M *ᵥ ![cos t, sin t] = l1 • ![cos t, sin t] ∧ M *ᵥ ![-sin t, cos t] = l2 • ![-sin t, cos t] ∧
      a = 1.17741 / √l1 ∧ b = 1.17741 / √l2 := by
  set t := 0.5 * arctan2 (2 * M 0 1) (M 0 0 - M 1 1) with ht
  obtain ⟨p1, p2, h1⟩ := hwhm_ok h t ht
  have hk := theta_spec (M 0 0) (M 0 1) (M 1 1)
  rw [← ht] at hk
  refine ⟨_, _, _, h1, by positivity, by positivity, _, _, p1, p2, ?_, ?_, rfl, rfl⟩
  · ext k
    rw [quad_two, h.symm 1 0]
    have hs := sin_sq_add_cos_sq t
    fin_cases k
    · simp [Matrix.mulVec, dotProduct, Fin.sum_univ_two]
      linear_combination (-(sin t)) * hk - (M 0 0 * cos t + M 0 1 * sin t) * hs
    · simp [Matrix.mulVec, dotProduct, Fin.sum_univ_two, h.symm 1 0]
      linear_combination (cos t) * hk - (M 0 1 * cos t + M 1 1 * sin t) * hs
  · ext k
    rw [quad_two, h.symm 1 0]
    have hs := sin_sq_add_cos_sq t
    fin_cases k
    · simp [Matrix.mulVec, dotProduct, Fin.sum_univ_two]
      linear_combination (cos t) * hk - (M 0 1 * cos t - M 0 0 * sin t) * hs
    · simp [Matrix.mulVec, dotProduct, Fin.sum_univ_two, h.symm 1 0]
      linear_combination (sin t) * hk - (M 1 1 * cos t - M 0 1 * sin t) * hs

/-- **C56** the points of the ellipse drawn with these widths and angle lie on one contour of the
quadratic form. -/
theorem C56_contour {M : Matrix (Fin 2) (Fin 2) ℝ} (h : SPD M) {a b t : ℝ} (hw : projectionHwhm M = .ok (a, b, t))
    (origin : ℝ × ℝ) (npts : ℕ) : ∀ p ∈ ellipse a b t origin npts,
      quad M ![p.1 - origin.1, p.2 - origin.2] = 1.17741 ^ 2 := by
  obtain ⟨p1, p2, h1⟩ := hwhm_ok h _ rfl
  rw [h1] at hw
  obtain ⟨ha, hw⟩ := Prod.mk.inj (Except.ok.inj hw)
  obtain ⟨hb, hw⟩ := Prod.mk.inj hw
  have hk := theta_spec (M 0 0) (M 0 1) (M 1 1)
  rw [hw] at ha hb p1 p2 hk
  intro p hp
  obtain ⟨s, -, rfl⟩ := List.mem_map.1 hp
  have ha2 : a ^ 2 * quad M ![cos t, sin t] = 1.17741 ^ 2 := by
    rw [← ha, div_pow, sq_sqrt p1.le]
    field_simp
  have hb2 : b ^ 2 * quad M ![-sin t, cos t] = 1.17741 ^ 2 := by
    rw [← hb, div_pow, sq_sqrt p2.le]
    field_simp
  simp only [ellipsePoint, add_sub_cancel_right]
  rw [quad_two, h.symm 1 0] at *
  have hs := sin_sq_add_cos_sq s
  linear_combination (cos s ^ 2) * ha2 + (sin s ^ 2) * hb2 + (2 * a * b * cos s * sin s) * hk + 1.17741 ^ 2 * hs

/-- **C56** on that contour the Gaussian has dropped to one half, up to 1e-7. -/
theorem C56_half : |exp (-(1.17741 ^ 2) / 2) - 1 / 2| < 1e-7 := by
  have h1 := log_two_gt_d9
  have h2 := log_two_lt_d9
  have h3 : (1 / 2 : ℝ) = exp (-log 2) := by rw [exp_neg, exp_log two_pos]; norm_num
  have e1 := add_one_le_exp (-(1.17741 ^ 2) / 2 + log 2)
  have e2 := add_one_le_exp (-(-(1.17741 ^ 2) / 2 + log 2))
  set d := -(1.17741 ^ 2 : ℝ) / 2 + log 2 with hd
  have hd1 : |d| < 1e-7 := by
    rw [hd, abs_lt]
    constructor <;> norm_num at * <;> linarith
  obtain ⟨g1, g2⟩ := abs_lt.1 hd1
  have h4 : exp (-(1.17741 ^ 2) / 2) = exp d * (1 / 2) := by
    rw [h3, ← exp_add, hd]
    congr 1
    ring
  have h5 : exp d ≤ 1 / (1 - d) := by
    rw [le_div_iff₀ (by linarith)]
    rw [exp_neg] at e2
    have := exp_pos d
    have h6 : exp d * (1 - d) ≤ exp d * (exp d)⁻¹ := mul_le_mul_of_nonneg_left (by linarith) this.le
    rwa [mul_inv_cancel₀ this.ne'] at h6
  have h7 : 1 / (1 - d) ≤ 1 + 1.5e-7 := by
    rw [div_le_iff₀ (by linarith)]
    nlinarith
  rw [h4, abs_lt]
  constructor <;> linarith

example : SPD (!![2, 1; 1, 3] : Matrix (Fin 2) (Fin 2) ℝ) := by
  constructor
  · intro k l
    fin_cases k <;> fin_cases l <;> rfl
  · rintro x ⟨k, hk⟩
    have e : quad (!![2, 1; 1, 3] : Matrix (Fin 2) (Fin 2) ℝ) x = (x 0 + x 1) ^ 2 + x 0 ^ 2 + 2 * x 1 ^ 2 := by
      simp [quad, Fin.sum_univ_two]
      ring
    rw [e]
    fin_cases k
    · have : 0 < x 0 ^ 2 := by simpa using pow_pos (abs_pos.2 hk) 2
      nlinarith [sq_nonneg (x 0 + x 1), sq_nonneg (x 1)]
    · have : 0 < x 1 ^ 2 := by simpa using pow_pos (abs_pos.2 hk) 2
      nlinarith [sq_nonneg (x 0 + x 1), sq_nonneg (x 0)]

end Verif.Tools
