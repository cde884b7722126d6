import Verif.Convolution.Props
import Verif.Single.Voigt

/-! # The change of variables and the limit of the grid for single modes -/

namespace Verif.Single

open Real Matrix MeasureTheory Filter Topology
open Verif.Crystal (Fail Vec npSqrt npDiv npDiv_ok npSqrt_ok)
open Verif.Resolution (M4 Decoupled Res)
open Verif.Tools (quad SPD)
open Verif.Convolution (Point Pref cut cut_spd cut_of_decoupled quad4 weight step nodes sum_nodes node quadrature tendsto_quadrature quadrature_le Tame
  weight_nonneg step_pos integrable_exp)

/-- The displacement in reciprocal space for the values of the variables. -/
def shift (c : Coeffs) (tx ty tz : ℝ) : Fin 3 → ℝ := ![c.tqxx * tx - c.tqxy * ty, c.tqy * ty, c.tqz * tz]

theorem coeffs_ok {R : M4} (h : SPD R) : ∃ c, coeffs R = .ok c ∧ 0 < c.tqxx ∧ 0 < c.tqy ∧ 0 < c.tqz ∧ 0 < c.detxy ∧ 0 < c.detz ∧ 0 < c.gamma ∧
    c.tqxx * c.tqy * c.tqz = 1 / c.detxy / c.detz ∧ (c.detxy * c.detz) ^ 2 * R 3 3 = (cut R).det ∧
    ∀ tx ty tz e, quad (cut R) ![shift c tx ty tz 0, shift c tx ty tz 1, shift c tx ty tz 2, e] = tx ^ 2 + ty ^ 2 + tz ^ 2 +
      2 * (c.gamma * e + c.omegax * shift c tx ty tz 0 + c.omegay * shift c tx ty tz 1) ^ 2 := by
  have hz : 0 < R 2 2 := h.diag 2
  have hw : 0 < R 3 3 := h.diag 3
  obtain ⟨Myy, hMyy⟩ : ∃ m, m = R 1 1 - R 1 3 ^ 2 / R 3 3 := ⟨_, rfl⟩
  obtain ⟨Mxx, hMxx⟩ : ∃ m, m = R 0 0 - R 0 3 ^ 2 / R 3 3 := ⟨_, rfl⟩
  obtain ⟨Mxy, hMxy⟩ : ∃ m, m = R 0 1 - R 0 3 * R 1 3 / R 3 3 := ⟨_, rfl⟩
  have sq : ∀ x y z w : ℝ, quad (cut R) ![x, y, z, w] = Mxx * x ^ 2 + 2 * Mxy * (x * y) + Myy * y ^ 2 + R 2 2 * z ^ 2 +
      R 3 3 * (w + (R 0 3 * x + R 1 3 * y) / R 3 3) ^ 2 := fun x y z w => by
    rw [quad4 _ (cut_spd h).symm]
    simp [cut]
    rw [hMxx, hMxy, hMyy]
    field_simp
    ring
  have hx : 0 < Mxx := by
    have := (cut_spd h).pos ![1, 0, 0, -((R 0 3 * 1 + R 1 3 * 0) / R 3 3)] ⟨0, by simp⟩
    rw [sq] at this
    have e : Mxx * 1 ^ 2 + 2 * Mxy * (1 * 0) + Myy * 0 ^ 2 + R 2 2 * 0 ^ 2 +
      R 3 3 * (-((R 0 3 * 1 + R 1 3 * 0) / R 3 3) + (R 0 3 * 1 + R 1 3 * 0) / R 3 3) ^ 2 = Mxx := by ring
    rwa [e] at this
  have hD : 0 < Mxx * Myy - Mxy ^ 2 := by
    have := (cut_spd h).pos ![-Mxy, Mxx, 0, -((R 0 3 * -Mxy + R 1 3 * Mxx) / R 3 3)] ⟨1, by simpa using hx.ne'⟩
    rw [sq] at this
    have e : Mxx * (-Mxy) ^ 2 + 2 * Mxy * (-Mxy * Mxx) + Myy * Mxx ^ 2 + R 2 2 * 0 ^ 2 +
      R 3 3 * (-((R 0 3 * -Mxy + R 1 3 * Mxx) / R 3 3) + (R 0 3 * -Mxy + R 1 3 * Mxx) / R 3 3) ^ 2 = Mxx * (Mxx * Myy - Mxy ^ 2) := by ring
    rw [e] at this
    exact (mul_pos_iff_of_pos_left hx).1 this
  have sx := sqrt_pos.2 hx
  have sD := sqrt_pos.2 hD
  have sz := sqrt_pos.2 hz
  have s2 : 0 < √(2 * R 3 3) := sqrt_pos.2 (by positivity)
  have sg : 0 < √(R 3 3 / 2) := sqrt_pos.2 (by positivity)
  refine ⟨⟨√(R 3 3 / 2), R 0 3 / √(2 * R 3 3), R 1 3 / √(2 * R 3 3), √(Mxx * Myy - Mxy ^ 2), √(R 2 2), 1 / √(R 2 2), √Mxx / √(Mxx * Myy - Mxy ^ 2), 1 / √Mxx,
    Mxy / √Mxx / √(Mxx * Myy - Mxy ^ 2)⟩, ?_, by positivity, by positivity, by positivity, sD, sz, sg, ?_, ?_, ?_⟩
  · unfold coeffs
    simp only [npSqrt_ok (show 0 ≤ R 3 3 / 2 by positivity), npSqrt_ok (show 0 ≤ 2 * R 3 3 by positivity), npDiv_ok hw.ne', ok_bind, ← hMxx, ← hMxy, ← hMyy,
      npDiv_ok s2.ne', npSqrt_ok hD.le, npSqrt_ok hz.le, npSqrt_ok hx.le, npDiv_ok sz.ne', npDiv_ok sD.ne', npDiv_ok sx.ne']
    rfl
  · dsimp only
    field_simp
  · dsimp only
    rw [mul_pow, sq_sqrt hD.le, sq_sqrt hz.le, Matrix.det_succ_row_zero]
    simp [Fin.sum_univ_four, Matrix.det_fin_three, Fin.succAbove, cut]
    rw [h.symm 1 0, h.symm 3 0, h.symm 3 1, hMxx, hMxy, hMyy]
    field_simp
    ring
  · intro tx ty tz e
    rw [sq]
    simp only [shift, Matrix.cons_val]
    have q1 := sq_sqrt hx.le
    have q2 := sq_sqrt hD.le
    have q3 := sq_sqrt hz.le
    have eg : √(R 3 3 / 2) = √(2 * R 3 3) / 2 := by
      rw [show R 3 3 / 2 = 2 * R 3 3 / 2 ^ 2 by ring, sqrt_div' _ (by positivity), sqrt_sq (by norm_num)]
    have q4 : √(2 * R 3 3) ^ 2 = 2 * R 3 3 := sq_sqrt (by positivity)
    rw [eg]
    generalize √(2 * R 3 3) = r at *
    generalize √Mxx = a at *
    obtain ⟨D, hDd⟩ : ∃ D, D = √(Mxx * Myy - Mxy ^ 2) := ⟨_, rfl⟩
    rw [← hDd] at q2 sD ⊢
    generalize √(R 2 2) = b at *
    have hM : Myy = (D ^ 2 + Mxy ^ 2) / Mxx := by
      rw [q2]
      field_simp
      ring
    have e1 : R 2 2 * (1 / b * tz) ^ 2 = tz ^ 2 := by
      rw [← q3]
      field_simp
    have hr : R 3 3 = r ^ 2 / 2 := by rw [q4]; ring
    have e2 : ∀ X Y : ℝ, R 3 3 * (e + (R 0 3 * X + R 1 3 * Y) / R 3 3) ^ 2 = 2 * (r / 2 * e + R 0 3 / r * X + R 1 3 / r * Y) ^ 2 := fun X Y => by
      rw [hr]
      field_simp
      ring
    have e3 : Mxx * (1 / a * tx - Mxy / a / D * ty) ^ 2 + 2 * Mxy * ((1 / a * tx - Mxy / a / D * ty) * (a / D * ty)) + Myy * (a / D * ty) ^ 2 =
        tx ^ 2 + ty ^ 2 := by
      rw [hM, ← q1]
      field_simp
      ring
    rw [e1, e2, e3]

/-! ## The grid -/

theorem quadrature_near {M : ℕ} {f g : ℝ → ℝ} {δ : ℝ} (h : ∀ t, |f t - g t| ≤ δ) : |quadrature M f - quadrature M g| ≤ δ * quadrature M fun _ => 1 := by
  have hs := step_pos M
  unfold quadrature
  rw [← sub_mul, ← Finset.sum_sub_distrib, abs_mul, abs_of_pos hs, ← mul_assoc]
  refine mul_le_mul_of_nonneg_right ?_ hs.le
  refine (Finset.abs_sum_le_sum_abs _ _).trans ?_
  rw [Finset.mul_sum]
  refine Finset.sum_le_sum fun k _ => ?_
  rw [← sub_mul, abs_mul, abs_of_nonneg (weight_nonneg _), one_mul]
  exact mul_le_mul_of_nonneg_right (h _) (weight_nonneg _)

/-- The quadrature over three variables. -/
noncomputable def quadrature3 (M0 M1 : ℕ) (f : ℝ → ℝ → ℝ → ℝ) : ℝ :=
  quadrature M1 fun z => quadrature M0 fun y => quadrature M0 fun x => f x y z

/-- The Gaussian integral over three variables. -/
noncomputable def gauss3 (f : ℝ → ℝ → ℝ → ℝ) : ℝ :=
  ∫ z, (∫ y, (∫ x, f x y z * exp (-(1 / 2) * x ^ 2)) * exp (-(1 / 2) * y ^ 2)) * exp (-(1 / 2) * z ^ 2)

theorem tendsto_quadrature3 {f : ℝ → ℝ → ℝ → ℝ} (hf : Continuous fun p : ℝ × ℝ × ℝ => f p.1 p.2.1 p.2.2) {C : ℝ} (hb : ∀ x y z, |f x y z| ≤ C) :
    Tendsto (fun m : ℕ × ℕ => quadrature3 m.1 m.2 f) atTop (𝓝 (gauss3 f)) := by
  rw [← prod_atTop_atTop_eq]
  refine tendsto_quadrature tendsto_snd (fun n z => quadrature_le fun y => quadrature_le fun x => hb x y z) fun z vz hz => ?_
  refine tendsto_quadrature tendsto_fst (fun n y => quadrature_le fun x => hb x y _) fun y vy hy => ?_
  refine tendsto_quadrature tendsto_fst (fun n x => hb x _ _) fun x vx hx => ?_
  exact (hf.tendsto (x, y, z)).comp (hx.prodMk_nhds (hy.prodMk_nhds hz))

theorem quadrature3_near {M0 M1 : ℕ} {f g : ℝ → ℝ → ℝ → ℝ} {δ : ℝ} (h : ∀ x y z, |f x y z - g x y z| ≤ δ) :
    |quadrature3 M0 M1 f - quadrature3 M0 M1 g| ≤ δ * ((quadrature M0 fun _ => 1) * (quadrature M0 fun _ => 1) * (quadrature M1 fun _ => 1)) := by
  have := quadrature_near (M := M1) fun z => quadrature_near (M := M0) fun y => quadrature_near (M := M0) fun x => h x y z
  refine this.trans (le_of_eq (by ring))

theorem gridSum_eq (c : Coeffs) (ax : Vec × Vec × Vec) (p : Point) (S : Vec → Mode) (M0 M1 : ℕ) :
    gridSum c ax p S M0 M1 * step M0 ^ 2 * step M1 = quadrature3 M0 M1 fun x y z => term c ax p S x y z / c.detxy / c.detz := by
  unfold gridSum quadrature3 quadrature
  simp only [sum_nodes]
  rw [mul_assoc, mul_comm (step M0 ^ 2), ← mul_assoc, mul_right_comm]
  congr 1
  rw [Finset.sum_mul]
  refine Finset.sum_congr rfl fun z _ => ?_
  simp only [Finset.sum_mul]
  refine Finset.sum_congr rfl fun y _ => Finset.sum_congr rfl fun x _ => ?_
  ring

theorem gauss3_eq {f : ℝ → ℝ → ℝ → ℝ} (hf : Continuous fun p : ℝ × ℝ × ℝ => f p.1 p.2.1 p.2.2) {C : ℝ} (hb : ∀ x y z, |f x y z| ≤ C) :
    gauss3 f = ∫ v : Fin 3 → ℝ, f (v 2) (v 1) (v 0) * exp (-(1 / 2) * ∑ i, v i ^ 2) := by
  have ht : Tame fun v : Fin 3 → ℝ => f (v 2) (v 1) (v 0) * exp (-(1 / 2) * ∑ i, v i ^ 2) := by
    constructor
    · have h : Continuous fun v : Fin 3 → ℝ => (v 2, v 1, v 0) := by fun_prop
      exact (hf.comp h).mul (by fun_prop)
    · refine ⟨C, fun v => ?_⟩
      rw [abs_mul, abs_of_pos (exp_pos _), ← exp_sum, ← Finset.mul_sum]
      exact mul_le_mul_of_nonneg_right (hb _ _ _) (exp_pos _).le
  rw [ht.fubini]
  unfold gauss3
  refine integral_congr_ae (Eventually.of_forall fun z => ?_)
  have h1 := ht.slice z
  dsimp only
  rw [h1.fubini, ← integral_mul_const]
  refine integral_congr_ae (Eventually.of_forall fun y => ?_)
  have h2 := h1.slice y
  dsimp only
  rw [h2.fubini, ← integral_mul_const, ← integral_mul_const]
  refine integral_congr_ae (Eventually.of_forall fun x => ?_)
  dsimp only
  rw [integral_unique]
  have hv : (volume : Measure (Fin 0 → ℝ)).real Set.univ = 1 := by
    rw [Measure.real, volume_pi, Measure.pi_univ]
    simp
  rw [hv, one_smul, Fin.sum_univ_three]
  change _ = f x y z * exp (-(1 / 2) * (z ^ 2 + y ^ 2 + x ^ 2))
  simp only [mul_assoc, ← exp_add]
  congr 2
  ring

/-- The transformation as a matrix, for variables in the order vertical, along the second axis, along the first. -/
def transform (c : Coeffs) : Matrix (Fin 3) (Fin 3) ℝ := !![0, -c.tqxy, c.tqxx; 0, c.tqy, 0; c.tqz, 0, 0]

theorem transform_apply (c : Coeffs) (v : Fin 3 → ℝ) : toLin' (transform c) v = shift c (v 2) (v 1) (v 0) := by
  ext i
  fin_cases i <;> simp [transform, shift, mulVec, dotProduct, Fin.sum_univ_three] <;> ring

theorem det_transform (c : Coeffs) : (transform c).det = -(c.tqxx * c.tqy * c.tqz) := by
  simp [transform, det_fin_three]

/-- The change of variables in the integral. -/
theorem gauss3_shift {c : Coeffs} (hx : 0 < c.tqxx) (hy : 0 < c.tqy) (hz : 0 < c.tqz) (hd : 0 < c.detxy) (hdz : 0 < c.detz)
    (e1 : c.tqxx * c.tqy * c.tqz = 1 / c.detxy / c.detz) {f : (Fin 3 → ℝ) → ℝ} (hf : Continuous f) {g : ℝ → ℝ → ℝ → ℝ}
    (hg : Continuous fun p : ℝ × ℝ × ℝ => g p.1 p.2.1 p.2.2) {C : ℝ} (hC : ∀ x y z, |g x y z| ≤ C)
    (hfg : ∀ x y z, f (shift c x y z) = g x y z * exp (-(1 / 2) * (x ^ 2 + y ^ 2 + z ^ 2))) :
    gauss3 g / c.detxy / c.detz = ∫ d : Fin 3 → ℝ, f d := by
  have hpos : 0 < c.tqxx * c.tqy * c.tqz := by positivity
  have hdet : (transform c).det ≠ 0 := by
    rw [det_transform]
    exact (neg_neg_of_pos hpos).ne
  rw [gauss3_eq hg hC]
  have hmap := Real.map_matrix_volume_pi_eq_smul_volume_pi hdet
  have hT : Measurable (toLin' (transform c)) := (LinearMap.continuous_on_pi _).measurable
  have hi := integral_map (μ := volume) hT.aemeasurable (f := f) hf.aestronglyMeasurable
  rw [hmap, integral_smul_measure] at hi
  have e : (fun v : Fin 3 → ℝ => f (toLin' (transform c) v)) = fun v : Fin 3 → ℝ => g (v 2) (v 1) (v 0) * exp (-(1 / 2) * ∑ i, v i ^ 2) := by
    funext v
    rw [transform_apply, hfg, Fin.sum_univ_three]
    congr 3
    ring
  rw [e] at hi
  rw [← hi, det_transform, ENNReal.toReal_ofReal (abs_nonneg _), abs_inv, abs_neg, abs_of_pos hpos, e1, smul_eq_mul]
  field_simp

end Verif.Single
