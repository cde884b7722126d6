import Verif.Convolution.PropsMore
import Verif.Single.Props

/-!
# Property theorem C150 for matrices that couple the vertical component
-/

namespace Verif.Single

open Real Matrix MeasureTheory Filter Topology
open Verif.Crystal (Fail Vec)
open Verif.Resolution (M4 Decoupled Res)
open Verif.Tools (quad SPD)
open Verif.Convolution (Err lift Point Pref cut cut_spd cut_decoupled cut_of_decoupled Accuracy Method gridSize)

/-- The elements that couple the vertical component with the others are not read. -/
theorem coeffs_cut (R : M4) : coeffs (cut R) = coeffs R := by
  unfold coeffs
  simp [cut]

/-- A mode without dispersion and width. -/
def flatMode (W : ℝ) : Vec → Mode := fun _ => ⟨W, 1, 0⟩

theorem flatMode_line (W : ℝ) : Line (flatMode W) 1 :=
  ⟨continuous_const, continuous_const, continuous_const, fun _ => by simp [flatMode], fun _ => le_rfl⟩

/-- A matrix that couples the vertical component with the one along `Q`. -/
noncomputable def tiltedForm : M4 := !![1, 0, 3 / 5, 0; 0, 1, 0, 0; 3 / 5, 0, 1, 0; 0, 0, 0, 1]

theorem tiltedForm_quad (a b c d : ℝ) : quad tiltedForm ![a, b, c, d] = (a + 3 / 5 * c) ^ 2 + b ^ 2 + (4 / 5 * c) ^ 2 + d ^ 2 := by
  simp [quad, tiltedForm, Fin.sum_univ_four]
  ring

theorem tiltedForm_spd : SPD tiltedForm := by
  refine ⟨fun k l => by fin_cases k <;> fin_cases l <;> rfl, fun x hx => ?_⟩
  have e : x = ![x 0, x 1, x 2, x 3] := by
    funext k
    fin_cases k <;> rfl
  rw [e, tiltedForm_quad]
  by_contra hn
  have h3 : x 3 = 0 := by nlinarith [sq_nonneg (x 0 + 3 / 5 * x 2), sq_nonneg (x 1), sq_nonneg (4 / 5 * x 2), sq_nonneg (x 3)]
  have h2 : x 2 = 0 := by nlinarith [sq_nonneg (x 0 + 3 / 5 * x 2), sq_nonneg (x 1), sq_nonneg (4 / 5 * x 2), sq_nonneg (x 3)]
  have h1 : x 1 = 0 := by nlinarith [sq_nonneg (x 0 + 3 / 5 * x 2), sq_nonneg (x 1), sq_nonneg (4 / 5 * x 2), sq_nonneg (x 3)]
  have h0 : x 0 = 0 := by
    rw [h1, h2, h3] at hn
    nlinarith [sq_nonneg (x 0)]
  obtain ⟨k, hk⟩ := hx
  fin_cases k
  · exact hk h0
  · exact hk h1
  · exact hk h2
  · exact hk h3

theorem cut_tiltedForm : cut tiltedForm = 1 := by
  ext k l
  fin_cases k <;> fin_cases l <;> simp [cut, tiltedForm]

/-- The integral of a Gaussian of three variables after a change of variables. -/
theorem gauss_fin3 {B : Matrix (Fin 3) (Fin 3) ℝ} (hB : 0 < B.det) :
    ∫ d : Fin 3 → ℝ, exp (-(1 / 2) * (toLin' B d ⬝ᵥ toLin' B d)) = √(2 * π) ^ 3 / B.det := by
  have hmap := Real.map_matrix_volume_pi_eq_smul_volume_pi hB.ne'
  have hT : Measurable (toLin' B) := (LinearMap.continuous_on_pi _).measurable
  have hi := integral_map (μ := volume) hT.aemeasurable (f := fun d : Fin 3 → ℝ => exp (-(1 / 2) * (d ⬝ᵥ d)))
    (by apply Continuous.aestronglyMeasurable; unfold dotProduct; fun_prop)
  rw [hmap, integral_smul_measure] at hi
  rw [← hi]
  have e2 : ∫ d : Fin 3 → ℝ, exp (-(1 / 2) * (d ⬝ᵥ d)) = √(2 * π) ^ 3 := by
    have := integral_fintype_prod_volume_eq_pow (ι := Fin 3) fun t : ℝ => exp (-(1 / 2) * t ^ 2)
    rw [integral_gaussian] at this
    have e : (fun d : Fin 3 → ℝ => exp (-(1 / 2) * (d ⬝ᵥ d))) = fun d => ∏ i, exp (-(1 / 2) * d i ^ 2) := by
      funext d
      rw [← exp_sum, ← Finset.mul_sum]
      congr 2
      exact Finset.sum_congr rfl fun i _ => by ring
    rw [e, this, Fintype.card_fin, show π / (1 / 2) = 2 * π by ring]
  rw [e2, ENNReal.toReal_ofReal (abs_nonneg _), abs_of_pos (inv_pos.2 hB), smul_eq_mul]
  field_simp

theorem expected_tilted (ax : Vec × Vec × Vec) (Q : Vec) (W r0 : ℝ) (rm : M4) :
    expected ax (fun _ : Fin 1 => flatMode W) ⟨fun _ _ => 1, fun _ => 0⟩ (Q, W) ⟨r0, tiltedForm, rm⟩ = √(2 * π) ^ 3 * (5 / 4) * r0 := by
  rw [expected_eq]
  obtain ⟨B, hB⟩ : ∃ B : Matrix (Fin 3) (Fin 3) ℝ, B = !![1, 0, 3 / 5; 0, 1, 0; 0, 0, 4 / 5] := ⟨_, rfl⟩
  have hd : B.det = 4 / 5 := by
    rw [hB, det_fin_three]
    simp
  have h := gauss_fin3 (B := B) (by rw [hd]; norm_num)
  have e : (fun d : Fin 3 → ℝ => exp (-(1 / 2) * (toLin' B d ⬝ᵥ toLin' B d))) =
      fun d => exp (-(1 / 2) * quad tiltedForm ![d 0, d 1, d 2, W - W]) := by
    funext d
    congr 2
    rw [tiltedForm_quad, hB]
    simp [toLin'_apply, dotProduct, mulVec, Fin.sum_univ_three]
    ring
  rw [e, hd] at h
  simp only [flatMode, lorentz, if_true, one_mul, mul_one, Finset.univ_unique, Finset.sum_const, Finset.card_singleton, one_smul, add_zero, h]
  ring

theorem expected_level (ax : Vec × Vec × Vec) (Q : Vec) (W r0 : ℝ) (rm : M4) :
    expected ax (fun _ : Fin 1 => flatMode W) ⟨fun _ _ => 1, fun _ => 0⟩ (Q, W) ⟨r0, 1, rm⟩ = √(2 * π) ^ 3 * r0 := by
  rw [expected_eq]
  have h := gauss_fin3 (B := 1) (by rw [det_one]; norm_num)
  have e : (fun d : Fin 3 → ℝ => exp (-(1 / 2) * (toLin' (1 : Matrix (Fin 3) (Fin 3) ℝ) d ⬝ᵥ toLin' (1 : Matrix (Fin 3) (Fin 3) ℝ) d))) =
      fun d => exp (-(1 / 2) * quad (1 : M4) ![d 0, d 1, d 2, W - W]) := by
    funext d
    congr 2
    simp [dotProduct, Fin.sum_univ_three, Verif.Tools.quad, Fin.sum_univ_four, Matrix.one_apply]
  rw [e, det_one, div_one] at h
  simp only [flatMode, lorentz, if_true, one_mul, mul_one, Finset.univ_unique, Finset.sum_const, Finset.card_singleton, one_smul, add_zero, h]

/-- C150 fails for matrices with elements between the vertical component and the others, which the code does not read.  For a
matrix of that kind at two or more points, and a sharp mode without dispersion at the energy of the points, the results for fine
grids stay away from the convolution by more than the accuracy of the profile allows: by a fifth of the volume that the
resolution function would have without these elements. -/
theorem C150_coupled_false {G : Type} {m : ℕ} (gen : Random G) (g : G) (ax : Vec × Vec × Vec) (hm : m ≠ 1) (Q : Fin m → Vec) (W : ℝ) {r0 : ℝ} (h0 : 0 < r0)
    (rm : M4) (seed : Option ℕ) :
    ∃ R : M4, SPD R ∧ ∃ v : ℕ → ℕ → Fin m → ℝ,
      (∀ M0 M1, convolveAt gen g ax (List.ofFn fun _ : Fin m => ⟨r0, R, rm⟩) (List.ofFn fun k => (Q k, W)) (fun (_ : Fin 1) _ => ⟨W, 1, 0⟩)
        (some ⟨fun _ _ => 1, fun _ => 0⟩) 2 .fix (.list [M0, M1]) seed = .ok (List.ofFn (v M0 M1), g)) ∧
      ∀ k, ∃ ε > 1e-4 * (r0 * √(R 3 3 * (2 * π) ^ 3 / R.det)), ∀ᶠ M : ℕ × ℕ in atTop,
        ε < |v M.1 M.2 k - expected ax (fun (_ : Fin 1) _ => ⟨W, 1, 0⟩) ⟨fun _ _ => 1, fun _ => 0⟩ (Q k, W) ⟨r0, R, rm⟩| := by
  obtain ⟨c, hc, -⟩ := coeffs_ok tiltedForm_spd
  have hp : 0 < √(2 * π) ^ 3 := by have := pi_pos; positivity
  have h3 : √((2 * π) ^ 3) = √(2 * π) ^ 3 := by
    have := pi_pos
    rw [sqrt_eq_iff_mul_self_eq_of_pos hp, ← pow_add, show 3 + 3 = 2 * 3 from rfl, pow_mul, sq_sqrt (by positivity)]
  have hdet : tiltedForm.det = 16 / 25 := by
    rw [Matrix.det_succ_row_zero]
    simp [Fin.sum_univ_four, Matrix.det_fin_three, Fin.succAbove, tiltedForm]
    norm_num
  have htol : √(tiltedForm 3 3 * (2 * π) ^ 3 / tiltedForm.det) = √(2 * π) ^ 3 * (5 / 4) := by
    have := pi_pos
    rw [hdet, show tiltedForm 3 3 = 1 from rfl, one_mul, sqrt_div (by positivity), h3, show (16 / 25 : ℝ) = (4 / 5) ^ 2 by norm_num,
      sqrt_sq (by norm_num)]
    ring
  refine ⟨tiltedForm, tiltedForm_spd, fun M0 M1 k => fixAt c ax (Q k, W) (fun _ : Fin 1 => flatMode W) (fun _ => 1) M0 M1 * r0 + 0, fun M0 M1 => ?_, fun k => ?_⟩
  · obtain ⟨cs, hcs, hall⟩ := coeffs_all (rs := List.ofFn fun _ : Fin m => (⟨r0, tiltedForm, rm⟩ : Res)) fun r hr => by
      obtain ⟨k, rfl⟩ := (List.mem_ofFn' _ _).1 hr
      exact tiltedForm_spd
    have hlc : cs.length = m := by rw [← hall.length_eq, List.length_ofFn]
    unfold convolveAt
    rw [if_neg (by simpa using hm), hcs]
    simp only [lift, ok_bind, gridSize, pure_ok, prefactor, if_true]
    congr 2
    refine List.ext_getElem (by simp [hlc]) fun k h1 h2 => ?_
    have hk : k < cs.length := by
      rw [hlc]
      simpa using h2
    have hck : cs[k] = c := by
      have := List.forall₂_iff_get.1 hall |>.2 k (by simpa using h2) hk
      simp only [List.get_eq_getElem, List.getElem_ofFn] at this
      rw [hc] at this
      exact (Except.ok.inj this).symm
    rw [List.getElem_map, List.getElem_ofFn]
    simp only [List.getElem_zip, List.getElem_ofFn, hck]
    rfl
  · refine ⟨√(2 * π) ^ 3 * r0 / 5, ?_, ?_⟩
    · rw [htol]
      have := mul_pos hp h0
      nlinarith
    · have near := fixAt_near ax (Q k, W) (sqw := fun _ : Fin 1 => flatMode W) (C := fun _ => 1) (fun _ => flatMode_line W) ⟨fun _ _ => 1, fun _ => 0⟩
        (r := ⟨r0, 1, rm⟩) (c := c) (by
          have := cut_spd tiltedForm_spd
          rwa [cut_tiltedForm] at this) (by
          have := cut_decoupled tiltedForm
          rwa [cut_tiltedForm] at this) h0 (by
          have := coeffs_cut tiltedForm
          rw [cut_tiltedForm] at this
          exact this.trans hc) (ε := √(2 * π) ^ 3 * r0 / 100) (by
          simp only [det_one, div_one, Matrix.one_apply_eq, one_mul, abs_one, Finset.univ_unique, Finset.sum_const, Finset.card_singleton, one_smul, h3]
          have := mul_pos hp h0
          nlinarith)
      filter_upwards [near] with M hM
      rw [expected_level] at hM
      have e := expected_tilted ax (Q k) W r0 rm
      unfold flatMode at e hM ⊢
      rw [e]
      have := mul_pos hp h0
      have h1 := (abs_le.1 hM).2
      rw [abs_of_neg (by nlinarith)]
      nlinarith

/-- The matrix has an element that couples the vertical component with the one along `Q`. -/
example : ¬ Decoupled tiltedForm := fun h => by
  have := (h 0 (by decide)).1
  rw [show tiltedForm 0 2 = 3 / 5 from rfl] at this
  norm_num at this

end Verif.Single
