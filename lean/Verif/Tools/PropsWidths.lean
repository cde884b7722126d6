import Verif.Tools.PropsProj
import Mathlib.LinearAlgebra.Matrix.Adjugate

/-!
# Properties C90 and C91: widths computed from a resolution matrix
-/

namespace Verif.Tools

open Real Matrix MeasureTheory
open Verif.Crystal (Fail npSqrt npArccos npDiv)

/-- `w` is the full width at half maximum of a peak `f` at zero. -/
def IsFWHM (f : ℝ → ℝ) (w : ℝ) : Prop := 0 < w ∧ (∀ x, f x ≤ f 0) ∧ ∀ x, f 0 / 2 ≤ f x ↔ |x| ≤ w / 2

/-- A peak has one width only. -/
theorem IsFWHM.unique {f : ℝ → ℝ} {w w' : ℝ} (h : IsFWHM f w) (h' : IsFWHM f w') : w = w' := by
  have key : ∀ {a b}, IsFWHM f a → IsFWHM f b → a ≤ b := by
    intro a b ha hb
    have h1 := (ha.2.2 (a / 2)).2 (by rw [abs_of_pos (by linarith [ha.1])])
    have h2 := (hb.2.2 (a / 2)).1 h1
    rw [abs_of_pos (by linarith [ha.1])] at h2
    linarith
  exact le_antisymm (key h h') (key h' h)

theorem gauss_fwhm {r m : ℝ} (hr : 0 < r) (hm : 0 < m) :
    IsFWHM (fun x => r * exp (-(m * x ^ 2) / 2)) (√(8 * log 2) / √m) := by
  have hl : 0 < log 2 := log_pos one_lt_two
  refine ⟨by positivity, fun x => ?_, fun x => ?_⟩
  · refine mul_le_mul_of_nonneg_left (exp_le_exp.2 ?_) hr.le
    have : 0 ≤ m * x ^ 2 := by positivity
    simp only [ne_eq, OfNat.ofNat_ne_zero, not_false_eq_true, zero_pow, mul_zero, neg_zero, zero_div]
    linarith
  · simp only [ne_eq, OfNat.ofNat_ne_zero, not_false_eq_true, zero_pow, mul_zero, neg_zero, zero_div, exp_zero, mul_one]
    rw [div_eq_mul_inv, mul_le_mul_iff_right₀ hr]
    have : (2 : ℝ)⁻¹ = exp (-log 2) := by rw [exp_neg, exp_log two_pos]
    rw [this, exp_le_exp, ← sqrt_div (by positivity)]
    have h4 : √(8 * log 2 / m) / 2 = √(2 * log 2 / m) := by
      rw [show 8 * log 2 / m = 2 ^ 2 * (2 * log 2 / m) by ring, sqrt_mul (by norm_num), sqrt_sq (by norm_num)]
      ring
    rw [h4, le_sqrt (abs_nonneg x) (by positivity), sq_abs, le_div_iff₀ hm]
    constructor <;> intro h <;> linarith

theorem widthOf_ok {m : ℝ} (hm : 0 < m) : widthOf m = .ok (√(8 * log 2) / √m) := by
  unfold widthOf npSqrt npDiv
  rw [if_pos hm.le, ok_bind, if_neg (sqrt_pos.2 hm).ne']

/-! ## C90: planar dispersions -/

theorem quad_eq {n : ℕ} (M : Matrix (Fin n) (Fin n) ℝ) (x : Fin n → ℝ) : quad M x = x ⬝ᵥ M *ᵥ x := by
  simp only [quad, dotProduct, mulVec, Finset.mul_sum]
  refine Finset.sum_congr rfl fun k _ => Finset.sum_congr rfl fun l _ => ?_
  ring

theorem quad_congr {n : ℕ} (M S : Matrix (Fin n) (Fin n) ℝ) (x : Fin n → ℝ) :
    quad (Sᵀ * M * S) x = quad M (S *ᵥ x) := by
  rw [quad_eq, quad_eq, ← mulVec_mulVec, ← mulVec_mulVec, dotProduct_mulVec, vecMul_transpose]

/-- The point with the first three coordinates given that lies at the distance `e` from the plane
`C · x = 0`. -/
noncomputable def planePoint (C : Fin 4 → ℝ) (q0 q1 q2 e : ℝ) : Fin 4 → ℝ :=
  ![q0, q1, q2, (e - C 0 * q0 - C 1 * q1 - C 2 * q2) / C 3]

theorem phononT_det (C : Fin 4 → ℝ) : (phononT C).det = C 3 := by
  have h : phononT C = !![1, 0, 0, 0; 0, 1, 0, 0; 0, 0, 1, 0; C 0, C 1, C 2, C 3] := by
    ext i j
    fin_cases i <;> fin_cases j <;> simp [phononT, updateRow_apply]
  rw [h]
  simp [det_succ_row_zero, Fin.sum_univ_succ, Fin.succAbove]

theorem phononT_point {C : Fin 4 → ℝ} (hC : C 3 ≠ 0) (q0 q1 q2 e : ℝ) :
    phononT C *ᵥ planePoint C q0 q1 q2 e = ![q0, q1, q2, e] := by
  ext i
  fin_cases i <;> simp [phononT, planePoint, mulVec, dotProduct, Fin.sum_univ_four, updateRow_apply, one_apply]
  field_simp
  ring

theorem phononS_point {C : Fin 4 → ℝ} (hC : C 3 ≠ 0) (q0 q1 q2 e : ℝ) :
    (phononT C)⁻¹ *ᵥ ![q0, q1, q2, e] = planePoint C q0 q1 q2 e := by
  rw [← phononT_point hC, mulVec_mulVec, nonsing_inv_mul _ (by rw [phononT_det]; exact hC.isUnit), one_mulVec]

theorem SPD.congr {n : ℕ} {M : Matrix (Fin n) (Fin n) ℝ} (h : SPD M) {S T : Matrix (Fin n) (Fin n) ℝ} (hT : T * S = 1) :
    SPD (Sᵀ * M * S) := by
  constructor
  · have hs : Mᵀ = M := by ext k l; exact h.symm l k
    have : (Sᵀ * M * S)ᵀ = Sᵀ * M * S := by
      rw [transpose_mul, transpose_mul, transpose_transpose, hs, Matrix.mul_assoc]
    intro k l
    exact congrFun (congrFun this.symm k) l
  · rintro x ⟨k, hk⟩
    rw [quad_congr]
    refine h.pos _ ?_
    by_contra hc
    push Not at hc
    have h0 : S *ᵥ x = 0 := funext hc
    have h1 : x = 0 := by rw [← one_mulVec x, ← hT, ← mulVec_mulVec, h0, mulVec_zero]
    exact hk (congrFun h1 k)

/-- **C90** for a positive definite matrix and a plane that is not parallel to the energy axis,
`get_phonon_width` succeeds: the intensity integrated over planes parallel to the given one is a Gaussian with the
prefactor returned, and the width returned is its full width at half maximum. -/
theorem C90_phonon {M : Matrix (Fin 4) (Fin 4) ℝ} (h : SPD M) {C : Fin 4 → ℝ} (hC : C 3 ≠ 0) {r0 : ℝ} (hr : 0 < r0) :
    ∃ r w, getPhononWidth r0 M C = .ok (r, w) ∧
      IsFWHM (fun e => ∫ q2 : ℝ, ∫ q1 : ℝ, ∫ q0 : ℝ, r0 * exp (-quad M (planePoint C q0 q1 q2 e) / 2)) w ∧
      (∫ q2 : ℝ, ∫ q1 : ℝ, ∫ q0 : ℝ, r0 * exp (-quad M (planePoint C q0 q1 q2 0) / 2)) = r := by
  have hdet : (phononT C).det ≠ 0 := by rwa [phononT_det]
  set S := (phononT C)⁻¹ with hS
  have hTS : phononT C * S = 1 := mul_nonsing_inv _ hdet.isUnit
  have hMP : SPD (Sᵀ * M * S) := h.congr hTS
  obtain ⟨r1, P1, e1, v1, s1, i1⟩ := C55_marginal hMP 0 r0
  obtain ⟨r2, P2, e2, v2, s2, i2⟩ := C55_marginal s1 0 r1
  obtain ⟨r3, P3, e3, v3, s3, i3⟩ := C55_marginal s2 0 r2
  have hp := s3.diag 0
  have hpos1 : 0 < r1 := by rw [v1]; have := hMP.diag 0; positivity
  have hpos2 : 0 < r2 := by rw [v2]; have := s1.diag 0; positivity
  have hpos3 : 0 < r3 := by rw [v3]; have := s2.diag 0; positivity
  have hmarg : ∀ e, (∫ q2 : ℝ, ∫ q1 : ℝ, ∫ q0 : ℝ, r0 * exp (-quad M (planePoint C q0 q1 q2 e) / 2)) =
      r3 * exp (-(P3 0 0 * e ^ 2) / 2) := by
    intro e
    have a1 : ∀ q1 q2, (∫ q0 : ℝ, r0 * exp (-quad M (planePoint C q0 q1 q2 e) / 2)) = r1 * exp (-quad P1 ![q1, q2, e] / 2) := by
      intro q1 q2
      rw [← i1]
      congr 1
      funext q0
      rw [quad_congr, Fin.insertNth_zero', ← phononS_point hC]
      rfl
    have a2 : ∀ q2, (∫ q1 : ℝ, r1 * exp (-quad P1 ![q1, q2, e] / 2)) = r2 * exp (-quad P2 ![q2, e] / 2) := by
      intro q2
      rw [← i2]
      congr 1
    have a3 : (∫ q2 : ℝ, r2 * exp (-quad P2 ![q2, e] / 2)) = r3 * exp (-quad P3 ![e] / 2) := by
      rw [← i3]
      congr 1
    simp only [a1, a2, a3]
    congr 3
    simp [quad]
    ring
  refine ⟨r3, √(8 * log 2) / √(P3 0 0), ?_, ?_, ?_⟩
  · unfold getPhononWidth
    rw [if_neg hdet]
    simp only [← hS]
    rw [e1, ok_bind, e2, ok_bind, e3, ok_bind, npSqrt, if_pos hp.le, ok_bind, npDiv, if_neg (sqrt_pos.2 hp).ne', ok_bind]
    rfl
  · simp only [hmarg]
    exact gauss_fwhm hpos3 hp
  · rw [hmarg]
    simp

/-- **C90** a plane parallel to the energy axis is an error. -/
theorem C90_parallel (r0 : ℝ) (M : Matrix (Fin 4) (Fin 4) ℝ) {C : Fin 4 → ℝ} (hC : C 3 = 0) :
    getPhononWidth r0 M C = .error .linAlgError := by
  unfold getPhononWidth
  rw [if_pos (by rw [phononT_det, hC])]
  rfl

/-- The widths of a stack of projections: **C90** `fproject` returns the half width at half maximum of the
marginal along the axis chosen, `sqrt(2 ln 2 (M⁻¹)_ii)`. -/
theorem C90_fproject {M : Matrix (Fin 3) (Fin 3) ℝ} (h : SPD M) (i : Fin 3) :
    fproject M (i : ℕ) = .ok √(2 * log 2 * M⁻¹ i i) := by
  have hl : 0 < log 2 := log_pos one_lt_two
  -- the two projections as iterated Schur complements
  have d0 := h.diag 0
  have d1 := h.diag 1
  have d2 := h.diag 2
  have minor : ∀ a b : Fin 3, a ≠ b → 0 < M a a * M b b - M a b ^ 2 := by
    intro a b hab
    have := h.pos (fun k => if k = a then -M a b else if k = b then M a a else 0)
      ⟨b, by simpa [hab.symm] using (h.diag a).ne'⟩
    have e : quad M (fun k => if k = a then -M a b else if k = b then M a a else 0) = M a a * (M a a * M b b - M a b ^ 2) := by
      have s10 := h.symm 1 0
      have s20 := h.symm 2 0
      have s21 := h.symm 2 1
      fin_cases a <;> fin_cases b <;> first | exact absurd rfl hab | skip
      all_goals
        simp [quad, Fin.sum_univ_three, s10, s20, s21]
        ring
    rw [e] at this
    exact pos_of_mul_pos_right this (h.diag a).le
  have s10 := h.symm 1 0
  have s20 := h.symm 2 0
  have s21 := h.symm 2 1
  have m01 := minor 0 1 (by decide)
  have m02 := minor 0 2 (by decide)
  have m12 := minor 1 2 (by decide)
  have hdet : 0 < M.det := by
    have := h.pos ![M 0 1 * M 1 2 - M 0 2 * M 1 1, M 0 1 * M 0 2 - M 0 0 * M 1 2, M 0 0 * M 1 1 - M 0 1 ^ 2] ⟨2, m01.ne'⟩
    have e : quad M ![M 0 1 * M 1 2 - M 0 2 * M 1 1, M 0 1 * M 0 2 - M 0 0 * M 1 2, M 0 0 * M 1 1 - M 0 1 ^ 2] =
        (M 0 0 * M 1 1 - M 0 1 ^ 2) * M.det := by
      rw [det_fin_three]
      simp [quad, Fin.sum_univ_three, s10, s20, s21]
      ring
    rw [e] at this
    exact pos_of_mul_pos_right this m01.le
  have key : ∀ (v j i : Fin 3) (m : ℝ), m = M v v * M j j - M j v ^ 2 → 0 < m → 0 < M v v →
      (M i i - M i v ^ 2 / M v v) - (M i j - M i v * M j v / M v v) ^ 2 / (M j j - M j v ^ 2 / M v v) = M.det / m →
      M⁻¹ i i = m / M.det →
      (do
        let a ← npDiv (M i v ^ 2) (M v v)
        let b ← npDiv (M i v * M j v) (M v v)
        let c ← npDiv (M j v ^ 2) (M v v)
        let d ← npDiv ((M i j - b) ^ 2) (M j j - c)
        npDiv (√(2 * log 2)) (← npSqrt (M i i - a - d))) = .ok √(2 * log 2 * M⁻¹ i i) := by
    intro v j i m hm hmp hv hform hinv
    have hne : M j j - M j v ^ 2 / M v v ≠ 0 := by
      have : M j j - M j v ^ 2 / M v v = m / M v v := by rw [hm]; field_simp
      rw [this]
      positivity
    unfold npDiv npSqrt
    simp only [if_neg hv.ne', ok_bind, if_neg hne, hform]
    have hq : 0 < M.det / m := by positivity
    rw [if_pos hq.le, ok_bind, if_neg (sqrt_pos.2 hq).ne', hinv, ← sqrt_div (by positivity)]
    congr 2
    field_simp
  have hinv : ∀ i, M⁻¹ i i = M.adjugate i i / M.det := by
    intro i
    rw [inv_def, Ring.inverse_eq_inv', Matrix.smul_apply, smul_eq_mul, div_eq_inv_mul]
  fin_cases i
  · refine key 2 1 0 _ rfl (by nlinarith [m12]) d2 ?_ ?_
    · rw [det_fin_three]
      simp only [s10, s20, s21]
      have h1 : M 1 1 - M 1 2 ^ 2 / M 2 2 = (M 1 1 * M 2 2 - M 1 2 ^ 2) / M 2 2 := by field_simp
      have h2 : M 2 2 * M 1 1 - M 1 2 ^ 2 = M 1 1 * M 2 2 - M 1 2 ^ 2 := by ring
      rw [h1, h2]
      have hm := m12.ne'
      generalize hx : M 1 1 * M 2 2 - M 1 2 ^ 2 = m at *
      have hz : M 1 1 = (m + M 1 2 ^ 2) / M 2 2 := by rw [← hx]; field_simp; ring
      rw [hz]
      field_simp
      ring
    · rw [hinv]
      congr 1
      simp [adjugate_fin_three, s21]
      ring
  · refine key 0 2 1 _ rfl (by rw [s20]; exact m02) d0 ?_ ?_
    · rw [det_fin_three]
      simp only [s10, s20, s21]
      have h1 : M 2 2 - M 0 2 ^ 2 / M 0 0 = (M 0 0 * M 2 2 - M 0 2 ^ 2) / M 0 0 := by field_simp
      rw [h1]
      have := m02.ne'
      field_simp
      ring
    · rw [hinv]
      congr 1
      simp [adjugate_fin_three, s20]
      ring
  · refine key 0 1 2 _ rfl (by rw [s10]; exact m01) d0 ?_ ?_
    · rw [det_fin_three]
      simp only [s10, s20, s21]
      have h1 : M 1 1 - M 0 1 ^ 2 / M 0 0 = (M 0 0 * M 1 1 - M 0 1 ^ 2) / M 0 0 := by field_simp
      rw [h1]
      have := m01.ne'
      field_simp
      ring
    · rw [hinv]
      congr 1
      simp [adjugate_fin_three, s10]
      ring

/-- **C90** other axes are rejected. -/
theorem C90_fproject_error (M : Matrix (Fin 3) (Fin 3) ℝ) {i : ℤ} (h : i ≠ 0 ∧ i ≠ 1 ∧ i ≠ 2) :
    fproject M i = .error .valueError := by
  unfold fproject
  rw [if_neg h.1, if_neg h.2.1, if_neg h.2.2]
  rfl

/-! ## C91: Bragg widths -/

/-- The four axes and the places of their widths in the result of `get_bragg_widths`. -/
def braggIndex : Fin 4 → Fin 5 := ![0, 1, 2, 4]

theorem bragg_ok {M : Matrix (Fin 4) (Fin 4) ℝ} (h : SPD M) : ∃ r v, getPhononWidth 0 M ![0, 0, 0, 1] = .ok (r, v) ∧
    IsFWHM (fun e => ∫ q2 : ℝ, ∫ q1 : ℝ, ∫ q0 : ℝ, exp (-quad M ![q0, q1, q2, e] / 2)) v ∧
    getBraggWidths M = .ok ![√(8 * log 2) / √(M 0 0) * 2, √(8 * log 2) / √(M 1 1) * 2, √(8 * log 2) / √(M 2 2) * 2,
      v * 2, √(8 * log 2) / √(M 3 3) * 2] := by
  obtain ⟨r, v, h1, h2, -⟩ := C90_phonon h (C := ![0, 0, 0, 1]) (by simp) one_pos
  have hind : ∃ r', getPhononWidth 0 M ![0, 0, 0, 1] = .ok (r', v) := by
    have hdet : (phononT ![0, 0, 0, 1]).det ≠ 0 := by rw [phononT_det]; simp
    have hMP : SPD ((phononT ![0, 0, 0, 1])⁻¹ᵀ * M * (phononT ![0, 0, 0, 1])⁻¹) :=
      h.congr (mul_nonsing_inv _ hdet.isUnit)
    have p1 := hMP.diag 0
    obtain ⟨_, P1, e1, _, s1, -⟩ := C55_marginal hMP 0 1
    have f1 := (project_ok (r0 := 1) p1).symm.trans e1
    have g1 := (Prod.mk.inj (Except.ok.inj f1)).2
    obtain ⟨_, P2, e2, _, s2, -⟩ := C55_marginal s1 0 1
    have f2 := (project_ok (r0 := 1) (s1.diag 0)).symm.trans e2
    have g2 := (Prod.mk.inj (Except.ok.inj f2)).2
    obtain ⟨_, P3, e3, _, s3, -⟩ := C55_marginal s2 0 1
    have f3 := (project_ok (r0 := 1) (s2.diag 0)).symm.trans e3
    have g3 := (Prod.mk.inj (Except.ok.inj f3)).2
    have hp := s3.diag 0
    have hall : ∀ r0, ∃ r', getPhononWidth r0 M ![0, 0, 0, 1] = .ok (r', √(8 * log 2) / √(P3 0 0)) := by
      intro r0
      refine ⟨√(2 * π / P2 0 0) * (√(2 * π / P1 0 0) * (√(2 * π / ((phononT ![0, 0, 0, 1])⁻¹ᵀ * M * (phononT ![0, 0, 0, 1])⁻¹) 0 0) * r0)), ?_⟩
      unfold getPhononWidth
      rw [if_neg hdet]
      simp only
      rw [project_ok p1, g1, ok_bind, project_ok (s1.diag 0), g2, ok_bind, project_ok (s2.diag 0), g3, ok_bind, npSqrt,
        if_pos hp.le, ok_bind, npDiv, if_neg (sqrt_pos.2 hp).ne', ok_bind]
      rfl
    obtain ⟨ra, ha⟩ := hall 1
    obtain ⟨rb, hb⟩ := hall 0
    rw [h1] at ha
    rw [← (Prod.mk.inj (Except.ok.inj ha)).2] at hb
    exact ⟨rb, hb⟩
  obtain ⟨r', h3⟩ := hind
  refine ⟨r', v, h3, ?_, ?_⟩
  · convert h2 using 1
    funext e
    simp [planePoint]
  · unfold getBraggWidths
    rw [widthOf_ok (h.diag 0), widthOf_ok (h.diag 1), widthOf_ok (h.diag 2), widthOf_ok (h.diag 3), h3]
    rfl

theorem quad_axis {n : ℕ} (M : Matrix (Fin n) (Fin n) ℝ) (k : Fin n) (x : ℝ) :
    quad M (Pi.single k x) = M k k * x ^ 2 := by
  unfold quad
  rw [Finset.sum_eq_single k, Finset.sum_eq_single k]
  · simp
    ring
  · intro l _ hl
    simp [hl]
  · simp
  · intro l _ hl
    simp [hl]
  · simp

/-- **C91** is false as stated: the Bragg widths are twice the full widths at half maximum of the
resolution function along the axes, for every positive definite matrix. -/
theorem C91_double {M : Matrix (Fin 4) (Fin 4) ℝ} (h : SPD M) : ∃ w, getBraggWidths M = .ok w ∧
    (∀ k, IsFWHM (fun x => exp (-quad M (Pi.single k x) / 2)) (w (braggIndex k) / 2)) ∧
    IsFWHM (fun e => ∫ q2 : ℝ, ∫ q1 : ℝ, ∫ q0 : ℝ, exp (-quad M ![q0, q1, q2, e] / 2)) (w 3 / 2) ∧
    (∀ k, ¬ IsFWHM (fun x => exp (-quad M (Pi.single k x) / 2)) (w (braggIndex k))) := by
  obtain ⟨r, v, -, h2, h3⟩ := bragg_ok h
  have hk : ∀ k, IsFWHM (fun x => exp (-quad M (Pi.single k x) / 2)) (√(8 * log 2) / √(M k k)) := by
    intro k
    simp only [quad_axis]
    simpa using gauss_fwhm one_pos (h.diag k)
  refine ⟨_, h3, ?_, ?_, ?_⟩
  · intro k
    convert hk k using 1
    fin_cases k <;> simp [braggIndex]
  · simpa using h2
  · intro k hc
    have := hc.unique (hk k)
    have hp := (hk k).1
    fin_cases k <;> simp [braggIndex] at this hp <;> linarith

/-- **C91** (partial) half of what is returned are the full widths. Missing: the factor two. -/
theorem C91_half_partial {M : Matrix (Fin 4) (Fin 4) ℝ} (h : SPD M) : ∃ w, getBraggWidths M = .ok w ∧
    ∀ k, IsFWHM (fun x => exp (-quad M (Pi.single k x) / 2)) (w (braggIndex k) / 2) := by
  obtain ⟨w, h1, h2, -⟩ := C91_double h
  exact ⟨w, h1, h2⟩

/-- A matrix that meets the hypotheses. -/
example : SPD (!![2, 1, 0, 0; 1, 3, -1, 0; 0, -1, 4, 0; 0, 0, 0, 1] : Matrix (Fin 4) (Fin 4) ℝ) := by
  constructor
  · intro k l
    fin_cases k <;> fin_cases l <;> rfl
  · rintro x ⟨k, hk⟩
    have e : quad (!![2, 1, 0, 0; 1, 3, -1, 0; 0, -1, 4, 0; 0, 0, 0, 1] : Matrix (Fin 4) (Fin 4) ℝ) x =
        (x 0 + x 1) ^ 2 + x 0 ^ 2 + x 1 ^ 2 + (x 1 - x 2) ^ 2 + 3 * x 2 ^ 2 + x 3 ^ 2 := by
      simp [quad, Fin.sum_univ_four]
      ring
    rw [e]
    have hp : 0 < x k ^ 2 := by positivity
    fin_cases k
    · change 0 < x 0 ^ 2 at hp
      nlinarith [sq_nonneg (x 0 + x 1), sq_nonneg (x 0), sq_nonneg (x 1 - x 2), sq_nonneg (x 1), sq_nonneg (x 2), sq_nonneg (x 3)]
    · change 0 < x 1 ^ 2 at hp
      nlinarith [sq_nonneg (x 0 + x 1), sq_nonneg (x 0), sq_nonneg (x 1 - x 2), sq_nonneg (x 1), sq_nonneg (x 2), sq_nonneg (x 3)]
    · change 0 < x 2 ^ 2 at hp
      nlinarith [sq_nonneg (x 0 + x 1), sq_nonneg (x 0), sq_nonneg (x 1 - x 2), sq_nonneg (x 1), sq_nonneg (x 2), sq_nonneg (x 3)]
    · change 0 < x 3 ^ 2 at hp
      nlinarith [sq_nonneg (x 0 + x 1), sq_nonneg (x 0), sq_nonneg (x 1 - x 2), sq_nonneg (x 1), sq_nonneg (x 2), sq_nonneg (x 3)]

end Verif.Tools
