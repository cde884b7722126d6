import Verif.Resolution.Flight

/-! # Helper lemmas: the derivatives of the flight are the matrices of the code -/

namespace Verif.Resolution

open Real Matrix
open Verif.Tools (arctan2 quad SPD)

variable {ki kf tm ta : ℝ}

/-- `r sin a`-type terms: derivative at zero of a product of a reflected length and two functions. -/
theorem prod_deriv {r f g : ℝ → ℝ} {r' f' g' : ℝ} (hr : HasDerivAt r r' 0) (hf : HasDerivAt f f' 0)
    (hg : HasDerivAt g g' 0) :
    HasDerivAt (fun t => r t * (f t * g t)) (r' * (f 0 * g 0) + r 0 * (f' * g 0 + f 0 * g')) 0 :=
  hr.mul (hf.mul hg)

theorem cos_line (a b : ℝ) : HasDerivAt (fun t : ℝ => cos (a + t * b)) (-sin a * b) 0 := by
  simpa using (angle_deriv a b).cos

theorem sin_line (a b : ℝ) : HasDerivAt (fun t : ℝ => sin (a + t * b)) (cos a * b) 0 := by
  simpa using (angle_deriv a b).sin

/-- The derivative of a reflected wavevector: length `k`, direction turned by `tt`. -/
theorem wave_line {k th : ℝ} (tt a b c d : ℝ) (h : sin th ≠ 0) (i : Fin 3) :
    HasDerivAt (fun t : ℝ => (reflected k th (t * a) (t * b) • heading (tt + t * c) (t * d)) i)
      (![k / 2 / tan th * (a - b) * cos tt - k * sin tt * c, k / 2 / tan th * (a - b) * sin tt + k * cos tt * c,
        k * d] i) 0 := by
  have hr := reflected_deriv k a b h
  have r0 : reflected k th (0 * a) (0 * b) = k := by rw [zero_mul, zero_mul, reflected_zero k h]
  have hz := cos_line 0 d
  have hs := sin_line 0 d
  simp only [zero_add, cos_zero, sin_zero, neg_zero, zero_mul, one_mul] at hz hs
  fin_cases i
  · have := prod_deriv hr (cos_line tt c) hz
    simp only [r0] at this
    exact this.congr_deriv (by simp; ring)
  · have := prod_deriv hr (sin_line tt c) hz
    simp only [r0] at this
    exact this.congr_deriv (by simp; ring)
  · have := hr.mul hs
    exact this.congr_deriv (by simp [reflected_zero k h])

theorem incoming_line (hm : sin tm ≠ 0) (v : Fin 8 → ℝ) (i : Fin 3) :
    HasDerivAt (fun t : ℝ => incoming ki tm (t • v) i) (![ki / 2 / tan tm * (v 0 - v 1), ki * v 1, ki * v 3] i) 0 := by
  have := wave_line (k := ki) 0 (v 0) (v 1) (v 1) (v 3) hm i
  simp only [zero_add, cos_zero, sin_zero, mul_zero, zero_mul, sub_zero, mul_one] at this
  exact this

theorem outgoing_line (tt : ℝ) (ha : sin ta ≠ 0) (v : Fin 8 → ℝ) (i : Fin 3) :
    HasDerivAt (fun t : ℝ => outgoing kf ta tt (t • v) i)
      (![kf / 2 / tan ta * (v 4 - v 5) * cos tt - kf * sin tt * v 4,
        kf / 2 / tan ta * (v 4 - v 5) * sin tt + kf * cos tt * v 4, kf * v 6] i) 0 :=
  wave_line (k := kf) tt (v 4) (v 5) (v 4) (v 6) ha i

theorem incoming_zero (hm : sin tm ≠ 0) : incoming ki tm 0 = ![ki, 0, 0] := by
  ext i
  fin_cases i <;> simp [incoming, heading, reflected_zero ki hm]

theorem outgoing_zero (tt : ℝ) (ha : sin ta ≠ 0) : outgoing kf ta tt 0 = ![kf * cos tt, kf * sin tt, 0] := by
  ext i
  fin_cases i <;> simp [outgoing, heading, reflected_zero kf ha]

theorem momentum_zero (tt : ℝ) (hm : sin tm ≠ 0) (ha : sin ta ≠ 0) :
    momentum ki kf tm ta tt 0 = ![ki - kf * cos tt, -(kf * sin tt), 0] := by
  rw [momentum, incoming_zero hm, outgoing_zero tt ha]
  ext i
  fin_cases i <;> simp

/-- `arctan2` gives the direction of the vector. -/
theorem arctan2_spec {x y r : ℝ} (hr : 0 < r) (h : r ^ 2 = x ^ 2 + y ^ 2) :
    cos (arctan2 y x) = r⁻¹ * x ∧ sin (arctan2 y x) = r⁻¹ * y := by
  have hn : ‖(⟨x, y⟩ : ℂ)‖ = r := by
    rw [Complex.norm_def, Complex.normSq_mk, show x * x + y * y = r ^ 2 by rw [h]; ring, Real.sqrt_sq hr.le]
  have hne : (⟨x, y⟩ : ℂ) ≠ 0 := by
    intro h0
    rw [h0, norm_zero] at hn
    exact hr.ne hn
  unfold arctan2
  rw [Complex.cos_arg hne, Complex.sin_arg, hn]
  constructor <;> simp only <;> ring

/-- The nominal momentum transfer is `q` long, and `phi` is its direction. -/
theorem phi_spec {q : ℝ} (tt : ℝ) (hm : sin tm ≠ 0) (ha : sin ta ≠ 0) (hq : 0 < q)
    (hl : q ^ 2 = ki ^ 2 + kf ^ 2 - 2 * ki * kf * cos tt) :
    along q ki kf tm ta tt = ![cos (arctan2 (-kf * sin tt) (ki - kf * cos tt)),
      sin (arctan2 (-kf * sin tt) (ki - kf * cos tt)), 0] := by
  have h : q ^ 2 = (ki - kf * cos tt) ^ 2 + (-kf * sin tt) ^ 2 := by
    rw [hl]
    have := sin_sq_add_cos_sq tt
    linear_combination (-kf ^ 2) * this
  obtain ⟨h1, h2⟩ := arctan2_spec hq h
  rw [along, momentum_zero tt hm ha, h1, h2]
  ext i
  fin_cases i <;> simp

/-- The matrices `B A` of the code are the derivative of the transfer. -/
theorem transfer_line {q tt : ℝ} (hm : sin tm ≠ 0) (ha : sin ta ≠ 0) (hq : 0 < q)
    (hl : q ^ 2 = ki ^ 2 + kf ^ 2 - 2 * ki * kf * cos tt) (k : Kin)
    (hk : k = ⟨ki, kf, tm, ta, tt, arctan2 (-kf * sin tt) (ki - kf * cos tt)⟩) (v : Fin 8 → ℝ) (i : Fin 4) :
    HasDerivAt (fun t : ℝ => transfer q ki kf tm ta tt (t • v) i) (((matB k * matA k) *ᵥ v) i) 0 := by
  have hal := phi_spec tt hm ha hq hl
  set phi := arctan2 (-kf * sin tt) (ki - kf * cos tt) with hphi
  have hac : across q ki kf tm ta tt = ![-sin phi, cos phi, 0] := by
    rw [across, hal]; rfl
  have hin := incoming_line (ki := ki) hm v
  have hout := outgoing_line (kf := kf) tt ha v
  have in0 := incoming_zero (ki := ki) hm
  have out0 := outgoing_zero (kf := kf) tt ha
  have hA : matA k *ᵥ v = ![ki / 2 / tan tm * (v 0 - v 1), ki * v 1, ki * v 3,
      kf / 2 / tan ta * (v 4 - v 5), kf * v 4, kf * v 6] := by
    subst hk
    ext j
    fin_cases j <;> simp [matA, mulVec, dotProduct, Fin.sum_univ_succ] <;> ring
  rw [← mulVec_mulVec, hA]
  have c2 : convert2 = 2.072 := by norm_num [convert2]
  fin_cases i
  · have := (((hin 0).sub (hout 0)).mul_const (cos phi)).add (((hin 1).sub (hout 1)).mul_const (sin phi))
    refine (this.congr_of_eventuallyEq (Filter.Eventually.of_forall fun t => ?_)).congr_deriv ?_
    · simp [transfer, hal, momentum, dotProduct, Fin.sum_univ_succ]
    · subst hk
      simp [matB, mulVec, dotProduct, Fin.sum_univ_succ, cos_sub, sin_sub]
      ring
  · have := (((hin 0).sub (hout 0)).mul_const (-sin phi)).add (((hin 1).sub (hout 1)).mul_const (cos phi))
    refine (this.congr_of_eventuallyEq (Filter.Eventually.of_forall fun t => ?_)).congr_deriv ?_
    · simp [transfer, hac, momentum, dotProduct, Fin.sum_univ_succ]
    · subst hk
      simp [matB, mulVec, dotProduct, Fin.sum_univ_succ, cos_sub, sin_sub]
      ring
  · have := (hin 2).sub (hout 2)
    refine (this.congr_of_eventuallyEq (Filter.Eventually.of_forall fun t => ?_)).congr_deriv ?_
    · simp [transfer, momentum]
    · subst hk
      simp [matB, mulVec, dotProduct, Fin.sum_univ_succ]
      ring
  · have := (((((hin 0).mul (hin 0)).add ((hin 1).mul (hin 1))).add ((hin 2).mul (hin 2))).sub
      ((((hout 0).mul (hout 0)).add ((hout 1).mul (hout 1))).add ((hout 2).mul (hout 2)))).const_mul 2.072
    refine (this.congr_of_eventuallyEq (Filter.Eventually.of_forall fun t => ?_)).congr_deriv ?_
    · simp only [transfer, energy, dotProduct, Fin.sum_univ_three, Fin.reduceFinMk, Matrix.cons_val, Pi.sub_apply,
        Pi.add_apply, Pi.mul_apply]
    · subst hk
      simp only [zero_smul, in0, out0]
      simp [matB, mulVec, dotProduct, Fin.sum_univ_succ, c2]
      have := sin_sq_add_cos_sq tt
      linear_combination (-2 * 2.072 * kf * (kf / 2 / tan ta * (v 4 - v 5))) * this

/-- One crystal: the rows of `C`. -/
theorem crystal_line {k th : ℝ} (hk : k ≠ 0) (h : sin th ≠ 0) (a b c d : ℝ) :
    HasDerivAt (fun t : ℝ => turn k th (t * a) (t * b) (t * c) (t * d)) ((a + b) / 2) 0 ∧
    HasDerivAt (fun t : ℝ => tilt k th (t * a) (t * b) (t * c) (t * d)) ((c - d) / (2 * sin th)) 0 := by
  have h1 := wave_line (k := k) 0 a b a c h
  have h2 := wave_line (k := k) (2 * th) a b b d h
  simp only [zero_add, cos_zero, sin_zero, mul_zero, zero_mul, sub_zero, mul_one] at h1
  have e : ∀ t i, crystallite k th (t * a) (t * b) (t * c) (t * d) i =
      (reflected k th (t * a) (t * b) • heading (t * a) (t * c)) i -
      (reflected k th (t * a) (t * b) • heading (2 * th + t * b) (t * d)) i := fun t i => by
    simp only [crystallite, Pi.smul_apply, Pi.sub_apply, smul_eq_mul]; ring
  constructor
  · have := ((((h1 0).sub (h2 0)).mul_const (cos th)).add (((h1 1).sub (h2 1)).mul_const (sin th))).div_const (2 * k * sin th)
    refine (this.congr_of_eventuallyEq (Filter.Eventually.of_forall fun t => ?_)).congr_deriv ?_
    · simp [turn, e, dotProduct, Fin.sum_univ_succ]
    · have hs : sin th ^ 2 = 1 - cos th ^ 2 := by rw [sin_sq]
      simp only [Matrix.cons_val_zero, Matrix.cons_val_one, tan_eq_sin_div_cos, cos_two_mul, sin_two_mul]
      rw [div_eq_iff (by positivity)]
      by_cases hc : cos th = 0
      · have hs1 : sin th ^ 2 = 1 := by rw [hs, hc]; ring
        simp [hc]
        ring
      · field_simp
        ring_nf
        simp only [hs]
        ring
  · have := ((h1 2).sub (h2 2)).div_const (2 * k * sin th)
    refine (this.congr_of_eventuallyEq (Filter.Eventually.of_forall fun t => ?_)).congr_deriv ?_
    · simp [tilt, e]
    · simp
      field_simp

/-- The matrix `C` of the code is the derivative of the deviations of the crystallites. -/
theorem misset_line (hki : ki ≠ 0) (hkf : kf ≠ 0) (hm : sin tm ≠ 0) (ha : sin ta ≠ 0) (k : Kin) (h1 : k.thetam = tm) (h2 : k.thetaa = ta)
    (v : Fin 8 → ℝ) (i : Fin 4) :
    HasDerivAt (fun t : ℝ => misset ki kf tm ta (t • v) i) ((matC k *ᵥ v) i) 0 := by
  obtain ⟨m1, m2⟩ := crystal_line hki hm (v 0) (v 1) (v 2) (v 3)
  obtain ⟨a1, a2⟩ := crystal_line hkf ha (v 4) (v 5) (v 6) (v 7)
  fin_cases i
  · exact m1.congr_deriv (by simp [matC, mulVec, dotProduct, Fin.sum_univ_succ]; ring)
  · exact m2.congr_deriv (by simp [matC, mulVec, dotProduct, Fin.sum_univ_succ, h1]; ring)
  · exact a1.congr_deriv (by simp [matC, mulVec, dotProduct, Fin.sum_univ_succ]; ring)
  · exact a2.congr_deriv (by simp [matC, mulVec, dotProduct, Fin.sum_univ_succ, h2]; ring)

end Verif.Resolution
