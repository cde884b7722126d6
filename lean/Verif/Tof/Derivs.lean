import Verif.Tof.Flight

/-! # The matrix of derivatives -/

namespace Verif.Tof
open Real Matrix
variable {x : Fin 9 → ℝ}

theorem sum9 (f : Fin 9 → ℝ) : ∑ j, f j = f 0 + f 1 + f 2 + f 3 + f 4 + f 5 + f 6 + f 7 + f 8 := by
  simp only [Fin.sum_univ_succ, Fin.sum_univ_zero, Fin.isValue]
  simp only [Fin.succ_zero_eq_one, Fin.succ_one_eq_two]
  norm_num [add_assoc]
  rfl

/-- The values of the measured quantities that the derivatives refer to. -/
structure At (x : Fin 9 → ℝ) (m : Measures) (k : Kin) (ti tf : ℝ) : Prop where
  x0 : x 0 = ti
  x2 : x 2 = k.vi * ti
  x3 : x 3 = m.lMs
  x4 : x 4 = k.vf * tf
  x5 : x 5 = m.thetaI
  x6 : x 6 = m.phiI
  x7 : x 7 = k.theta
  x8 : x 8 = k.phi
  hin : speedIn x = k.vi
  hout : timeOut x = tf

theorem at_nominal {f : Form} {m : Measures} {k : Kin} {ti tf : ℝ} (hvi : k.vi ≠ 0) (hvf : k.vf ≠ 0) (hti : ti ≠ 0)
    (hpm : m.lPm = k.vi * ti) (hsd : m.lSd = k.vf * tf) (hp : path f m k = m.lSd) : At (nominal f m k) m k ti tf := by
  have x0 : nominal f m k 0 = ti := by simp [nominal, hpm, hvi]
  have x2 : nominal f m k 2 = k.vi * ti := by simp [nominal, hpm]
  have x1 : nominal f m k 1 = m.lMs / k.vi + tf := by simp [nominal, hsd, hp, hvf]
  have x3 : nominal f m k 3 = m.lMs := by simp [nominal]
  have hin : speedIn (nominal f m k) = k.vi := by rw [speedIn, x0, x2]; field_simp
  exact ⟨x0, x2, x3, by simp [nominal, hsd], by simp [nominal], by simp [nominal], by simp [nominal], by simp [nominal], hin,
    by rw [timeOut, hin, x1, x3]; ring⟩

section
variable {c : Consts} {m : Measures} {k : Kin} {ti tf : ℝ} (hvi : k.vi ≠ 0) (hti : ti ≠ 0) (htf : tf ≠ 0) (h : At x m k ti tf)
include hvi hti htf h

omit hvi htf in
theorem inDeriv (d : Fin 9 → ℝ) : HasDerivAt (fun s : ℝ => speedIn (x + s • d)) (d 2 / ti - k.vi / ti * d 0) 0 := by
  have := speedIn_deriv (x := x) (by rw [h.x0]; exact hti) d
  rwa [h.x0, h.hin] at this

theorem outDeriv (d : Fin 9 → ℝ) : HasDerivAt (fun s : ℝ => (x + s • d) 4 / timeOut (x + s • d))
    (d 4 / tf - k.vf / tf * (d 1 - d 3 / k.vi + m.lMs / k.vi ^ 2 * (d 2 / ti - k.vi / ti * d 0))) 0 := by
  have nt : timeOut (x + (0 : ℝ) • d) ≠ 0 := by simpa [h.hout] using htf
  have := (line x d 4).div (timeOut_deriv (x := x) (by rw [h.x0]; exact hti) (by rw [h.x2]; exact mul_ne_zero hvi hti) d) nt
  refine this.congr_deriv ?_
  rw [zero_smul, add_zero, h.hout, h.x4, h.hin, h.x3, h.x0]
  field_simp

/-- The momentum transfer, if the final direction is `g`. -/
theorem momentumDeriv {f : Form} (d : Fin 9 → ℝ) (b : Fin 3) {g : ℝ → ℝ} {g' : ℝ}
    (hg : HasDerivAt g g' 0) (hv : ∀ s, velocityOut f (x + s • d) b = (x + s • d) 4 / timeOut (x + s • d) * g s) :
    HasDerivAt (fun s : ℝ => momentum c f (x + s • d) b)
      (c.mn / c.hbar * 1e-10 * ((d 2 / ti - k.vi / ti * d 0) * heading m.thetaI m.phiI b + k.vi *
        ((![-sin m.thetaI * cos m.phiI, cos m.thetaI * cos m.phiI, 0] : Fin 3 → ℝ) b * d 5 +
        (![-cos m.thetaI * sin m.phiI, -sin m.thetaI * sin m.phiI, cos m.phiI] : Fin 3 → ℝ) b * d 6) -
        ((d 4 / tf - k.vf / tf * (d 1 - d 3 / k.vi + m.lMs / k.vi ^ 2 * (d 2 / ti - k.vi / ti * d 0))) * g 0 + k.vf * g'))) 0 := by
  have := (((inDeriv hti h d).mul (heading_deriv x d 5 6 b)).sub ((outDeriv hvi hti htf h d).mul hg)).const_mul (c.mn / c.hbar * 1e-10)
  have e : (fun s : ℝ => momentum c f (x + s • d) b) = fun s => c.mn / c.hbar * 1e-10 * (speedIn (x + s • d) *
      heading ((x + s • d) 5) ((x + s • d) 6) b - (x + s • d) 4 / timeOut (x + s • d) * g s) := by
    funext s
    simp only [momentum, Pi.smul_apply, Pi.sub_apply, smul_eq_mul, hv]
  rw [e]
  refine this.congr_deriv ?_
  simp only [zero_smul, add_zero, h.hin, h.hout, h.x4, h.x5, h.x6]
  rw [mul_div_cancel_right₀ _ htf]

/-- The energy transfer, if the square of the final direction is `g`. -/
theorem energyDeriv {f : Form} (d : Fin 9 → ℝ) {g : ℝ → ℝ} {g' : ℝ} (hg : HasDerivAt g g' 0)
    (hv : ∀ s, velocityOut f (x + s • d) ⬝ᵥ velocityOut f (x + s • d) = ((x + s • d) 4 / timeOut (x + s • d)) ^ 2 * g s) :
    HasDerivAt (fun s : ℝ => energyLoss c f (x + s • d))
      (c.mn / 2 * (2 * k.vi * (d 2 / ti - k.vi / ti * d 0) - (2 * k.vf *
        (d 4 / tf - k.vf / tf * (d 1 - d 3 / k.vi + m.lMs / k.vi ^ 2 * (d 2 / ti - k.vi / ti * d 0))) * g 0 + k.vf ^ 2 * g')) /
          (1e-3 * c.e)) 0 := by
  have := ((((inDeriv hti h d).pow 2).sub (((outDeriv hvi hti htf h d).pow 2).mul hg)).const_mul (c.mn / 2)).div_const (1e-3 * c.e)
  have e : (fun s : ℝ => energyLoss c f (x + s • d)) = fun s => c.mn / 2 * (speedIn (x + s • d) ^ 2 -
      ((x + s • d) 4 / timeOut (x + s • d)) ^ 2 * g s) / (1e-3 * c.e) := by
    funext s
    simp only [energyLoss, hv]
  rw [e]
  refine this.congr_deriv ?_
  simp only [zero_smul, add_zero, h.hin, h.hout, h.x4, Pi.pow_apply]
  rw [mul_div_cancel_right₀ _ htf]
  norm_num

end

theorem heading_unit (p q : ℝ) : heading p q ⬝ᵥ heading p q = 1 := by
  simp only [heading, dotProduct, Fin.sum_univ_three, cons_val_zero, cons_val_one, cons_val]
  nlinarith [sin_sq_add_cos_sq p, sin_sq_add_cos_sq q]

theorem sphere_deriv (c : Consts) {m : Measures} {k : Kin} {ti tf : ℝ} (hvi : k.vi ≠ 0) (hvf : k.vf ≠ 0) (hti : ti ≠ 0) (htf : tf ≠ 0)
    (hpm : m.lPm = k.vi * ti) (hsd : m.lSd = k.vf * tf) (d : Fin 9 → ℝ) (a : Fin 4) :
    HasDerivAt (fun s : ℝ => transfer c .spherical (nominal .spherical m k + s • d) a)
      (∑ j, jacobi c .spherical m k ti tf a j * d j) 0 := by
  have hx := at_nominal (f := .spherical) hvi hvf hti hpm hsd rfl
  set x := nominal .spherical m k
  clear_value x
  have vel (s : ℝ) : velocityOut .spherical (x + s • d) = ((x + s • d) 4 / timeOut (x + s • d)) • heading ((x + s • d) 7) ((x + s • d) 8) := by
    simp only [velocityOut, pixel, smul_smul]
    congr 1
    ring
  have Dm (b : Fin 3) := momentumDeriv (c := c) hvi hti htf hx (f := .spherical) d b (heading_deriv x d 7 8 b) fun s => by rw [vel]; rfl
  have De := energyDeriv (c := c) hvi hti htf hx (f := .spherical) d (hasDerivAt_const 0 1) fun s => by
    rw [vel]
    simp only [smul_dotProduct, dotProduct_smul, heading_unit, smul_eq_mul]
    ring
  simp only [zero_smul, add_zero, hx.x7, hx.x8] at Dm
  have hh := c.hbar_pos.ne'
  have hee := c.e_pos.ne'
  rw [sum9]
  fin_cases a
  · refine (Dm 0).congr_deriv ?_
    simp [jacobi, qDerivs, matR, matRtt, matRph, matRttI, matRphI, hpm, heading]
    field_simp
    ring
  · refine (Dm 1).congr_deriv ?_
    simp [jacobi, qDerivs, matR, matRtt, matRph, matRttI, matRphI, hpm, heading]
    field_simp
    ring
  · refine (Dm 2).congr_deriv ?_
    simp [jacobi, qDerivs, matR, matRtt, matRph, matRttI, matRphI, hpm, heading]
    field_simp
    ring
  · refine De.congr_deriv ?_
    simp [jacobi, eDerivs, hpm, hsd]
    field_simp
    ring

theorem cylinder_deriv (c : Consts) {m : Measures} {k : Kin} {ti tf : ℝ} (hvi : k.vi ≠ 0) (hvf : k.vf ≠ 0) (hti : ti ≠ 0) (htf : tf ≠ 0)
    (hpm : m.lPm = k.vi * ti) (hsd : m.lSd = k.vf * tf) (hphi : k.phi = 0) (d : Fin 9 → ℝ) (a : Fin 4) :
    HasDerivAt (fun s : ℝ => transfer c .cylinder (nominal .cylinder m k + s • d) a)
      (∑ j, jacobi c .cylinder m k ti tf a j * d j) 0 := by
  have hx := at_nominal (f := .cylinder) hvi hvf hti hpm hsd (by simp [path, hphi])
  set x := nominal .cylinder m k
  clear_value x
  have vel (s : ℝ) : velocityOut .cylinder (x + s • d) = ((x + s • d) 4 / timeOut (x + s • d)) •
      ![cos ((x + s • d) 7), sin ((x + s • d) 7), tan ((x + s • d) 8)] := by
    simp only [velocityOut, pixel, smul_smul]
    congr 1
    ring
  have z8 : x 8 = 0 := by rw [hx.x8, hphi]
  have T : HasDerivAt (fun s : ℝ => tan ((x + s • d) 8)) (d 8) 0 := by
    have h1 : HasDerivAt tan (1 / cos ((x + (0 : ℝ) • d) 8) ^ 2) ((x + (0 : ℝ) • d) 8) :=
      hasDerivAt_tan (by simp [z8])
    have := h1.comp (0 : ℝ) (line x d 8)
    refine this.congr_deriv ?_
    simp [z8]
  have D0 := momentumDeriv (c := c) hvi hti htf hx (f := .cylinder) d 0 (line x d 7).cos fun s => by rw [vel]; rfl
  have D1 := momentumDeriv (c := c) hvi hti htf hx (f := .cylinder) d 1 (line x d 7).sin fun s => by rw [vel]; rfl
  have D2 := momentumDeriv (c := c) hvi hti htf hx (f := .cylinder) d 2 T fun s => by rw [vel]; rfl
  have De := energyDeriv (c := c) hvi hti htf hx (f := .cylinder) d ((T.pow 2).const_add 1) fun s => by
    rw [vel]
    simp only [smul_dotProduct, dotProduct_smul, smul_eq_mul]
    simp only [dotProduct, Fin.sum_univ_three, cons_val_zero, cons_val_one, cons_val]
    have e : cos ((x + s • d) 7) * cos ((x + s • d) 7) + sin ((x + s • d) 7) * sin ((x + s • d) 7) = 1 := by
      nlinarith [sin_sq_add_cos_sq ((x + s • d) 7)]
    rw [e]
    simp only [Pi.pow_apply]
    ring
  simp only [zero_smul, add_zero, hx.x7, z8] at D0 D1 D2 De
  have hh := c.hbar_pos.ne'
  have hee := c.e_pos.ne'
  rw [sum9]
  fin_cases a
  · refine D0.congr_deriv ?_
    simp [jacobi, qDerivs, matR, matRtt, matRph, matRttI, matRphI, hpm, heading]
    field_simp
    ring
  · refine D1.congr_deriv ?_
    simp [jacobi, qDerivs, matR, matRtt, matRph, matRttI, matRphI, hpm, heading]
    field_simp
    ring
  · refine D2.congr_deriv ?_
    simp [jacobi, qDerivs, matR, matRtt, matRph, matRttI, matRphI, hpm, hphi, heading]
    field_simp
    ring
  · refine De.congr_deriv ?_
    simp [jacobi, eDerivs, hpm, hsd, z8]
    field_simp
    ring
end Verif.Tof
