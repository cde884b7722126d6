import Verif.Tools.PropsKin

/-!
# Property C238: how the angle of the scattering triangle follows its sides
-/

namespace Verif.Tools

open Real

/-! ## C238 -/

/-- **C238** only the ratios of the sides matter. -/
theorem C238_ratios {ki kf Q k : ℝ} (hki : 0 < ki) (hQ : 0 ≤ Q) (hk : 0 < k) (g : ℝ) (outside : Bool) :
    getAngleKiQ (k * ki) (k * kf) (k * Q) g outside = getAngleKiQ ki kf Q g outside := by
  rcases hQ.eq_or_lt with rfl | hQ
  · simp [getAngleKiQ]
  · rw [getAngle_pos (mul_pos hk hki) (mul_pos hk hQ), getAngle_pos hki hQ]
    have e : ((k * ki) ^ 2 - (k * kf) ^ 2 + (k * Q) ^ 2) / (2 * (k * ki) * (k * Q)) =
        (ki ^ 2 - kf ^ 2 + Q ^ 2) / (2 * ki * Q) := by
      rw [show (k * ki) ^ 2 - (k * kf) ^ 2 + (k * Q) ^ 2 = k ^ 2 * (ki ^ 2 - kf ^ 2 + Q ^ 2) by ring,
        show 2 * (k * ki) * (k * Q) = k ^ 2 * (2 * ki * Q) by ring, mul_div_mul_left _ _ (by positivity)]
    rw [e]

/-- **C238** with the opposite direction of the goniometer the angle is the opposite one, and the angle outside
the triangle is the supplement of the one inside. -/
theorem C238_direction {ki kf Q : ℝ} (hki : 0 < ki) (hQ : 0 ≤ Q) (g : ℝ) :
    (∀ outside, getAngleKiQ ki kf Q (-g) outside = (getAngleKiQ ki kf Q g outside).map (- ·)) ∧
    (0 < g → getAngleKiQ ki kf Q g true = (getAngleKiQ ki kf Q g false).map (π - ·)) := by
  rcases hQ.eq_or_lt with rfl | hQ
  · refine ⟨fun o => ?_, fun hg => ?_⟩
    · cases o <;> simp [getAngleKiQ, Except.map, Left.sign_neg, bind, Except.bind, pure, Except.pure]
    · simp [getAngleKiQ, Except.map, sign_pos hg, bind, Except.bind, pure, Except.pure]
  · refine ⟨fun o => ?_, fun hg => ?_⟩
    · rw [getAngle_pos hki hQ, getAngle_pos hki hQ]
      split_ifs <;> simp [Except.map, Left.sign_neg]
    · rw [getAngle_pos hki hQ, getAngle_pos hki hQ]
      split_ifs <;> simp_all [Except.map, sign_pos hg]

/-- **C238** the projections of the two wavevectors on the momentum transfer add up to it. -/
theorem C238_projections {ki kf Q g g' a b : ℝ} (hki : 0 < ki) (hkf : 0 < kf) (hQ : 0 < Q) (hg : g ≠ 0) (hg' : g' ≠ 0)
    (ha : getAngleKiQ ki kf Q g false = .ok a) (hb : getAngleKiQ kf ki Q g' false = .ok b) :
    ki * cos a + kf * cos b = Q := by
  obtain ⟨-, h1, -⟩ := C57_angle_partial hki hkf.le hQ hg ha
  obtain ⟨-, h2, -⟩ := C57_angle_partial hkf hki.le hQ hg' hb
  have h : Q * (ki * cos a + kf * cos b) = Q * Q := by linarith
  exact mul_left_cancel₀ hQ.ne' h

/-- **C238** elastic scattering: the momentum transfer is `2 k cos a`, or `2 k sin θ` with the Bragg angle
`θ = π/2 - a`. -/
theorem C238_elastic {k Q g a : ℝ} (hk : 0 < k) (hQ : 0 < Q) (hg : g ≠ 0) (h : getAngleKiQ k k Q g false = .ok a) :
    Q = 2 * k * cos a ∧ Q = 2 * k * sin (π / 2 - a) := by
  have h1 := C238_projections hk hk hQ hg hg h h
  rw [sin_pi_div_two_sub]
  constructor <;> linarith

/-- **C238** the longer the final wavevector, the larger the angle. -/
theorem C238_order {ki kf kf' Q g a b : ℝ} (hki : 0 < ki) (hkf : 0 ≤ kf) (hQ : 0 < Q) (hg : 0 < g) (hlt : kf < kf')
    (ha : getAngleKiQ ki kf Q g false = .ok a) (hb : getAngleKiQ ki kf' Q g false = .ok b) : a < b := by
  obtain ⟨-, h1, ha1, ha2, -⟩ := C57_angle_partial hki hkf hQ hg.ne' ha
  obtain ⟨-, h2, hb1, hb2, -⟩ := C57_angle_partial hki (hkf.trans hlt.le) hQ hg.ne' hb
  by_contra hn
  have h3 : cos a ≤ cos b := cos_le_cos_of_nonneg_of_le_pi (hb2 hg) ((le_abs_self a).trans ha1) (not_lt.1 hn)
  have h4 : kf ^ 2 < kf' ^ 2 := pow_lt_pow_left₀ hlt hkf two_ne_zero
  have h5 : 2 * ki * Q * cos a ≤ 2 * ki * Q * cos b := mul_le_mul_of_nonneg_left h3 (by positivity)
  linarith

/-- An equilateral triangle. -/
example : getAngleKiQ 1 1 1 1 false = .ok (arccos (1 / 2)) := by
  rw [getAngle_pos one_pos one_pos]
  norm_num [abs_of_pos]

end Verif.Tools
