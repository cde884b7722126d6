import Verif.Angles.Model
import Verif.Energy.Props
import Verif.Crystal.PropsOrient
import Verif.Common.Exc
import Mathlib.Analysis.Real.Pi.Bounds

/-!
# Properties C128-C130: the angles of the spectrometer and Currat-Axe peaks
-/

namespace Verif.Angles

open Real Matrix
open Verif.Crystal (Vec Mat Lattice deg2rad rad2deg Valid Realises Dual vecOf len)
open Verif.Tools (arctan2)
open Verif.Resolution (Setup)
open Verif.Energy (Consts)

/-! ## C128: Bragg's law at monochromator and analyzer -/

/-- The energy in meV of a neutron with wave number `k` in 1/Å. -/
noncomputable def energyOfWave (c : Consts) (k : ℝ) : ℝ := (c.hbar * (k * 1e10)) ^ 2 / (2 * c.m) * c.J

/-- `th` degrees is the Bragg angle of a crystal with reciprocal vector `tau` for neutrons of wave number `k`. -/
def Bragg (k tau th : ℝ) : Prop := 0 ≤ th ∧ th ≤ 90 ∧ 2 * k * sin (th * π / 180) = tau

/-- Wave numbers before and after the sample: the fixed one has the fixed energy, and they differ as the energy transfer
demands, with the factor of the code. -/
structure Waves (c : Consts) (s : Setup) (w ki kf : ℝ) : Prop where
  ki_pos : 0 < ki
  kf_pos : 0 < kf
  fixed : energyOfWave c (if s.settings.infin = some 1 then ki else kf) = s.settings.efixed
  transfer : ki ^ 2 - kf ^ 2 = 0.4826 * w

theorem fixed_wave (c : Consts) {e : ℝ} (he : 0 < e) :
    ∃ k, ofNum (Verif.Energy.derive c e).wavevec = some k ∧ 0 < k ∧ energyOfWave c k = e := by
  obtain ⟨lam, k, v, -, h2, -, -, -, h4, -, -, -, -, -, h5, -⟩ := Verif.Energy.derive_consistent c he
  refine ⟨k, by rw [h2]; rfl, h4, ?_⟩
  unfold energyOfWave
  rw [← h5]
  have := c.J_pos
  change e / c.J * c.J = e
  field_simp

theorem energyOfWave_inj (c : Consts) {k k' : ℝ} (h : 0 < k) (h' : 0 < k') (e : energyOfWave c k = energyOfWave c k') : k = k' := by
  have hb := Verif.Energy.hbar_pos c
  have hm := c.m_pos
  have hJ := c.J_pos
  unfold energyOfWave at e
  have e1 := mul_right_cancel₀ hJ.ne' e
  have e2 : (c.hbar * (k * 1e10)) ^ 2 = (c.hbar * (k' * 1e10)) ^ 2 := by
    field_simp at e1
    linear_combination c.hbar ^ 2 * 1e10 ^ 2 * e1
  have e3 := (pow_left_inj₀ (by positivity) (by positivity) two_ne_zero).1 e2
  have e4 := mul_left_cancel₀ hb.ne' e3
  exact mul_right_cancel₀ (by norm_num) e4

/-- The settings of the fixed energy. -/
def Fixed (s : Setup) : Prop := s.settings.infin = none ∨ s.settings.infin = some (-1) ∨ s.settings.infin = some 1

theorem wavevectors_eq (c : Consts) {s : Setup} (hf : Fixed s) {w ki kf : ℝ} (h : Waves c s w ki kf) (he : 0 < s.settings.efixed) :
    wavevectors c s w = (some ki, some kf) := by
  obtain ⟨k, h1, h2, h3⟩ := fixed_wave c he
  have hi := h.ki_pos
  have hk := h.kf_pos
  have ht := h.transfer
  have hfx := h.fixed
  unfold wavevectors
  rw [h1]
  dsimp only
  have r {x y : ℝ} (hx : 0 < x) (e : y = x ^ 2) : root y = some x := by
    unfold root
    rw [e, if_pos (by positivity), sqrt_sq hx.le]
  rcases hf with e | e | e
  · rw [e, if_neg (by simp)] at hfx
    have ek := energyOfWave_inj c hk h2 (hfx.trans h3.symm)
    rw [e, fx, r hi, r hk] <;> · rw [← ek]; linarith
  · rw [e, if_neg (by norm_num)] at hfx
    have ek := energyOfWave_inj c hk h2 (hfx.trans h3.symm)
    have : fx (some (-1)) = 2 := by simp [fx]
    rw [e, this, r hi, r hk] <;> · rw [← ek]; linarith
  · rw [e, if_pos rfl] at hfx
    have ek := energyOfWave_inj c hi h2 (hfx.trans h3.symm)
    have : fx (some 1) = 1 := by norm_num [fx]
    rw [e, this, r hi, r hk] <;> · rw [← ek]; linarith

theorem braggAngle_ok {dir tau k : ℝ} (hk : 0 < k) (ht : 0 < tau) (hr : tau ≤ 2 * k) :
    ∃ th, (braggAngle dir tau k).map rad2deg = some (dir * th) ∧
      ((braggAngle dir tau k).map (2 * ·)).map rad2deg = some (2 * (dir * th)) ∧ Bragg k tau th := by
  have hp := pi_pos
  have e1 : over (2 * π) tau = some (2 * π / tau) := if_neg ht.ne'
  have hx : π / (2 * π / tau * k) = tau / (2 * k) := by field_simp
  have e2 : over π (2 * π / tau * k) = some (tau / (2 * k)) := by
    rw [over, if_neg (by positivity), hx]
  have h1 : tau / (2 * k) ≤ 1 := by rw [div_le_one (by positivity)]; exact hr
  have h0 : 0 ≤ tau / (2 * k) := by positivity
  have e3 : asin (tau / (2 * k)) = some (arcsin (tau / (2 * k))) := if_pos ⟨by linarith, h1⟩
  have e : braggAngle dir tau k = some (dir * arcsin (tau / (2 * k))) := by
    unfold braggAngle
    rw [e1]
    simp only [Option.bind_eq_bind, Option.bind_some, e2, e3]
    rfl
  refine ⟨arcsin (tau / (2 * k)) * 180 / π, ?_, ?_, ?_, ?_, ?_⟩
  · rw [e]; simp only [Option.map_some, rad2deg]; congr 1; ring
  · rw [e]; simp only [Option.map_some, rad2deg]; congr 1; ring
  · have := arcsin_nonneg.2 h0
    positivity
  · rw [div_le_iff₀ hp]
    have := arcsin_le_pi_div_two (tau / (2 * k))
    linarith
  · rw [show arcsin (tau / (2 * k)) * 180 / π * π / 180 = arcsin (tau / (2 * k)) by field_simp, sin_arcsin (by linarith) h1]
    field_simp

theorem braggAngle_none {dir tau k : ℝ} (hk : 0 < k) (ht : 0 < tau) (hr : 2 * k < tau) : braggAngle dir tau k = none := by
  have hp := pi_pos
  have e1 : over (2 * π) tau = some (2 * π / tau) := if_neg ht.ne'
  have hx : π / (2 * π / tau * k) = tau / (2 * k) := by field_simp
  have e2 : over π (2 * π / tau * k) = some (tau / (2 * k)) := by
    rw [over, if_neg (by positivity), hx]
  have h1 : 1 < tau / (2 * k) := by rw [one_lt_div (by positivity)]; exact hr
  have e3 : asin (tau / (2 * k)) = none := if_neg (by intro h; linarith [h.2])
  unfold braggAngle
  rw [e1]
  simp only [Option.bind_eq_bind, Option.bind_some, e2, e3]
  rfl

/-- C128 (partial).  Monochromator and analyzer are turned, each in its sense, to the Bragg angle of the wave number before and
after the sample, and A2 and A6 are twice these angles.  Missing: the wave numbers differ by the energy transfer only
up to the rounding of a constant (`C128_energy`). -/
theorem C128_bragg_partial (c : Consts) {s : Setup} (hf : Fixed s) (he : 0 < s.settings.efixed) {w ki kf : ℝ}
    (h : Waves c s w ki kf) (hm : 0 < s.settings.mono.tau) (ha : 0 < s.settings.ana.tau) (rm : s.settings.mono.tau ≤ 2 * ki)
    (ra : s.settings.ana.tau ≤ 2 * kf) (hkl : Vec) : ∃ tm ta,
      (anglesAndQ c s hkl w).a1 = some (s.settings.mono.dir * tm) ∧
      (anglesAndQ c s hkl w).a2 = some (2 * (s.settings.mono.dir * tm)) ∧ Bragg ki s.settings.mono.tau tm ∧
      (anglesAndQ c s hkl w).a5 = some (s.settings.ana.dir * ta) ∧
      (anglesAndQ c s hkl w).a6 = some (2 * (s.settings.ana.dir * ta)) ∧ Bragg kf s.settings.ana.tau ta := by
  obtain ⟨tm, m1, m2, m3⟩ := braggAngle_ok (dir := s.settings.mono.dir) h.ki_pos hm rm
  obtain ⟨ta, a1, a2, a3⟩ := braggAngle_ok (dir := s.settings.ana.dir) h.kf_pos ha ra
  refine ⟨tm, ta, ?_, ?_, m3, ?_, ?_, a3⟩
  all_goals
    unfold anglesAndQ
    rw [wavevectors_eq c hf h he]
    assumption

/-- C128.  If a crystal cannot reflect the wave number, its angles are `nan`. -/
theorem C128_unreachable (c : Consts) {s : Setup} (hf : Fixed s) (he : 0 < s.settings.efixed) {w ki kf : ℝ}
    (h : Waves c s w ki kf) (hkl : Vec) :
    (0 < s.settings.mono.tau → 2 * ki < s.settings.mono.tau →
      (anglesAndQ c s hkl w).a1 = none ∧ (anglesAndQ c s hkl w).a2 = none) ∧
    (0 < s.settings.ana.tau → 2 * kf < s.settings.ana.tau →
      (anglesAndQ c s hkl w).a5 = none ∧ (anglesAndQ c s hkl w).a6 = none) := by
  unfold anglesAndQ
  rw [wavevectors_eq c hf h he]
  dsimp only [Option.bind_some]
  refine ⟨fun h0 h1 => ?_, fun h0 h1 => ?_⟩
  · rw [braggAngle_none h.ki_pos h0 h1]; exact ⟨rfl, rfl⟩
  · rw [braggAngle_none h.kf_pos h0 h1]; exact ⟨rfl, rfl⟩

/-- The constants of nature to five digits. -/
structure Physical (c : Consts) : Prop where
  h1 : 6.62606e-34 ≤ c.h
  h2 : c.h ≤ 6.62608e-34
  m1 : 1.67492e-27 ≤ c.m
  m2 : c.m ≤ 1.67493e-27
  J1 : 6.2415e21 ≤ c.J
  J2 : c.J ≤ 6.24152e21

theorem transfer_const {c : Consts} (hc : Physical c) :
    |(c.hbar * 1e10) ^ 2 / (2 * c.m) * c.J * 0.4826 - 1| ≤ 1e-4 := by
  have hp1 := pi_gt_d6
  have hp2 := pi_lt_d6
  have hm := c.m_pos
  have hh := c.h_pos
  have hJ := c.J_pos
  have hpi := pi_pos
  have e : (c.hbar * 1e10) ^ 2 / (2 * c.m) * c.J * 0.4826 = c.h ^ 2 * c.J * 0.4826e20 / (8 * (π ^ 2 * c.m)) := by
    unfold Consts.hbar
    field_simp
    ring
  rw [e, abs_le, ← sub_nonneg, ← sub_nonneg (a := (1e-4 : ℝ))]
  have hd : 0 < 8 * (π ^ 2 * c.m) := by positivity
  have p1 : (3.141592 : ℝ) ^ 2 ≤ π ^ 2 := pow_le_pow_left₀ (by norm_num) hp1.le 2
  have p2 : π ^ 2 ≤ (3.141593 : ℝ) ^ 2 := pow_le_pow_left₀ hpi.le hp2.le 2
  have q1 : (6.62606e-34 : ℝ) ^ 2 ≤ c.h ^ 2 := pow_le_pow_left₀ (by norm_num) hc.h1 2
  have q2 : c.h ^ 2 ≤ (6.62608e-34 : ℝ) ^ 2 := pow_le_pow_left₀ hh.le hc.h2 2
  have d1 : (3.141592 : ℝ) ^ 2 * 1.67492e-27 ≤ π ^ 2 * c.m := mul_le_mul p1 hc.m1 (by norm_num) (by positivity)
  have d2 : π ^ 2 * c.m ≤ (3.141593 : ℝ) ^ 2 * 1.67493e-27 := mul_le_mul p2 hc.m2 hm.le (by positivity)
  have n1 : (6.62606e-34 : ℝ) ^ 2 * 6.2415e21 ≤ c.h ^ 2 * c.J := mul_le_mul q1 hc.J1 (by norm_num) (by positivity)
  have n2 : c.h ^ 2 * c.J ≤ (6.62608e-34 : ℝ) ^ 2 * 6.24152e21 := mul_le_mul q2 hc.J2 hJ.le (by positivity)
  constructor
  · have : (1 - 1e-4) ≤ c.h ^ 2 * c.J * 0.4826e20 / (8 * (π ^ 2 * c.m)) := by
      rw [le_div_iff₀ hd]
      nlinarith
    linarith
  · have : c.h ^ 2 * c.J * 0.4826e20 / (8 * (π ^ 2 * c.m)) ≤ 1 + 1e-4 := by
      rw [div_le_iff₀ hd]
      nlinarith
    linarith

/-- C128.  The energies before and after the sample differ by the energy transfer up to one part in ten thousand. -/
theorem C128_energy {c : Consts} (hc : Physical c) {s : Setup} {w ki kf : ℝ} (h : Waves c s w ki kf) :
    |energyOfWave c ki - energyOfWave c kf - w| ≤ 1e-4 * |w| := by
  have e : energyOfWave c ki - energyOfWave c kf - w = ((c.hbar * 1e10) ^ 2 / (2 * c.m) * c.J * 0.4826 - 1) * w := by
    have : energyOfWave c ki - energyOfWave c kf = (c.hbar * 1e10) ^ 2 / (2 * c.m) * c.J * (ki ^ 2 - kf ^ 2) := by
      unfold energyOfWave
      ring
    rw [this, h.transfer]
    ring
  rw [e, abs_mul]
  exact mul_le_mul_of_nonneg_right (transfer_const hc) (abs_nonneg _)

/-- The constants of nature to seven digits, as far as they are needed. -/
structure Sharp (c : Consts) : Prop where
  h1 : 6.62607e-34 ≤ c.h
  m2 : c.m ≤ 1.674928e-27
  J1 : 6.241509e21 ≤ c.J

/-- C128 is false to the letter: with the constants of nature the energies before and after the sample never differ by the
energy transfer, unless it is zero; they are off by more than five parts in a million. -/
theorem C128_energy_false {c : Consts} (hc : Sharp c) {s : Setup} {w ki kf : ℝ} (h : Waves c s w ki kf) :
    5e-6 * |w| ≤ |energyOfWave c ki - energyOfWave c kf - w| := by
  have e : energyOfWave c ki - energyOfWave c kf - w = ((c.hbar * 1e10) ^ 2 / (2 * c.m) * c.J * 0.4826 - 1) * w := by
    have : energyOfWave c ki - energyOfWave c kf = (c.hbar * 1e10) ^ 2 / (2 * c.m) * c.J * (ki ^ 2 - kf ^ 2) := by
      unfold energyOfWave
      ring
    rw [this, h.transfer]
    ring
  rw [e, abs_mul]
  refine mul_le_mul_of_nonneg_right (le_trans ?_ (le_abs_self _)) (abs_nonneg _)
  have hp2 : π < 3.14159266 := pi_lt_d20.trans (by norm_num)
  have hm := c.m_pos
  have hh := c.h_pos
  have hJ := c.J_pos
  have hpi := pi_pos
  have e : (c.hbar * 1e10) ^ 2 / (2 * c.m) * c.J * 0.4826 = c.h ^ 2 * c.J * 0.4826e20 / (8 * (π ^ 2 * c.m)) := by
    unfold Consts.hbar
    field_simp
    ring
  rw [e]
  have hd : 0 < 8 * (π ^ 2 * c.m) := by positivity
  have p2 : π ^ 2 ≤ (3.14159266 : ℝ) ^ 2 := pow_le_pow_left₀ hpi.le hp2.le 2
  have q1 : (6.62607e-34 : ℝ) ^ 2 ≤ c.h ^ 2 := pow_le_pow_left₀ (by norm_num) hc.h1 2
  have d2 : π ^ 2 * c.m ≤ (3.14159266 : ℝ) ^ 2 * 1.674928e-27 := mul_le_mul p2 hc.m2 hm.le (by positivity)
  have n1 : (6.62607e-34 : ℝ) ^ 2 * 6.241509e21 ≤ c.h ^ 2 * c.J := mul_le_mul q1 hc.J1 (by norm_num) (by positivity)
  have : 1 + 5e-6 ≤ c.h ^ 2 * c.J * 0.4826e20 / (8 * (π ^ 2 * c.m)) := by
    rw [le_div_iff₀ hd]
    nlinarith
  linarith

end Verif.Angles
