import Verif.Single.Check2
import Verif.Single.Regions
import Mathlib.MeasureTheory.Integral.Bochner.Set

/-!
# The approximated profile is never negative

Where the exact profile is larger than the error of the approximations there is nothing else to show.  Far out and close to the
axis the approximations themselves are examined.
-/

namespace Verif.Single

open Real MeasureTheory
open Complex (I)

/-! ## The exact profile from below -/

theorem profile_integrable {a : ℝ} (ha : 0 < a) (x : ℝ) : Integrable fun y : ℝ => 1 / π * (a / (a ^ 2 + (x - y) ^ 2)) * exp (-y ^ 2) := by
  have g2 : Integrable (fun y : ℝ => 1 / π * (1 / a) * exp (-y ^ 2)) := by
    simpa using (integrable_exp_neg_mul_sq one_pos).const_mul (1 / π * (1 / a))
  have hp := pi_pos
  have hd : ∀ y : ℝ, 0 < a ^ 2 + (x - y) ^ 2 := fun y => by positivity
  refine g2.mono' (Continuous.aestronglyMeasurable ?_) (Filter.Eventually.of_forall fun y => ?_)
  · exact (continuous_const.mul (continuous_const.div (by fun_prop) fun y => (hd y).ne')).mul (by fun_prop)
  · have := hd y
    rw [norm_eq_abs, abs_of_nonneg (by positivity)]
    refine mul_le_mul_of_nonneg_right (mul_le_mul_of_nonneg_left ?_ (by positivity)) (exp_pos _).le
    rw [div_le_div_iff₀ this ha]
    nlinarith [sq_nonneg (x - y)]

theorem plasma_lower {a : ℝ} (ha : 0 < a) (x : ℝ) {u v c : ℝ} (huv : u ≤ v)
    (h : ∀ y, u ≤ y → y ≤ v → c ≤ 1 / π * (a / (a ^ 2 + (x - y) ^ 2)) * exp (-y ^ 2)) : (v - u) * c ≤ (plasma (a - I * x)).re := by
  rw [plasma_eq ha]
  have hp := pi_pos
  have hi : Integrable ((Set.Icc u v).indicator fun _ : ℝ => c) := by
    rw [integrable_indicator_iff measurableSet_Icc]
    exact integrableOn_const (by simp)
  have e : ∫ y, (Set.Icc u v).indicator (fun _ : ℝ => c) y = (v - u) * c := by
    rw [integral_indicator_const _ measurableSet_Icc]
    simp [huv]
  rw [← e]
  refine integral_mono hi (profile_integrable ha x) fun y => ?_
  by_cases hy : y ∈ Set.Icc u v
  · rw [Set.indicator_of_mem hy]
    exact h y hy.1 hy.2
  · rw [Set.indicator_of_notMem hy]
    have : 0 < a ^ 2 + (x - y) ^ 2 := by positivity
    positivity

/-- From the middle of the Gaussian. -/
theorem plasma_middle {a x : ℝ} (ha : 0.1 ≤ a) (hx : 0 ≤ x) (h : x + a ≤ 6 ∨ 0.75 ≤ a ∧ x + a ≤ 15) : 1e-4 ≤ (plasma (a - I * x)).re := by
  have ha' : 0 < a := lt_of_lt_of_le (by norm_num) ha
  have hp := pi_pos
  refine le_trans ?_ (plasma_lower ha' x (u := -1) (v := 1) (c := 1 / π * (a / (x + a + 1) ^ 2) * exp (-1)) (by norm_num) fun y h1 h2 => ?_)
  · have e1 := exp_one_lt_d9
    have p1 := pi_lt_d2
    rw [exp_neg]
    have hpe : π * exp 1 ≤ 10 := by
      have := exp_pos 1
      nlinarith
    have e : (1 - -1) * (1 / π * (a / (x + a + 1) ^ 2) * (exp 1)⁻¹) = 2 * (a / (x + a + 1) ^ 2) / (π * exp 1) := by
      have := exp_pos 1
      field_simp
      ring
    have hq : 1e-3 ≤ a / (x + a + 1) ^ 2 := by
      rw [le_div_iff₀ (by positivity)]
      rcases h with h | ⟨h', h⟩
      · norm_num at ha ⊢
        nlinarith
      · norm_num at h' ⊢
        nlinarith
    rw [e, le_div_iff₀ (by have := exp_pos 1; positivity)]
    norm_num at hq ⊢
    linarith
  · have hd : a ^ 2 + (x - y) ^ 2 ≤ (x + a + 1) ^ 2 := by nlinarith
    have hd' : 0 < a ^ 2 + (x - y) ^ 2 := by positivity
    refine mul_le_mul (mul_le_mul_of_nonneg_left ?_ (by positivity)) (exp_le_exp.2 (by nlinarith)) (exp_pos _).le (by positivity)
    exact div_le_div_of_nonneg_left ha'.le hd' hd

/-- From the middle of the Lorentzian. -/
theorem plasma_close {a x : ℝ} (ha : 0 < a) (hx : 0 ≤ x) (h : x + a ≤ 2) : 1e-4 ≤ (plasma (a - I * x)).re := by
  have hp := pi_pos
  refine le_trans ?_ (plasma_lower ha x (u := x - a) (v := x + a) (c := 1 / π * (a / (2 * a ^ 2)) * exp (-4)) (by linarith) fun y h1 h2 => ?_)
  · have e : (x + a - (x - a)) * (1 / π * (a / (2 * a ^ 2)) * exp (-4)) = exp (-4) / π := by
      field_simp
      ring
    rw [e, le_div_iff₀ hp]
    have e4 : exp (-4) = (exp 1)⁻¹ ^ 4 := by
      rw [← exp_neg, ← exp_nat_mul]
      norm_num
    have e1 := exp_one_lt_d9
    have p1 := pi_lt_d2
    have h3 : (1 / 3 : ℝ) ≤ (exp 1)⁻¹ := by
      rw [one_div]
      exact inv_anti₀ (exp_pos 1) (by linarith)
    have h4 := pow_le_pow_left₀ (by norm_num) h3 4
    rw [e4]
    norm_num at h4 ⊢
    linarith
  · have hd' : 0 < a ^ 2 + (x - y) ^ 2 := by positivity
    refine mul_le_mul (mul_le_mul_of_nonneg_left ?_ (by positivity)) (exp_le_exp.2 (by nlinarith)) (exp_pos _).le (by positivity)
    exact div_le_div_of_nonneg_left ha.le hd' (by nlinarith)

/-! ## The approximations themselves -/

theorem approx1_nonneg {a : ℝ} (ha : 0 ≤ a) (x : ℝ) : 0 ≤ (approx1 (a - I * x)).re := by
  unfold approx1
  obtain ⟨d, hd⟩ : ∃ d : ℂ, d = 0.5 + ((a : ℂ) - I * x) ^ 2 := ⟨_, rfl⟩
  have hr : d.re = 0.5 + a ^ 2 - x ^ 2 := by
    rw [hd]
    norm_num [sq]
    ring
  have hi : d.im = -(2 * a * x) := by
    rw [hd]
    norm_num [sq]
    ring
  rw [← hd, Complex.div_re, ← add_div]
  refine div_nonneg ?_ (Complex.normSq_nonneg _)
  have e1 : ((a - I * x) * 0.5641896 : ℂ) = ⟨a * 0.5641896, -(x * 0.5641896)⟩ := by
    apply Complex.ext <;> norm_num
  rw [e1, hr, hi]
  dsimp only
  have : a * 0.5641896 * (0.5 + a ^ 2 - x ^ 2) + -(x * 0.5641896) * -(2 * a * x) = 0.5641896 * a * (0.5 + a ^ 2 + x ^ 2) := by ring
  rw [this]
  positivity

theorem approx4_sign {a x : ℝ} (h0 : 0 ≤ a) (h1 : a < 0.75) (h2 : a ≤ 0.195 * x - 0.176) (hx : 1 ≤ x) : (approx4 (a - I * x) ((a - I * x) ^ 2)).re ≤ 0 := by
  have hD := D₄_ne' h0 h2
  have h := nonnegStrip_sound (by norm_num) strip_1 (a := a) (x := x) (by simpa using h0) (by norm_num at h1 ⊢; linarith) (by simpa using hx)
  have hp : 0 < ev2 (planeSq D₄) a x := by
    rw [ev2_planeSq]
    exact Complex.normSq_pos.2 hD
  rw [ev2_minusRe _ _ _ _ hD, ← approx4_eq] at h
  have := nonneg_of_mul_nonneg_left h hp
  linarith

theorem approx4_far {a x : ℝ} (h0 : 0 ≤ a) (h1 : a < 0.75) (h2 : a ≤ 0.195 * x - 0.176) (hx : 5 ≤ x) :
    a ≤ 2 * x ^ 2 * -(approx4 (a - I * x) ((a - I * x) ^ 2)).re := by
  have hD := D₄_ne' h0 h2
  have h := nonnegStrip_sound (by norm_num) strip_5 (a := a) (x := x) (by simpa using h0) (by norm_num at h1 ⊢; linarith) (by simpa using hx)
  have hp : 0 < ev2 (planeSq D₄) a x := by
    rw [ev2_planeSq]
    exact Complex.normSq_pos.2 hD
  rw [ev2_padd2, ev2_pscale2, ev2_pscale2, ev2_minusRe _ _ _ _ hD, ← approx4_eq] at h
  simp only [timesA, ev2_cons, ev_cons, ev_nil] at h
  push_cast at h
  refine le_of_mul_le_mul_right ?_ hp
  linarith

theorem tail_nonneg {a x : ℝ} (h0 : 0 < a) (h1 : a < 0.75) (h2 : a ≤ 0.195 * x - 0.176) (h3 : ¬ (1e-4 ≤ (plasma (a - I * x)).re)) :
    0 ≤ (tail (a - I * x)).re := by
  have hx0 : 0 ≤ x := by
    norm_num at h2
    linarith
  have hx : 1 ≤ x := by
    by_contra hcon
    refine h3 (plasma_close h0 hx0 ?_)
    norm_num at h1
    linarith
  have e : (Complex.exp (((a : ℂ) - I * x) ^ 2)).re = exp (a ^ 2 - x ^ 2) * cos (2 * a * x) := by
    have : ((a : ℂ) - I * x) ^ 2 = ⟨a ^ 2 - x ^ 2, -(2 * a * x)⟩ := by
      apply Complex.ext
      · simp [sq]
      · simp [sq]
        ring
    rw [this, Complex.exp_re]
    dsimp only
    rw [cos_neg]
  have s := approx4_sign h0.le h1 h2 hx
  unfold tail
  rw [Complex.sub_re, e]
  by_cases hc : a * x ≤ 1 / 2
  · have hcos : 0 ≤ cos (2 * a * x) := by
      refine cos_nonneg_of_neg_pi_div_two_le_of_le ?_ ?_
      · have := pi_pos
        have : 0 ≤ 2 * a * x := by positivity
        linarith
      · have := pi_gt_three
        linarith
    have := mul_nonneg (exp_pos (a ^ 2 - x ^ 2)).le hcos
    linarith
  · have hc' := not_le.1 hc
    have h5 : 5 ≤ x := by
      by_contra hcon
      refine h3 (plasma_middle ?_ hx0 (.inl ?_))
      · norm_num
        nlinarith
      · norm_num at h1
        linarith
    have f := approx4_far h0.le h1 h2 h5
    obtain ⟨r, hr⟩ : ∃ r, r = -(approx4 (a - I * x) ((a - I * x) ^ 2)).re := ⟨_, rfl⟩
    rw [← hr] at f
    have hx3 : 0 < 4 * x ^ 3 := by positivity
    have r1 : 1 / (4 * x ^ 3) ≤ r := by
      rw [div_le_iff₀ hx3]
      nlinarith
    have y1 : 0.9 * x ^ 2 ≤ x ^ 2 - a ^ 2 := by
      norm_num at h1 ⊢
      nlinarith
    have y2 : 4 * x ^ 3 ≤ exp (x ^ 2 - a ^ 2) := by
      have hy0 : 0 ≤ 0.9 * x ^ 2 := by positivity
      have h6 := pow_div_factorial_le_exp (0.9 * x ^ 2) hy0 3
      have h7 := exp_le_exp.2 y1
      refine le_trans (le_trans ?_ h6) h7
      norm_num [Nat.factorial]
      have : (125 : ℝ) ≤ x ^ 3 := by
        have := pow_le_pow_left₀ (by norm_num) h5 3
        norm_num at this
        exact this
      nlinarith
    have y3 : exp (a ^ 2 - x ^ 2) ≤ r := by
      refine le_trans ?_ r1
      rw [← neg_sub, exp_neg, ← one_div]
      exact one_div_le_one_div_of_le hx3 y2
    have := neg_one_le_cos (2 * a * x)
    have h8 := exp_pos (a ^ 2 - x ^ 2)
    have h9 : -exp (a ^ 2 - x ^ 2) ≤ exp (a ^ 2 - x ^ 2) * cos (2 * a * x) := by nlinarith
    linarith

/-- The profile is never negative. -/
theorem voigt_nonneg (x : ℝ) {a : ℝ} (ha : 0 ≤ a) : 0 ≤ voigt x a := by
  rcases ha.eq_or_lt with rfl | ha
  · by_cases h : 176 / 195 < |x|
    · rw [voigt_outside h]
      exact (exp_pos _).le
    · have h1 := (abs_le.1 (voigt_zero x)).1
      have h2 : exp (-1) ≤ exp (-x ^ 2) := by
        refine exp_le_exp.2 ?_
        have := not_lt.1 h
        rw [← sq_abs]
        have h0 := abs_nonneg x
        nlinarith
      have h3 : (1 / 3 : ℝ) ≤ exp (-1) := by
        rw [exp_neg, one_div]
        exact inv_anti₀ (exp_pos 1) (by have := exp_one_lt_d9; linarith)
      norm_num at h1
      linarith
  have key : ∀ x : ℝ, 0 ≤ x → 0 ≤ voigt x a := fun x hx => by
    by_cases hp : 1e-4 ≤ (plasma (a - I * x)).re
    · have := (abs_le.1 (voigt_plasma (x := x) ha.le)).1
      linarith
    by_cases c4 : ¬ (x + a < 5.5 ∧ 0.195 * x - 0.176 ≤ a) ∧ a < 0.75
    · have e : voigt x a = (tail (a - I * x)).re := by
        unfold voigt
        dsimp only
        rw [abs_of_nonneg hx, if_pos c4]
        rfl
      rw [e]
      refine tail_nonneg ha c4.2 ?_ hp
      have h1 := c4.2
      by_contra hcon
      refine c4.1 ⟨?_, (not_le.1 hcon).le⟩
      norm_num at hcon h1 ⊢
      linarith
    have a75 : 0.75 ≤ a := by
      by_contra hcon
      have h := not_not.1 fun hn => c4 ⟨hn, not_le.1 hcon⟩
      obtain ⟨h1, h2⟩ := h
      by_cases a1 : 0.1 ≤ a
      · exact hp (plasma_middle a1 hx (.inl (by norm_num at h1 ⊢; linarith)))
      · refine hp (plasma_close ha hx ?_)
        norm_num at a1 h2
        linarith
    have s15 : 15 ≤ x + a := by
      by_contra hcon
      exact hp (plasma_middle (by norm_num at a75 ⊢; linarith) hx (.inr ⟨a75, (not_le.1 hcon).le⟩))
    have e : voigt x a = (approx1 (a - I * x)).re := by
      unfold voigt
      dsimp only
      norm_num at a75
      rw [abs_of_nonneg hx, if_neg c4, if_neg (by norm_num; intros; linarith), if_neg (by norm_num; intros; linarith),
        if_neg (by norm_num; intros; linarith), if_neg (by norm_num; intros; linarith), if_pos (.inr s15)]
    rw [e]
    exact approx1_nonneg ha.le x
  rcases le_total 0 x with h | h
  · exact key x h
  · have := key (-x) (neg_nonneg.2 h)
    rwa [voigt_neg] at this

end Verif.Single
