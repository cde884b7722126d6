import Mathlib.Analysis.SpecialFunctions.Trigonometric.Deriv
import Mathlib.Analysis.SpecialFunctions.ExpDeriv
import Mathlib.Analysis.Real.Pi.Bounds
import Verif.Models.Model

/-!
# Theorems on the oscillators and dispersions of `models.py`

The statements speak of the values of the functions only: periods, ranges, a differential
equation and limits.
-/

namespace Verif.Models

open Real Filter Topology

/-- `f` takes the values `g` everywhere, without an exception. -/
def Total (f : ℝ → Except Err ℝ) (g : ℝ → ℝ) : Prop := ∀ t, f t = .ok (g t)

/-- The displacements after which `g` repeats. -/
def periods (g : ℝ → ℝ) : Set ℝ := {T | ∀ t, g (t + T) = g t}

/-! ### Periods of the cosine -/

theorem cos_shift_iff (T : ℝ) : (∀ t, cos (t + T) = cos t) ↔ ∃ n : ℤ, T = n * (2 * π) := by
  constructor
  · intro h
    have h0 := h 0
    rw [zero_add, cos_zero, cos_eq_one_iff] at h0
    obtain ⟨n, hn⟩ := h0
    exact ⟨n, hn.symm⟩
  · rintro ⟨n, rfl⟩ t
    exact cos_add_int_mul_two_pi t n

theorem abs_sin_shift_iff (T : ℝ) : (∀ t, |sin (t + T)| = |sin t|) ↔ ∃ n : ℤ, T = n * π := by
  constructor
  · intro h
    have h0 := h 0
    rw [zero_add, sin_zero, abs_zero, abs_eq_zero, sin_eq_zero_iff] at h0
    obtain ⟨n, hn⟩ := h0
    exact ⟨n, hn.symm⟩
  · rintro ⟨n, rfl⟩ t
    rw [sin_add_int_mul_pi, abs_mul, abs_zpow, abs_neg, abs_one, one_zpow, one_mul]

theorem periods_linear {g : ℝ → ℝ} {b c P : ℝ} (hb : b ≠ 0)
    (h : ∀ T, (∀ t, g (t + T) = g t) ↔ ∃ n : ℤ, T = n * P) :
    periods (fun t => g (b * t - c)) = {T | ∃ n : ℤ, T = n * (P / b)} := by
  ext T
  simp only [periods, Set.mem_ofPred_eq]
  constructor
  · intro hT
    have : ∀ t, g (t + b * T) = g t := fun t => by
      have := hT ((t + c) / b)
      rw [mul_add, mul_div_cancel₀ _ hb] at this
      convert this using 2 <;> ring
    obtain ⟨n, hn⟩ := (h _).1 this
    refine ⟨n, ?_⟩
    field_simp
    linarith
  · rintro ⟨n, rfl⟩ t
    have := (h (b * (n * (P / b)))).2 ⟨n, by field_simp⟩ (b * t - c)
    convert this using 2
    ring

theorem periods_affine {g : ℝ → ℝ} {a b : ℝ} (hb : b ≠ 0) :
    periods (fun t => a + b * g t) = periods g := by
  ext T
  simp only [periods, Set.mem_ofPred_eq, add_right_inj]
  exact forall_congr' fun t => mul_right_inj' hb

/-! ### C118: the simple harmonic oscillator -/

/-- The oscillator is defined for four parameters or more, and only for those. -/
theorem C118_parameters (p : List ℝ) (t : ℝ) : (∃ y, sho p t = .ok y) ↔ 4 ≤ p.length := by
  match p with
  | [] => simp [sho]
  | [_] => simp [sho]
  | [_, _] => simp [sho]
  | [_, _, _] => simp [sho]
  | _ :: _ :: _ :: _ :: _ => simp [sho]

/-- What holds of the documented parameters: `p[0]` is the centre and `p[1]` the amplitude (the
values taken are exactly those between `p[0] - |p[1]|` and `p[0] + |p[1]|`), and at the time
`p[3] / p[2]` the oscillator is at `p[0] + p[1]`.  Not proved, since it is false: `p[2]` is the
period; the displacements after which the motion repeats are the multiples of `2π / p[2]`. -/
theorem C118_meaning_partial (p0 p1 p2 p3 : ℝ) (rest : List ℝ) (h2 : p2 ≠ 0) :
    ∃ g, Total (sho (p0 :: p1 :: p2 :: p3 :: rest)) g ∧
      Set.range g = Set.Icc (p0 - |p1|) (p0 + |p1|) ∧ g (p3 / p2) = p0 + p1 ∧
      (p1 ≠ 0 → periods g = {T | ∃ n : ℤ, T = n * (2 * π / p2)}) := by
  refine ⟨fun t => p0 + p1 * cos (p2 * t - p3), fun t => rfl, ?_, ?_, ?_⟩
  · ext y
    simp only [Set.mem_range, Set.mem_Icc]
    constructor
    · rintro ⟨t, rfl⟩
      have h := abs_le.1 (show |p1 * cos (p2 * t - p3)| ≤ |p1| by
        rw [abs_mul]; exact mul_le_of_le_one_right (abs_nonneg _) (abs_cos_le_one _))
      constructor <;> linarith [h.1, h.2]
    · rintro ⟨hl, hu⟩
      by_cases h1 : p1 = 0
      · subst h1
        simp only [abs_zero, sub_zero, add_zero] at hl hu
        exact ⟨0, by rw [zero_mul, add_zero]; exact le_antisymm hl hu⟩
      · have hq : |(y - p0) / p1| ≤ 1 := by
          rw [abs_div, div_le_one (abs_pos.2 h1), abs_le]
          constructor <;> linarith
        refine ⟨(arccos ((y - p0) / p1) + p3) / p2, ?_⟩
        rw [mul_div_cancel₀ _ h2, add_sub_cancel_right,
          cos_arccos (abs_le.1 hq).1 (abs_le.1 hq).2, mul_div_cancel₀ _ h1]
        ring
  · show p0 + p1 * cos (p2 * (p3 / p2) - p3) = p0 + p1
    rw [mul_div_cancel₀ _ h2, sub_self, cos_zero, mul_one]
  · intro h1
    rw [periods_affine (g := fun t => cos (p2 * t - p3)) h1,
      periods_linear (g := cos) h2 cos_shift_iff]

example : (2 : ℝ) ≠ 0 ∧ (3 : ℝ) ≠ 0 := by norm_num

/-- Exactly when `p[2]` is a period of the motion: `p[2]²` is a multiple of `2π`. -/
theorem C118_period_iff (p0 p1 p2 p3 : ℝ) (rest : List ℝ) (h1 : p1 ≠ 0) (h2 : p2 ≠ 0) :
    (∀ t, sho (p0 :: p1 :: p2 :: p3 :: rest) (t + p2) = sho (p0 :: p1 :: p2 :: p3 :: rest) t) ↔
      ∃ n : ℤ, p2 ^ 2 = n * (2 * π) := by
  obtain ⟨g, hg, -, -, hp⟩ := C118_meaning_partial p0 p1 p2 p3 rest h2
  have h : (∀ t, sho (p0 :: p1 :: p2 :: p3 :: rest) (t + p2) =
      sho (p0 :: p1 :: p2 :: p3 :: rest) t) ↔ p2 ∈ periods g := by
    refine forall_congr' fun t => ?_
    rw [hg, hg]
    exact ⟨fun h => Except.ok.inj h, fun h => congrArg _ h⟩
  rw [h, hp h1, Set.mem_ofPred_eq]
  refine exists_congr fun n => ?_
  rw [← mul_div_assoc, eq_div_iff h2, sq]

/-- The documentation calls `p[2]` the period.  With `p = [0, 1, 1, 0]` the motion does not repeat
after the time 1. -/
theorem C118_false : ¬ ∀ t, sho [0, 1, 1, 0] (t + 1) = sho [0, 1, 1, 0] t := by
  intro h
  obtain ⟨n, hn⟩ := (C118_period_iff 0 1 1 0 [] one_ne_zero one_ne_zero).1 h
  rw [one_pow] at hn
  have hpi := pi_gt_three
  rcases le_or_gt n 0 with h0 | h0
  · have : (n : ℝ) ≤ 0 := by exact_mod_cast h0
    nlinarith
  · have : (1 : ℝ) ≤ n := by exact_mod_cast h0
    nlinarith

/-! ### C119: the damped harmonic oscillator -/

theorem dho_total (p0 p1 p2 p3 p4 : ℝ) (rest : List ℝ) :
    Total (dho (p0 :: p1 :: p2 :: p3 :: p4 :: rest))
      fun t => p0 + exp (-p4 * t / 2) * (0 + p1 * cos (p2 * t - p3)) := fun _ => rfl

/-- The damped oscillator is defined for five parameters or more, and only for those. -/
theorem C119_parameters (p : List ℝ) (t : ℝ) : (∃ y, dho p t = .ok y) ↔ 5 ≤ p.length := by
  match p with
  | [] => simp [dho]
  | [_] => simp [dho]
  | [_, _] => simp [dho]
  | [_, _, _] => simp [dho]
  | [_, _, _, _] => simp [dho]
  | a :: b :: c :: d :: e :: r => simp [dho_total a b c d e r t]

/-- The equation of motion: acceleration, friction with the constant `p[4]` and the restoring force
around `p[0]` balance at every time. -/
theorem C119_equation (p0 p1 p2 p3 p4 : ℝ) (rest : List ℝ) :
    ∃ g g' g'' : ℝ → ℝ, Total (dho (p0 :: p1 :: p2 :: p3 :: p4 :: rest)) g ∧
      (∀ t, HasDerivAt g (g' t) t) ∧ (∀ t, HasDerivAt g' (g'' t) t) ∧
      ∀ t, g'' t + p4 * g' t + (p2 ^ 2 + p4 ^ 2 / 4) * (g t - p0) = 0 := by
  have he : ∀ t, HasDerivAt (fun t => exp (-p4 * t / 2)) (exp (-p4 * t / 2) * (-p4 / 2)) t := fun t => by
    have := ((hasDerivAt_id t).const_mul (-p4)).div_const 2
    simpa using this.exp
  have hl : ∀ t, HasDerivAt (fun t => p2 * t - p3) p2 t := fun t => by
    simpa using ((hasDerivAt_id t).const_mul p2).sub_const p3
  have hc : ∀ t, HasDerivAt (fun t => cos (p2 * t - p3)) (-sin (p2 * t - p3) * p2) t := fun t => (hl t).cos
  have hs : ∀ t, HasDerivAt (fun t => sin (p2 * t - p3)) (cos (p2 * t - p3) * p2) t := fun t => (hl t).sin
  refine ⟨_, fun t => exp (-p4 * t / 2) * (p1 * (-p4 / 2 * cos (p2 * t - p3) - p2 * sin (p2 * t - p3))),
    fun t => exp (-p4 * t / 2) * (p1 * ((p4 ^ 2 / 4 - p2 ^ 2) * cos (p2 * t - p3) + p4 * p2 * sin (p2 * t - p3))),
    dho_total p0 p1 p2 p3 p4 rest, fun t => ?_, fun t => ?_, fun t => ?_⟩
  · have := ((he t).mul (((hc t).const_mul p1).const_add 0)).const_add p0
    exact this.congr_deriv (by ring)
  · have := (he t).mul ((((hc t).const_mul (-p4 / 2)).sub ((hs t).const_mul p2)).const_mul p1)
    exact this.congr_deriv (by simp only [Pi.sub_apply]; ring)
  · ring

/-- Without damping it is the undamped oscillator. -/
theorem C119_undamped (p0 p1 p2 p3 : ℝ) (rest : List ℝ) (t : ℝ) :
    dho (p0 :: p1 :: p2 :: p3 :: 0 :: rest) t = sho [p0, p1, p2, p3] t := by
  rw [dho_total]
  simp [sho]

/-- The deviation from the background is at most the amplitude times the decay, the bound is reached
at every time of a turning point of the cosine, and with damping the motion comes to rest at the
background. -/
theorem C119_decay (p0 p1 p2 p3 p4 : ℝ) (rest : List ℝ) :
    ∃ g, Total (dho (p0 :: p1 :: p2 :: p3 :: p4 :: rest)) g ∧
      (∀ t, |g t - p0| ≤ |p1| * exp (-p4 * t / 2)) ∧
      (∀ t (n : ℤ), p2 * t - p3 = n * (2 * π) → g t = p0 + p1 * exp (-p4 * t / 2)) ∧
      (0 < p4 → Tendsto g atTop (𝓝 p0)) := by
  have hb : ∀ t, |(p0 + exp (-p4 * t / 2) * (0 + p1 * cos (p2 * t - p3))) - p0| ≤
      |p1| * exp (-p4 * t / 2) := fun t => by
    rw [add_sub_cancel_left, zero_add, abs_mul, abs_exp, abs_mul, mul_comm]
    exact mul_le_mul_of_nonneg_right
      (mul_le_of_le_one_right (abs_nonneg _) (abs_cos_le_one _)) (exp_pos _).le
  refine ⟨_, dho_total p0 p1 p2 p3 p4 rest, hb, fun t n ht => ?_, fun h4 => ?_⟩
  · simp only [ht]
    rw [show cos (n * (2 * π)) = 1 from (cos_eq_one_iff _).2 ⟨n, rfl⟩]
    ring
  · rw [tendsto_iff_dist_tendsto_zero]
    refine squeeze_zero (fun t => dist_nonneg) (fun t => (Real.dist_eq _ _).trans_le (hb t)) ?_
    have : Tendsto (fun t : ℝ => -p4 * t / 2) atTop atBot := by
      have h : (fun t : ℝ => -p4 * t / 2) = fun t => -(p4 / 2) * t := by ext; ring
      rw [h]
      exact tendsto_id.const_mul_atTop_of_neg (by linarith)
    simpa using (tendsto_exp_atBot.comp this).const_mul |p1|

example : (0 : ℝ) < 2 := two_pos

/-! ### C120: dispersions -/

/-- A dispersion: non-negative, the same in both directions, zero at the zone centre, with the
greatest value `m` and the period `P` and no shorter ones. -/
structure IsDispersion (g : ℝ → ℝ) (m P : ℝ) : Prop where
  nonneg : ∀ x, 0 ≤ g x
  even : ∀ x, g (-x) = g x
  centre : g 0 = 0
  greatest : IsGreatest (Set.range g) m
  period : periods g = {T | ∃ n : ℤ, T = n * P}

theorem abs_sin_dispersion {a b : ℝ} (ha : 0 < a) (hb : b ≠ 0) :
    IsDispersion (fun x => a * |sin (b * x)|) a (π / b) := by
  refine ⟨fun x => by positivity, fun x => by simp, by simp, ⟨⟨π / 2 / b, ?_⟩, ?_⟩, ?_⟩
  · show a * |sin (b * (π / 2 / b))| = a
    rw [mul_div_cancel₀ _ hb, sin_pi_div_two, abs_one, mul_one]
  · rintro _ ⟨x, rfl⟩
    exact mul_le_of_le_one_right ha.le (abs_sin_le_one _)
  · have h := periods_linear (g := fun t => |sin t|) (c := 0) hb abs_sin_shift_iff
    have h' := periods_affine (g := fun x => |sin (b * x - 0)|) (a := 0) ha.ne'
    simp only [sub_zero, zero_add] at h h'
    rw [h', h]

theorem one_sub_cos_dispersion {a b : ℝ} (ha : 0 < a) (hb : b ≠ 0) :
    IsDispersion (fun x => a * (1 - cos (b * x))) (2 * a) (2 * π / b) := by
  refine ⟨fun x => mul_nonneg ha.le (sub_nonneg.2 (cos_le_one _)), fun x => by simp, by simp,
    ⟨⟨π / b, ?_⟩, ?_⟩, ?_⟩
  · show a * (1 - cos (b * (π / b))) = 2 * a
    rw [mul_div_cancel₀ _ hb, cos_pi]; ring
  · rintro _ ⟨x, rfl⟩
    show a * (1 - cos (b * x)) ≤ 2 * a
    nlinarith [neg_one_le_cos (b * x)]
  · have h := periods_linear (g := cos) (c := 0) hb cos_shift_iff
    have h' := periods_affine (g := fun x => cos (b * x - 0)) (a := a) (neg_ne_zero.2 ha.ne')
    simp only [sub_zero] at h h'
    rw [← h, ← h']
    congr 1
    ext x; ring

/-- The three dispersions have the shape of a dispersion.  Not proved, since it is false: the
greatest value is `p[0]` and the period `p[1]`.  The greatest values are `2 √p[0]`, `8 p[0]` and
`p[0]`, the periods `π / p[1]`, `2π / p[1]` and `π / p[1]`. -/
theorem C120_shape_partial {p0 p1 : ℝ} (h0 : 0 < p0) (h1 : p1 ≠ 0) (rest : List ℝ) :
    (∃ g, Total (acoustic (p0 :: p1 :: rest)) g ∧ IsDispersion g (2 * √p0) (π / p1)) ∧
    (∃ g, Total (ferro (p0 :: p1 :: rest)) g ∧ IsDispersion g (8 * p0) (2 * π / p1)) ∧
    (∃ g, Total (antiferro (p0 :: p1 :: rest)) g ∧ IsDispersion g p0 (π / p1)) := by
  refine ⟨⟨fun x => √(4 * p0) * |sin (p1 * x)|, fun x => if_neg (by linarith), ?_⟩,
    ⟨_, fun x => rfl, ?_⟩, ⟨_, fun x => rfl, abs_sin_dispersion h0 h1⟩⟩
  · have h : √(4 * p0) = 2 * √p0 := by
      rw [sqrt_mul (by norm_num), show (4 : ℝ) = 2 ^ 2 by norm_num, sqrt_sq (by norm_num)]
    rw [h]
    exact abs_sin_dispersion (by positivity) h1
  · have := one_sub_cos_dispersion (a := 4 * p0) (by positivity) h1
    rwa [show 2 * (4 * p0) = 8 * p0 by ring] at this

example : (0 : ℝ) < 5 ∧ (3 : ℝ) ≠ 0 := by norm_num

/-- With the amplitude 1 and the period 1 of the documentation the ferromagnetic dispersion reaches
8, the acoustic one 2, and none of the three repeats after 1. -/
theorem C120_false :
    (∃ x, ferro [1, 1] x = .ok 8) ∧ (∃ x, acoustic [1, 1] x = .ok 2) ∧
    (∃ x, ferro [1, 1] (x + 1) ≠ ferro [1, 1] x) ∧ (∃ x, acoustic [1, 1] (x + 1) ≠ acoustic [1, 1] x) ∧
    ∃ x, antiferro [1, 1] (x + 1) ≠ antiferro [1, 1] x := by
  have hs : 0 < sin 1 := sin_pos_of_pos_of_lt_pi one_pos (by linarith [pi_gt_three])
  have hc : cos 1 < 1 := by
    have := cos_lt_cos_of_nonneg_of_le_pi (x := 0) (y := 1) le_rfl (by linarith [pi_gt_three]) one_pos
    rwa [cos_zero] at this
  refine ⟨⟨π, by norm_num [ferro]⟩, ⟨π / 2, ?_⟩, ⟨0, ?_⟩, ⟨0, ?_⟩, ⟨0, ?_⟩⟩
  · have : √(4 : ℝ) = 2 := by rw [show (4 : ℝ) = 2 ^ 2 by norm_num, sqrt_sq (by norm_num)]
    norm_num [acoustic, this]
  · intro h
    simp only [ferro] at h
    have := Except.ok.inj h
    norm_num at this
    linarith
  · intro h
    have h4 : ¬ (4 * 1 : ℝ) < 0 := by norm_num
    simp only [acoustic, if_neg h4] at h
    have := Except.ok.inj h
    norm_num at this
    linarith
  · intro h
    simp only [antiferro] at h
    have := Except.ok.inj h
    norm_num at this
    linarith

/-- The acoustic dispersion with a negative amplitude has no value anywhere (`nan`). -/
theorem C120_negative (p0 p1 : ℝ) (rest : List ℝ) (h : p0 < 0) (x : ℝ) :
    acoustic (p0 :: p1 :: rest) x = .error .nan := if_pos (by linarith)

/-! ### C121: small wavevectors -/

theorem tendsto_abs_sin_div (b : ℝ) :
    Tendsto (fun x => |sin (b * x)| / |x|) (𝓝[≠] 0) (𝓝 |b|) := by
  have h : HasDerivAt (fun x => sin (b * x)) b 0 := by
    have := ((hasDerivAt_id (0 : ℝ)).const_mul b).sin
    simpa using this
  have := (hasDerivAt_iff_tendsto_slope.1 h).abs
  refine this.congr fun x => ?_
  simp [slope_def_field, abs_div]

/-- Sound waves: near the zone centre the acoustic and the antiferromagnetic dispersion are linear,
with the velocities `2 √p[0] |p[1]|` and `p[0] |p[1]|`; the ferromagnetic one is quadratic with the
stiffness `2 p[0] p[1]²`.  For negative `p[0]` the acoustic one is not a number. -/
theorem C121_long_waves (p0 p1 : ℝ) (rest : List ℝ) :
    (0 ≤ p0 → ∃ g, Total (acoustic (p0 :: p1 :: rest)) g ∧
      Tendsto (fun x => g x / |x|) (𝓝[≠] 0) (𝓝 (2 * √p0 * |p1|))) ∧
    (p0 < 0 → ∀ x, acoustic (p0 :: p1 :: rest) x = .error .nan) ∧
    (∃ g, Total (antiferro (p0 :: p1 :: rest)) g ∧
      Tendsto (fun x => g x / |x|) (𝓝[≠] 0) (𝓝 (p0 * |p1|))) ∧
    (∃ g, Total (ferro (p0 :: p1 :: rest)) g ∧
      Tendsto (fun x => g x / x ^ 2) (𝓝[≠] 0) (𝓝 (2 * p0 * p1 ^ 2))) := by
  have h : √(4 * p0) = 2 * √p0 := by
    rw [sqrt_mul (by norm_num), show (4 : ℝ) = 2 ^ 2 by norm_num, sqrt_sq (by norm_num)]
  refine ⟨fun h0 => ⟨fun x => √(4 * p0) * |sin (p1 * x)|, fun x => if_neg (by linarith), ?_⟩, fun h0 x => if_pos (by linarith),
    ⟨_, fun x => rfl, ?_⟩, ⟨_, fun x => rfl, ?_⟩⟩
  · rw [← h]
    exact ((tendsto_abs_sin_div p1).const_mul _).congr fun x => by ring
  · exact ((tendsto_abs_sin_div p1).const_mul _).congr fun x => by ring
  · have := ((tendsto_abs_sin_div (p1 / 2)).pow 2).const_mul (8 * p0)
    have hlim : 8 * p0 * |p1 / 2| ^ 2 = 2 * p0 * p1 ^ 2 := by rw [sq_abs]; ring
    rw [hlim] at this
    refine this.congr fun x => ?_
    have hcos : cos (p1 * x) = 1 - 2 * sin (p1 / 2 * x) ^ 2 := by
      have := cos_sq' (p1 / 2 * x)
      rw [show p1 * x = 2 * (p1 / 2 * x) by ring, cos_two_mul, this]; ring
    rw [hcos, div_pow, sq_abs, sq_abs]
    ring

example : (0 : ℝ) ≤ 5 := by norm_num

end Verif.Models
