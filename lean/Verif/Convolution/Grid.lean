import Verif.Convolution.Model
import Mathlib.MeasureTheory.Integral.IntervalIntegral.Basic
import Mathlib.MeasureTheory.Integral.DominatedConvergence
import Mathlib.MeasureTheory.Function.JacobianOneDim
import Mathlib.MeasureTheory.Function.Floor
import Mathlib.Analysis.SpecialFunctions.Trigonometric.ArctanDeriv
import Mathlib.MeasureTheory.Measure.Lebesgue.Basic

/-!
# The grid as an integral

Sums over the nodes of the grid are integrals of functions that are constant on cells; their limits for fine grids are
integrals over the real line after the substitution `t = tan x`.  Helper lemmas for C145.
-/

namespace Verif.Convolution

open Real MeasureTheory Filter Topology Set

/-- The `k`-th node. -/
noncomputable def node (M k : ℕ) : ℝ := -π / 2 + step M / 2 + k * step M

theorem step_pos (M : ℕ) : 0 < step M := by
  unfold step
  have := pi_pos
  positivity

theorem step_mul (M : ℕ) : (2 * M + 1 : ℝ) * step M = π := by
  unfold step
  have : (2 * M + 1 : ℝ) ≠ 0 := by positivity
  field_simp

theorem nodes_eq (M : ℕ) : nodes M = (List.range (2 * M + 1)).map (node M) := by
  unfold nodes linspace
  refine List.map_congr_left fun k hk => ?_
  rw [List.mem_range] at hk
  rcases Nat.eq_zero_or_pos M with rfl | hM
  · have : k = 0 := by omega
    subst this
    simp [node]
  · rw [if_neg (by omega)]
    unfold node
    have h1 := step_mul M
    have h2 : ((2 * M + 1 : ℕ) : ℝ) - 1 ≠ 0 := by
      push_cast
      have : (0 : ℝ) < M := by exact_mod_cast hM
      linarith
    have h3 : (π / 2 - step M / 2 - (-π / 2 + step M / 2)) / (((2 * M + 1 : ℕ) : ℝ) - 1) = step M := by
      rw [div_eq_iff h2]
      push_cast
      linear_combination -h1
    rw [h3]

theorem sum_nodes (M : ℕ) (f : ℝ → ℝ) : ((nodes M).map f).sum = ∑ k ∈ Finset.range (2 * M + 1), f (node M k) := by
  rw [nodes_eq, List.map_map]
  generalize 2 * M + 1 = n
  induction n with
  | zero => rfl
  | succ n ih =>
    rw [List.range_succ, List.map_append, List.sum_append, ih, Finset.sum_range_succ]
    simp

/-- The node of the cell in which `x` lies. -/
noncomputable def mid (M : ℕ) (x : ℝ) : ℝ := -π / 2 + (⌈(x + π / 2) / step M⌉ - 1 / 2) * step M

theorem mid_cell {M k : ℕ} {x : ℝ} (h : x ∈ Ioc (-π / 2 + k * step M) (-π / 2 + (k + 1 : ℕ) * step M)) : mid M x = node M k := by
  have hs := step_pos M
  have : ⌈(x + π / 2) / step M⌉ = (k : ℤ) + 1 := by
    rw [Int.ceil_eq_iff]
    push_cast
    obtain ⟨h1, h2⟩ := h
    push_cast at h2
    constructor
    · rw [lt_div_iff₀ hs]
      linarith
    · rw [div_le_iff₀ hs]
      linarith
  unfold mid node
  rw [this]
  push_cast
  ring

theorem mid_near (M : ℕ) (x : ℝ) : |mid M x - x| ≤ step M / 2 := by
  have hs := step_pos M
  have h1 := Int.ceil_lt_add_one ((x + π / 2) / step M)
  have h2 := Int.le_ceil ((x + π / 2) / step M)
  have e : x = -π / 2 + (x + π / 2) / step M * step M := by field_simp; ring
  unfold mid
  rw [abs_le]
  generalize (⌈(x + π / 2) / step M⌉ : ℝ) = c at *
  generalize (x + π / 2) / step M = y at *
  subst e
  constructor <;> nlinarith

theorem step_tendsto : Tendsto (fun M : ℕ => step M) atTop (𝓝 0) := by
  unfold step
  refine Tendsto.div_atTop tendsto_const_nhds ?_
  refine tendsto_atTop_add_const_right _ _ ?_
  exact Tendsto.const_mul_atTop two_pos tendsto_natCast_atTop_atTop

theorem mid_tendsto (x : ℝ) : Tendsto (fun M : ℕ => mid M x) atTop (𝓝 x) := by
  rw [tendsto_iff_norm_sub_tendsto_zero]
  have h : Tendsto (fun M : ℕ => step M / 2) atTop (𝓝 0) := by simpa using step_tendsto.div_const 2
  exact squeeze_zero (fun _ => norm_nonneg _) (fun M => mid_near M x) h

/-- A sum over the nodes is the integral of a function that is constant in each cell.  Nothing is assumed about the
function. -/
theorem integral_mid (M : ℕ) (G : ℝ → ℝ) :
    ∫ x in Ioc (-π / 2) (π / 2), G (mid M x) = (∑ k ∈ Finset.range (2 * M + 1), G (node M k)) * step M := by
  have hs := step_pos M
  have hle : (-π / 2) ≤ π / 2 := by have := pi_pos; linarith
  rw [← intervalIntegral.integral_of_le hle]
  let a : ℕ → ℝ := fun k => -π / 2 + k * step M
  have ha : ∀ k, a k ≤ a (k + 1) := fun k => by
    simp only [a]
    push_cast
    nlinarith
  have hc : ∀ k, EqOn (fun x => G (mid M x)) (fun _ => G (node M k)) (Ioc (a k) (a (k + 1))) := fun k x hx => by
    simp only
    rw [mid_cell hx]
  have hint : ∀ k < 2 * M + 1, IntervalIntegrable (fun x => G (mid M x)) volume (a k) (a (k + 1)) := fun k _ => by
    rw [intervalIntegrable_iff_integrableOn_Ioc_of_le (ha k)]
    exact (integrableOn_congr_fun (hc k) measurableSet_Ioc).2 (by simp)
  have h := intervalIntegral.sum_integral_adjacent_intervals hint
  have e0 : a 0 = -π / 2 := by simp [a]
  have e1 : a (2 * M + 1) = π / 2 := by
    simp only [a]
    push_cast
    linear_combination step_mul M
  rw [e0, e1] at h
  rw [← h, Finset.sum_mul]
  refine Finset.sum_congr rfl fun k _ => ?_
  rw [intervalIntegral.integral_of_le (ha k), setIntegral_congr_fun measurableSet_Ioc (hc k)]
  simp only [integral_const, MeasurableSet.univ, measureReal_restrict_apply, univ_inter, Real.volume_real_Ioc_of_le (ha k), smul_eq_mul]
  simp only [a]
  push_cast
  ring

theorem measurable_mid (M : ℕ) (g : ℝ → ℝ) : Measurable fun x => g (mid M x) := by
  have h : Measurable fun x : ℝ => ⌈(x + π / 2) / step M⌉ := Int.measurable_ceil.comp ((measurable_id.add_const _).div_const _)
  exact (Measurable.of_discrete (f := fun n : ℤ => g (-π / 2 + (n - 1 / 2) * step M))).comp h

/-- Bounded functions of the nodes that converge have convergent integrals over the cells. -/
theorem tendsto_mid {ι : Type} {l : Filter ι} [l.IsCountablyGenerated] (m : ι → ℕ) (g : ι → ℝ → ℝ) (G : ℝ → ℝ) (C : ℝ)
    (hb : ∀ n x, |g n x| ≤ C) (hl : ∀ x ∈ Ioo (-π / 2) (π / 2), Tendsto (fun n => g n (mid (m n) x)) l (𝓝 (G x))) :
    Tendsto (fun n => ∫ x in Ioc (-π / 2) (π / 2), g n (mid (m n) x)) l (𝓝 (∫ x in Ioc (-π / 2) (π / 2), G x)) := by
  refine tendsto_integral_filter_of_dominated_convergence (fun _ => C) ?_ ?_ ?_ ?_
  · exact Eventually.of_forall fun n => (measurable_mid (m n) (g n)).aestronglyMeasurable
  · exact Eventually.of_forall fun n => Eventually.of_forall fun x => hb n _
  · exact integrable_const C
  · rw [← restrict_Ioo_eq_restrict_Ioc]
    exact (ae_restrict_iff' measurableSet_Ioo).2 (Eventually.of_forall hl)

/-- The substitution `t = tan x`. -/
theorem integral_tan (g : ℝ → ℝ) :
    ∫ x in Ioc (-π / 2) (π / 2), g (tan x) * weight (tan x) = ∫ t, g t * exp (-(1 / 2) * t ^ 2) := by
  have hd : ∀ x ∈ Ioo (-π / 2) (π / 2), HasDerivWithinAt tan (1 / cos x ^ 2) (Ioo (-π / 2) (π / 2)) x := fun x hx =>
    (hasDerivAt_tan (cos_pos_of_mem_Ioo (by rwa [neg_div] at hx)).ne').hasDerivWithinAt
  have hi : InjOn tan (Ioo (-π / 2) (π / 2)) := by
    rw [neg_div]
    exact strictMonoOn_tan.injOn
  have himg : tan '' Ioo (-π / 2) (π / 2) = univ := by
    rw [neg_div]
    exact image_tan_Ioo
  have h := integral_image_eq_integral_abs_deriv_smul measurableSet_Ioo hd hi fun t => g t * exp (-(1 / 2) * t ^ 2)
  rw [himg, Measure.restrict_univ] at h
  rw [h, ← integral_Ioc_eq_integral_Ioo]
  rw [integral_Ioc_eq_integral_Ioo, integral_Ioc_eq_integral_Ioo]
  refine setIntegral_congr_fun measurableSet_Ioo fun x hx => ?_
  have hc : cos x ≠ 0 := (cos_pos_of_mem_Ioo (by rwa [neg_div] at hx)).ne'
  have e : |1 / cos x ^ 2| = 1 + tan x ^ 2 := by
    rw [abs_of_nonneg (by positivity), tan_eq_sin_div_cos]
    field_simp
    linarith [sin_sq_add_cos_sq x]
  simp only [smul_eq_mul]
  rw [e]
  unfold weight
  norm_num
  ring

theorem weight_nonneg (t : ℝ) : 0 ≤ weight t := by
  unfold weight
  positivity

theorem weight_le (t : ℝ) : weight t ≤ 2 := by
  unfold weight
  have h := add_one_le_exp (0.5 * t ^ 2)
  have e : exp (-0.5 * t ^ 2) * exp (0.5 * t ^ 2) = 1 := by
    rw [← exp_add]
    norm_num
  have p := exp_pos (-0.5 * t ^ 2)
  have q : exp (-0.5 * t ^ 2) * (1 + t ^ 2) ≤ exp (-0.5 * t ^ 2) * (2 * exp (0.5 * t ^ 2)) := by
    refine mul_le_mul_of_nonneg_left ?_ p.le
    linarith
  linarith

theorem continuous_weight : Continuous weight := by
  unfold weight
  fun_prop

end Verif.Convolution
