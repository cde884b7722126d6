import Verif.Data.BalanceProps
import Mathlib.Analysis.SpecialFunctions.Exp
import Mathlib.Analysis.SpecialFunctions.ExpDeriv
import Mathlib.Analysis.Calculus.Deriv.Slope

/-!
# Detailed balance at low and at high temperatures

How the factor and the susceptibility depend on energy and temperature, and their limits.
-/

namespace Verif.Data

open Real Verif.Energy Filter Topology

/-! ## Lemmas -/

theorem balance_ratio {kB T : ℝ} (hk : 0 < kB) (hT : 0 < T) (e : ℝ) :
    balance kB T e = 1 - exp (-(e / (kB * T))) := by
  unfold balance
  congr 2
  field_simp

/-! ## C233 -/

/-- **C233** the factor grows with the energy transfer, and falls with the temperature if energy is
transferred to the sample; it grows with the temperature if energy is taken from it. -/
theorem C233_order {kB T T' e e' : ℝ} (hk : 0 < kB) (hT : 0 < T) (hTT : T < T') (hee : e < e') :
    balance kB T e < balance kB T e' ∧
    (0 < e → balance kB T' e < balance kB T e) ∧ (e < 0 → balance kB T e < balance kB T' e) := by
  have hT' := hT.trans hTT
  have h1 : 0 < kB * T := by positivity
  have h2 : kB * T < kB * T' := mul_lt_mul_of_pos_left hTT hk
  rw [balance_ratio hk hT, balance_ratio hk hT, balance_ratio hk hT']
  refine ⟨?_, fun he => ?_, fun he => ?_⟩
  · have : e / (kB * T) < e' / (kB * T) := div_lt_div_of_pos_right hee h1
    have := exp_lt_exp.2 (neg_lt_neg this)
    linarith
  · have : e / (kB * T') < e / (kB * T) := div_lt_div_of_pos_left he h1 h2
    have := exp_lt_exp.2 (neg_lt_neg this)
    linarith
  · have : -e / (kB * T') < -e / (kB * T) := div_lt_div_of_pos_left (neg_pos.2 he) h1 h2
    rw [neg_div, neg_div] at this
    have := exp_lt_exp.2 this
    linarith

/-- **C233** only the ratio of energy and temperature matters. -/
theorem C233_ratio {kB T s : ℝ} (hs : s ≠ 0) (e : ℝ) : balance kB (s * T) (s * e) = balance kB T e := by
  unfold balance
  congr 2
  rw [← mul_neg, mul_div_assoc, mul_div_mul_left _ _ hs]

/-- **C233** the factor is at most the classical value `e / kT`, and for energy transferred to the
sample at least this value divided by one more. -/
theorem C233_classical_bound {kB T : ℝ} (hk : 0 < kB) (hT : 0 < T) (e : ℝ) :
    balance kB T e ≤ e / (kB * T) ∧
    (0 ≤ e → e / (kB * T) / (1 + e / (kB * T)) ≤ balance kB T e) := by
  rw [balance_ratio hk hT]
  constructor
  · have := add_one_le_exp (-(e / (kB * T)))
    linarith
  · intro he
    have hx : 0 ≤ e / (kB * T) := by positivity
    generalize e / (kB * T) = x at hx
    have h1 := add_one_le_exp x
    have h2 : exp (-x) ≤ 1 / (1 + x) := by
      rw [exp_neg, ← one_div]
      exact one_div_le_one_div_of_le (by linarith) (by linarith)
    have h3 : x / (1 + x) = 1 - 1 / (1 + x) := by field_simp; ring
    linarith

/-- **C233** at low temperatures the factor tends to one if energy is transferred to the sample. -/
theorem C233_cold {kB e : ℝ} (hk : 0 < kB) (he : 0 < e) :
    Tendsto (fun T => balance kB T e) (𝓝[>] 0) (𝓝 1) := by
  have h1 : Tendsto (fun T : ℝ => e / kB * T⁻¹) (𝓝[>] 0) atTop :=
    tendsto_inv_nhdsGT_zero.const_mul_atTop (div_pos he hk)
  have h2 : Tendsto (fun T : ℝ => 1 - exp (-(e / kB * T⁻¹))) (𝓝[>] 0) (𝓝 (1 - 0)) :=
    tendsto_const_nhds.sub (tendsto_exp_neg_atTop_nhds_zero.comp h1)
  rw [sub_zero] at h2
  refine h2.congr fun T => ?_
  unfold balance
  congr 2
  rw [div_eq_mul_inv _ T]
  ring

/-- **C233** at high temperatures the factor tends to the classical one: the product with the
temperature tends to `e / k`. -/
theorem C233_hot {kB : ℝ} (hk : 0 < kB) (e : ℝ) :
    Tendsto (fun T => T * balance kB T e) atTop (𝓝 (e / kB)) := by
  have hd : HasDerivAt (fun x : ℝ => -exp (-(e / kB * x))) (e / kB) 0 := by
    have h := ((hasDerivAt_id (0 : ℝ)).const_mul (e / kB)).neg.exp.neg
    refine HasDerivAt.congr_deriv (f := fun x : ℝ => -exp (-(e / kB * x))) h ?_
    simp
  have hs := (hasDerivAt_iff_tendsto_slope_zero.1 hd)
  have hi : Tendsto (fun T : ℝ => T⁻¹) atTop (𝓝[≠] 0) :=
    tendsto_inv_atTop_nhdsGT_zero.mono_right (nhdsWithin_mono _ fun x hx => ne_of_gt hx)
  have hc := hs.comp hi
  refine hc.congr fun T => ?_
  simp only [Function.comp, inv_inv, zero_add, smul_eq_mul, mul_zero, neg_zero, exp_zero]
  unfold balance
  have : -e / kB / T = -(e / kB * T⁻¹) := by rw [div_eq_mul_inv _ T]; ring
  rw [this]
  ring

/-- **C233** where energy is transferred to the sample and the counts are not negative, the dynamic
susceptibility lies between zero and the scattering function, and at most at the scattering
function times `e / kT`. -/
theorem C233_susceptibility (c : Consts) {kB sigma ei T : ℝ} (hk : 0 < kB) (hT : 0 < T)
    {es temps det : List ℝ} {i : Nat} {e s : ℝ} (hei : es[i]? = some e) (hti : temps[i]? = some T)
    (hsi : (scatteringFunction c sigma ei es det)[i]? = some (.num s)) (hs : 0 ≤ s) (he : 0 ≤ e) :
    ∃ x, (susceptibility c kB sigma ei es temps det)[i]? = some (.num x) ∧ 0 ≤ x ∧ x ≤ s ∧
      x ≤ s * (e / (kB * T)) := by
  refine ⟨s * balance kB T e, ?_, ?_, ?_, ?_⟩
  · unfold susceptibility
    rw [List.getElem?_zipWith, hsi, List.getElem?_zipWith, hei, hti]
    rfl
  · have h := (C233_classical_bound hk hT e).2 he
    have : 0 ≤ e / (kB * T) / (1 + e / (kB * T)) := by positivity
    exact mul_nonneg hs (this.trans h)
  · have := (C26_sign hk hT e).2.2
    nlinarith
  · exact mul_le_mul_of_nonneg_left (C233_classical_bound hk hT e).1 hs

/-- The hypotheses are met by a point with energy 1 at a positive temperature. -/
example (c : Consts) : (scatteringFunction c 1 2 [1] [3])[0]? =
    some (.num (4 * π / 1 * √(2 / (2 - 1)) * 3)) := by
  have := C81_scattering_function_partial c (sigma := 1) (ei := 2) (by norm_num) (es := [1]) (det := [3])
    rfl (by simp) (i := 0) (by simp)
  simpa using this

end Verif.Data
