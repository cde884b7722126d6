import Verif.Functions.Model
import Mathlib.Data.List.GetD
import Mathlib.Algebra.BigOperators.Group.List.Basic
import Mathlib.Analysis.SpecialFunctions.Gaussian.GaussianIntegral
import Mathlib.Analysis.SpecialFunctions.ImproperIntegrals
import Mathlib.MeasureTheory.Integral.Prod
import Mathlib.Tactic.FieldSimp
import Mathlib.Tactic.Positivity
import Mathlib.Tactic.Ring
import Mathlib.Tactic.Linarith

/-!
# Lemmas about the peak loops and the integrals
-/

namespace Verif.Functions

open Real

theorem loop_eq (b : ℝ) (n : Nat) (f : Nat → ℝ) :
    loop b n f = b + ((List.range n).map f).sum := by
  unfold loop
  generalize List.range n = L
  induction L generalizing b with
  | nil => simp
  | cons a L ih => rw [List.foldl_cons, ih, List.map_cons, List.sum_cons, add_assoc]

theorem flatten_getD {k : Nat} {peaks : List (List ℝ)} (hlen : ∀ c ∈ peaks, c.length = k)
    (t : List ℝ) {i j : Nat} (hi : i < peaks.length) (hj : j < k) :
    (peaks.flatten ++ t).getD (k * i + j) 0 = (peaks.getD i []).getD j 0 := by
  induction peaks generalizing i with
  | nil => simp at hi
  | cons c peaks ih =>
    have hc := hlen c (by simp)
    rw [List.flatten_cons, List.append_assoc]
    cases i with
    | zero =>
      rw [Nat.mul_zero, Nat.zero_add, List.getD_append _ _ _ _ (by omega)]
      rfl
    | succ i =>
      rw [List.getD_append_right _ _ _ _ (by rw [hc, Nat.mul_succ]; omega),
        show k * (i + 1) + j - c.length = k * i + j by rw [hc, Nat.mul_succ]; omega,
        List.getD_cons_succ]
      exact ih (fun c hc => hlen c (by simp [hc])) (by simpa using hi)

theorem withBackground_eq {k : Nat} (hk : 0 < k) (b0 b1 : ℝ) {peaks : List (List ℝ)}
    (hlen : ∀ c ∈ peaks, c.length = k) {t : List ℝ} (ht : t.length < k) (q : ℝ)
    (F : (Nat → ℝ) → ℝ) (hF : ∀ g g', (∀ j < k, g j = g' j) → F g = F g') :
    withBackground (b0 :: b1 :: (peaks.flatten ++ t)) q k
        (fun i => F fun j => at' (b0 :: b1 :: (peaks.flatten ++ t)) (k * i + 2 + j)) =
      .ok (b0 + b1 * q + (peaks.map fun c => F fun j => c.getD j 0).sum) := by
  unfold withBackground
  rw [if_neg (by simp), loop_eq]
  have hl : peaks.flatten.length = k * peaks.length := by
    clear ht hF
    induction peaks with
    | nil => simp
    | cons c peaks ih =>
      rw [List.flatten_cons, List.length_append, hlen c (by simp),
        ih (fun c hc => hlen c (by simp [hc])), List.length_cons, Nat.mul_succ, Nat.add_comm]
  have hn : ((b0 :: b1 :: (peaks.flatten ++ t)).length - 2) / k = peaks.length := by
    simp only [List.length_cons, List.length_append, hl]
    rw [show k * peaks.length + t.length + 1 + 1 - 2 = k * peaks.length + t.length by omega,
      Nat.mul_add_div hk, Nat.div_eq_of_lt ht, Nat.add_zero]
  rw [hn]
  congr 2
  have : peaks.map (fun c => F fun j => c.getD j 0) =
      (List.range peaks.length).map (fun i => F fun j => (peaks.getD i []).getD j 0) := by
    apply List.ext_getElem
    · simp
    · intro i h1 h2
      simp only [List.getElem_map, List.getElem_range]
      rw [List.getD_eq_getElem _ _ (by simpa using h1)]
  rw [this]
  congr 1
  apply List.map_congr_left
  intro i hi
  apply hF
  intro j hj
  unfold at'
  rw [show k * i + 2 + j = (k * i + j) + 1 + 1 by omega, List.getD_cons_succ, List.getD_cons_succ]
  exact flatten_getD hlen t (List.mem_range.1 hi) hj

open MeasureTheory

/-- Area under a Gaussian centred anywhere. -/
theorem integral_gauss_shift (b x0 : ℝ) : ∫ q : ℝ, exp (-b * (q - x0) ^ 2) = √(π / b) := by
  rw [integral_sub_right_eq_self (fun q => exp (-b * q ^ 2)) x0, integral_gaussian]

theorem integrable_gauss_shift {b : ℝ} (hb : 0 < b) (x0 : ℝ) :
    Integrable fun q : ℝ => exp (-b * (q - x0) ^ 2) :=
  (integrable_exp_neg_mul_sq hb).comp_sub_right x0

/-- Area under a Lorentzian of half width `g` centred anywhere. -/
theorem integral_lorentz {g : ℝ} (hg : 0 < g) (x0 : ℝ) :
    (Integrable fun q : ℝ => g / ((q - x0) ^ 2 + g ^ 2)) ∧
      ∫ q : ℝ, g / ((q - x0) ^ 2 + g ^ 2) = π := by
  have h : (fun q : ℝ => g / ((q - x0) ^ 2 + g ^ 2)) =
      fun q => g⁻¹ * (fun u => (1 + u ^ 2)⁻¹) ((q - x0) / g) := by
    funext q
    have : 0 < (q - x0) ^ 2 + g ^ 2 := by positivity
    have h1 : 1 + ((q - x0) / g) ^ 2 = ((q - x0) ^ 2 + g ^ 2) / g ^ 2 := by field_simp; ring
    simp only [h1]
    field_simp
  rw [h]
  constructor
  · apply Integrable.const_mul
    exact (integrable_inv_one_add_sq.comp_div hg.ne').comp_sub_right x0
  · rw [integral_const_mul, integral_sub_right_eq_self (fun q => (1 + (q / g) ^ 2)⁻¹) x0,
      Measure.integral_comp_div (fun u => (1 + u ^ 2)⁻¹) g, integral_univ_inv_one_add_sq, abs_of_pos hg,
      smul_eq_mul]
    field_simp

end Verif.Functions
