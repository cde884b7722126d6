import Verif.Convolution.Grid
import Mathlib.MeasureTheory.Integral.Pi
import Mathlib.MeasureTheory.Measure.Lebesgue.EqHaar
import Mathlib.Analysis.SpecialFunctions.Gaussian.GaussianIntegral

/-!
# The limit of the grid sums in four dimensions

Helper lemmas for C145.
-/

namespace Verif.Convolution

open Real MeasureTheory Filter Topology Set

/-- The quadrature over one variable. -/
noncomputable def quadrature (M : ℕ) (g : ℝ → ℝ) : ℝ :=
  (∑ k ∈ Finset.range (2 * M + 1), g (tan (node M k)) * weight (tan (node M k))) * step M

theorem quadrature_le {M : ℕ} {g : ℝ → ℝ} {C : ℝ} (hb : ∀ t, |g t| ≤ C) : |quadrature M g| ≤ 2 * C * π := by
  have hs := step_pos M
  have hC : 0 ≤ C := (abs_nonneg _).trans (hb 0)
  unfold quadrature
  rw [abs_mul, abs_of_pos hs, ← step_mul M, ← mul_assoc]
  refine mul_le_mul_of_nonneg_right ?_ hs.le
  refine (Finset.abs_sum_le_sum_abs _ _).trans ?_
  have : ∀ k ∈ Finset.range (2 * M + 1), |g (tan (node M k)) * weight (tan (node M k))| ≤ 2 * C := fun k _ => by
    rw [abs_mul, abs_of_nonneg (weight_nonneg _), mul_comm 2]
    exact mul_le_mul (hb _) (weight_le _) (weight_nonneg _) hC
  refine (Finset.sum_le_sum this).trans ?_
  rw [Finset.sum_const, Finset.card_range, nsmul_eq_mul]
  push_cast
  linarith

/-- The quadrature of functions that converge continuously converges to the Gaussian integral of their limit. -/
theorem tendsto_quadrature {ι : Type} {l : Filter ι} [l.IsCountablyGenerated] {m : ι → ℕ} (hm : Tendsto m l atTop) {g : ι → ℝ → ℝ}
    {G : ℝ → ℝ} {C : ℝ} (hb : ∀ n t, |g n t| ≤ C)
    (hl : ∀ (t : ℝ) (v : ι → ℝ), Tendsto v l (𝓝 t) → Tendsto (fun n => g n (v n)) l (𝓝 (G t))) :
    Tendsto (fun n => quadrature (m n) (g n)) l (𝓝 (∫ t, G t * exp (-(1 / 2) * t ^ 2))) := by
  rw [← integral_tan]
  have e : (fun n => quadrature (m n) (g n)) = fun n => ∫ x in Ioc (-π / 2) (π / 2),
      (fun x => g n (tan x) * weight (tan x)) (mid (m n) x) := by
    funext n
    exact (integral_mid (m n) fun x => g n (tan x) * weight (tan x)).symm
  rw [e]
  refine tendsto_mid m (fun n x => g n (tan x) * weight (tan x)) _ (C * 2) (fun n x => ?_) fun x hx => ?_
  · rw [abs_mul, abs_of_nonneg (weight_nonneg _)]
    exact mul_le_mul (hb _ _) (weight_le _) (weight_nonneg _) ((abs_nonneg _).trans (hb n 0))
  · have hc : cos x ≠ 0 := (cos_pos_of_mem_Ioo (by rwa [neg_div] at hx)).ne'
    have ht : Tendsto (fun n => tan (mid (m n) x)) l (𝓝 (tan x)) :=
      (continuousAt_tan.2 hc).tendsto.comp ((mid_tendsto x).comp hm)
    exact (hl _ _ ht).mul ((continuous_weight.tendsto _).comp ht)

/-- The quadrature over four variables. -/
noncomputable def quadrature4 (M0 M1 : ℕ) (f : ℝ → ℝ → ℝ → ℝ → ℝ) : ℝ :=
  quadrature M1 fun z => quadrature M0 fun x => quadrature M0 fun y => quadrature M0 fun w => f x y z w

/-- The Gaussian integral over four variables. -/
noncomputable def gauss4 (f : ℝ → ℝ → ℝ → ℝ → ℝ) : ℝ :=
  ∫ z, (∫ x, (∫ y, (∫ w, f x y z w * exp (-(1 / 2) * w ^ 2)) * exp (-(1 / 2) * y ^ 2)) * exp (-(1 / 2) * x ^ 2)) * exp (-(1 / 2) * z ^ 2)

theorem tendsto_quadrature3 {ι : Type} {l : Filter ι} [l.IsCountablyGenerated] {m0 : ι → ℕ} (h0 : Tendsto m0 l atTop)
    {f : ℝ → ℝ → ℝ → ℝ → ℝ} (hf : Continuous fun p : ℝ × ℝ × ℝ × ℝ => f p.1 p.2.1 p.2.2.1 p.2.2.2) {C : ℝ} (hb : ∀ x y z w, |f x y z w| ≤ C)
    {z : ℝ} {v : ι → ℝ} (hv : Tendsto v l (𝓝 z)) :
    Tendsto (fun n => quadrature (m0 n) fun x => quadrature (m0 n) fun y => quadrature (m0 n) fun w => f x y (v n) w) l
      (𝓝 (∫ x, (∫ y, (∫ w, f x y z w * exp (-(1 / 2) * w ^ 2)) * exp (-(1 / 2) * y ^ 2)) * exp (-(1 / 2) * x ^ 2))) := by
  refine tendsto_quadrature h0 (fun n x => quadrature_le fun y => quadrature_le fun w => hb x y _ w) fun x vx hx => ?_
  refine tendsto_quadrature h0 (fun n y => quadrature_le fun w => hb _ y _ w) fun y vy hy => ?_
  refine tendsto_quadrature h0 (fun n w => hb _ _ _ w) fun w vw hw => ?_
  exact (hf.tendsto (x, y, z, w)).comp (hx.prodMk_nhds (hy.prodMk_nhds (hv.prodMk_nhds hw)))

theorem tendsto_quadrature4 {ι : Type} {l : Filter ι} [l.IsCountablyGenerated] {m0 m1 : ι → ℕ} (h0 : Tendsto m0 l atTop)
    (h1 : Tendsto m1 l atTop) {f : ℝ → ℝ → ℝ → ℝ → ℝ} (hf : Continuous fun p : ℝ × ℝ × ℝ × ℝ => f p.1 p.2.1 p.2.2.1 p.2.2.2) {C : ℝ}
    (hb : ∀ x y z w, |f x y z w| ≤ C) : Tendsto (fun n => quadrature4 (m0 n) (m1 n) f) l (𝓝 (gauss4 f)) :=
  tendsto_quadrature h1 (fun n z => quadrature_le fun x => quadrature_le fun y => quadrature_le fun w => hb x y z w)
    fun _ _ hv => tendsto_quadrature3 h0 hf hb hv

/-- The sum of the code. -/
theorem gridSum_eq (c : Coeffs) (ax : Verif.Crystal.Vec × Verif.Crystal.Vec × Verif.Crystal.Vec) (p : Point) (S : Point → ℝ) (M0 M1 : ℕ) :
    gridSum c ax p S M0 M1 * step M0 ^ 3 * step M1 = quadrature4 M0 M1 fun x y z w => S (sampled c ax p x y z w) := by
  have comm : ∀ f : ℕ → ℕ → ℕ → ℝ, ∑ w ∈ Finset.range (2 * M0 + 1), ∑ x ∈ Finset.range (2 * M0 + 1), ∑ y ∈ Finset.range (2 * M0 + 1), f x y w =
      ∑ x ∈ Finset.range (2 * M0 + 1), ∑ y ∈ Finset.range (2 * M0 + 1), ∑ w ∈ Finset.range (2 * M0 + 1), f x y w := fun f => by
    rw [Finset.sum_comm]
    exact Finset.sum_congr rfl fun x _ => Finset.sum_comm
  unfold gridSum quadrature4 quadrature
  simp only [sum_nodes]
  rw [mul_assoc, mul_comm (step M0 ^ 3), ← mul_assoc, mul_right_comm]
  congr 1
  rw [Finset.sum_mul]
  refine Finset.sum_congr rfl fun z _ => ?_
  rw [comm, Finset.sum_mul, Finset.sum_mul, Finset.sum_mul]
  refine Finset.sum_congr rfl fun x _ => ?_
  simp only [Finset.sum_mul]
  refine Finset.sum_congr rfl fun y _ => Finset.sum_congr rfl fun w _ => ?_
  ring

/-! ## Iterated integrals and the integral over the space -/

/-- Dominated by a Gaussian. -/
def Tame {n : ℕ} (f : (Fin n → ℝ) → ℝ) : Prop := Continuous f ∧ ∃ C, ∀ v, |f v| ≤ C * ∏ i, exp (-(1 / 2) * v i ^ 2)

theorem integrable_exp : Integrable fun t : ℝ => exp (-(1 / 2) * t ^ 2) := integrable_exp_neg_mul_sq (by norm_num)

theorem Tame.integrable {n : ℕ} {f : (Fin n → ℝ) → ℝ} (h : Tame f) : Integrable f := by
  obtain ⟨hc, C, hC⟩ := h
  refine Integrable.mono' ((Integrable.fintype_prod (f := fun _ : Fin n => fun t : ℝ => exp (-(1 / 2) * t ^ 2)) (fun _ => integrable_exp)).const_mul C)
    hc.aestronglyMeasurable (Eventually.of_forall fun v => ?_)
  exact hC v

theorem Tame.slice {n : ℕ} {f : (Fin (n + 1) → ℝ) → ℝ} (h : Tame f) (t : ℝ) : Tame fun v : Fin n → ℝ => f (Fin.cons t v) := by
  obtain ⟨hc, C, hC⟩ := h
  refine ⟨hc.comp (by fun_prop), C * exp (-(1 / 2) * t ^ 2), fun v => ?_⟩
  refine (hC _).trans (le_of_eq ?_)
  rw [Fin.prod_univ_succ]
  simp
  ring

theorem Tame.fubini {n : ℕ} {f : (Fin (n + 1) → ℝ) → ℝ} (h : Tame f) : ∫ v, f v = ∫ t, ∫ v : Fin n → ℝ, f (Fin.cons t v) := by
  have e := (volume_preserving_piFinSuccAbove (fun _ : Fin (n + 1) => ℝ) 0).symm
  have hi : Integrable (fun p : ℝ × (Fin n → ℝ) => f ((MeasurableEquiv.piFinSuccAbove (fun _ : Fin (n + 1) => ℝ) 0).symm p)) (volume.prod volume) :=
    (e.integrable_comp_emb (MeasurableEquiv.measurableEmbedding _)).2 h.integrable
  have := e.integral_comp (MeasurableEquiv.measurableEmbedding _) f
  rw [← this]
  have hx : ∀ (t : ℝ) (v : Fin n → ℝ), (MeasurableEquiv.piFinSuccAbove (fun _ : Fin (n + 1) => ℝ) 0).symm (t, v) = Fin.cons t v := fun t v => by
    simp [MeasurableEquiv.piFinSuccAbove, Fin.insertNthEquiv, Fin.insertNth_zero']
  refine (integral_prod _ hi).trans ?_
  simp only [hx]

/-- The Gaussian integral over four variables as an integral over the space. -/
theorem gauss4_eq {f : ℝ → ℝ → ℝ → ℝ → ℝ} (hf : Continuous fun p : ℝ × ℝ × ℝ × ℝ => f p.1 p.2.1 p.2.2.1 p.2.2.2) {C : ℝ}
    (hb : ∀ x y z w, |f x y z w| ≤ C) : gauss4 f = ∫ v : Fin 4 → ℝ, f (v 1) (v 2) (v 0) (v 3) * exp (-(1 / 2) * ∑ i, v i ^ 2) := by
  have ht : Tame fun v : Fin 4 → ℝ => f (v 1) (v 2) (v 0) (v 3) * exp (-(1 / 2) * ∑ i, v i ^ 2) := by
    constructor
    · have h : Continuous fun v : Fin 4 → ℝ => (v 1, v 2, v 0, v 3) := by fun_prop
      exact (hf.comp h).mul (by fun_prop)
    · refine ⟨C, fun v => ?_⟩
      rw [abs_mul, abs_of_pos (exp_pos _), ← exp_sum, ← Finset.mul_sum]
      exact mul_le_mul_of_nonneg_right (hb _ _ _ _) (exp_pos _).le
  rw [ht.fubini]
  unfold gauss4
  refine integral_congr_ae (Eventually.of_forall fun z => ?_)
  have h1 := ht.slice z
  dsimp only
  rw [h1.fubini, ← integral_mul_const]
  refine integral_congr_ae (Eventually.of_forall fun x => ?_)
  have h2 := h1.slice x
  dsimp only
  rw [h2.fubini, ← integral_mul_const, ← integral_mul_const]
  refine integral_congr_ae (Eventually.of_forall fun y => ?_)
  have h3 := h2.slice y
  dsimp only
  rw [h3.fubini, ← integral_mul_const, ← integral_mul_const, ← integral_mul_const]
  refine integral_congr_ae (Eventually.of_forall fun w => ?_)
  dsimp only
  rw [integral_unique]
  have hv : (volume : Measure (Fin 0 → ℝ)).real univ = 1 := by
    rw [Measure.real, volume_pi, Measure.pi_univ]
    simp
  rw [hv, one_smul, Fin.sum_univ_four]
  change _ = f x y z w * exp (-(1 / 2) * (z ^ 2 + x ^ 2 + y ^ 2 + w ^ 2))
  simp only [mul_assoc, ← exp_add]
  congr 2
  ring

end Verif.Convolution
