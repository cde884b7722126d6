import Mathlib.Probability.Moments.Variance
import Verif.Convolution.PropsMean

/-!
# The variance of means over blocks of independent samples

Lemmas for C148 and C153.
-/

namespace Verif.Convolution

open Real MeasureTheory ProbabilityTheory Filter Topology

/-- The mean of a function over `M` blocks of a thousand samples, from the block `b0` on. -/
noncomputable def blockMean {Ω X : Type} (Y : ℕ × Fin 1000 → Ω → X) (φ : X → ℝ) (b0 M : ℕ) (ω : Ω) : ℝ :=
  (∑ b ∈ Finset.range M, ∑ k, φ (Y (b + b0, k) ω)) / M / 1000

theorem blockMean_variance {Ω X : Type} [MeasurableSpace Ω] [MeasurableSpace X] {μ : Measure Ω} [IsProbabilityMeasure μ] {Y : ℕ × Fin 1000 → Ω → X}
    {ν : Measure X} (hY : ∀ x, Measurable (Y x)) (hlaw : ∀ x, μ.map (Y x) = ν) (hind : ∀ x y, x ≠ y → IndepFun (Y x) (Y y) μ)
    {φ : X → ℝ} (hφ : Measurable φ) {C : ℝ} (hC : ∀ x, |φ x| ≤ C) (b0 : ℕ) {M : ℕ} (hM : M ≠ 0) :
    MemLp (blockMean Y φ b0 M) 2 μ ∧ Var[blockMean Y φ b0 M; μ] = Var[φ; ν] / (1000 * M) := by
  have hL : ∀ x, MemLp (fun ω => φ (Y x ω)) 2 μ := fun x =>
    MemLp.of_bound (hφ.comp (hY x)).aestronglyMeasurable C (Eventually.of_forall fun ω => hC _)
  have hv : ∀ x, Var[fun ω => φ (Y x ω); μ] = Var[φ; ν] := fun x => by
    rw [← hlaw x, variance_map hφ.aemeasurable (hY x).aemeasurable]
    rfl
  obtain ⟨s, hs⟩ : ∃ s : Finset (ℕ × Fin 1000), s = Finset.range M ×ˢ Finset.univ := ⟨_, rfl⟩
  have e : blockMean Y φ b0 M = fun ω => ((M : ℝ)⁻¹ * 1000⁻¹) * (∑ x ∈ s, fun ω => φ (Y (x.1 + b0, x.2) ω)) ω := by
    funext ω
    unfold blockMean
    rw [hs, Finset.sum_apply, Finset.sum_product]
    ring
  have hp : Set.Pairwise (s : Set (ℕ × Fin 1000)) fun x y => IndepFun (fun ω => φ (Y (x.1 + b0, x.2) ω)) (fun ω => φ (Y (y.1 + b0, y.2) ω)) μ := by
    intro x _ y _ hxy
    refine (hind (x.1 + b0, x.2) (y.1 + b0, y.2) fun h => hxy ?_).comp hφ hφ
    have h1 := congrArg Prod.fst h
    have h2 := congrArg Prod.snd h
    dsimp only at h1 h2
    exact Prod.ext (by omega) h2
  refine ⟨?_, ?_⟩
  · rw [e]
    exact (memLp_finset_sum' s fun x _ => hL _).const_mul _
  · rw [e, variance_const_mul, IndepFun.variance_sum (fun x _ => hL _) hp]
    simp only [hv, Finset.sum_const, nsmul_eq_mul, hs, Finset.card_product, Finset.card_range, Finset.card_univ, Fintype.card_fin]
    have : (M : ℝ) ≠ 0 := Nat.cast_ne_zero.2 hM
    push_cast
    field_simp

/-- Values whose mean is within `δ` of `e` and whose variance goes down with the number of blocks come within every distance larger
than `δ` of `e`, with a probability that goes to one. -/
theorem tendsto_of_variance {Ω : Type} [MeasurableSpace Ω] {μ : Measure Ω} [IsProbabilityMeasure μ] {V : ℕ → Ω → ℝ} {K e δ ε : ℝ}
    (hL : ∀ M, M ≠ 0 → MemLp (V M) 2 μ) (hv : ∀ M : ℕ, M ≠ 0 → Var[V M; μ] = K / (1000 * M)) (hm : ∀ M, M ≠ 0 → |∫ ω, V M ω ∂μ - e| ≤ δ) (hε : δ < ε) :
    Tendsto (fun M => μ {ω | ε ≤ |V M ω - e|}) atTop (𝓝 0) := by
  have hlim : Tendsto (fun M : ℕ => ENNReal.ofReal (K / (1000 * M) / (ε - δ) ^ 2)) atTop (𝓝 0) := by
    have h1 : Tendsto (fun M : ℕ => K / (1000 * M) / (ε - δ) ^ 2) atTop (𝓝 0) := by
      have := (tendsto_const_div_atTop_nhds_zero_nat K).const_mul (1 / 1000 / (ε - δ) ^ 2)
      rw [mul_zero] at this
      refine this.congr fun M => ?_
      rw [← div_div]
      ring
    have h2 := ENNReal.tendsto_ofReal h1
    rwa [ENNReal.ofReal_zero] at h2
  refine tendsto_of_tendsto_of_tendsto_of_le_of_le' tendsto_const_nhds hlim (Eventually.of_forall fun M => bot_le) ?_
  filter_upwards [eventually_ne_atTop 0] with M hM
  rw [← hv M hM]
  refine (measure_mono fun ω hω => ?_).trans (meas_ge_le_variance_div_sq (hL M hM) (sub_pos.2 hε))
  simp only [Set.mem_setOf_eq] at hω ⊢
  have h1 := hm M hM
  have h2 := abs_add_le (V M ω - ∫ ω, V M ω ∂μ) (∫ ω, V M ω ∂μ - e)
  rw [sub_add_sub_cancel] at h2
  linarith

end Verif.Convolution
