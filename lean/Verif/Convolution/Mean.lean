import Verif.Convolution.Law
import Verif.Convolution.PropsMC

/-!
# The mean of the Monte Carlo method

Lemmas for C148.
-/

namespace Verif.Convolution

open Real Matrix MeasureTheory Filter Topology
open Verif.Crystal (Fail Vec Mat npSqrt npDiv npDiv_ok npSqrt_ok standardSystem)
open Verif.Resolution (M4 Decoupled Inst Res calcResolution hkls Query)
open Verif.Tools (quad SPD Arg cleanArgs)

/-- The state of the random numbers after `b` blocks. -/
def stateAfter {G : Type} (R : Random G) (b : ℕ) (g : G) : G := (fun g => (R.randn g).2)^[b] g

/-- The block drawn after `b` others. -/
def draw {G : Type} (R : Random G) (b : ℕ) (g : G) : Fin 4 → Fin 1000 → ℝ := (R.randn (stateAfter R b g)).1

theorem stateAfter_add {G : Type} (R : Random G) (a b : ℕ) (g : G) : stateAfter R a (stateAfter R b g) = stateAfter R (a + b) g :=
  (Function.iterate_add_apply _ a b g).symm

theorem draw_add {G : Type} (R : Random G) (a b : ℕ) (g : G) : draw R a (stateAfter R b g) = draw R (a + b) g := by
  unfold draw
  rw [stateAfter_add]

/-- The random numbers of one column of each block are independent with the law `ρ`, when the state at the start has the law
`μ`. -/
structure Draws {G : Type} [MeasurableSpace G] (R : Random G) (μ : Measure G) (ρ : Measure ℝ) : Prop where
  measurable : ∀ b a k, Measurable fun g => draw R b g a k
  law : ∀ b k, μ.map (fun g a => draw R b g a k) = Measure.pi fun _ : Fin 4 => ρ

theorem blocks_none {G : Type} {n : ℕ} (R : Random G) (c : Coeffs) (ax : Vec × Vec × Vec) (p : Point) (S : Fin n → Point → ℝ) :
    ∀ (m : ℕ) (u : Fin n → ℝ) (g : G), blocks R none c ax p S m (u, g) =
      (fun j => u j + ∑ b ∈ Finset.range m, blockSum c ax p (S j) (draw R b g), stateAfter R m g)
  | 0, u, g => by simp [blocks, stateAfter]
  | m + 1, u, g => by
    rw [blocks]
    simp only
    rw [blocks_none R c ax p S m]
    have e1 : (R.randn g).2 = stateAfter R 1 g := rfl
    have e2 : (R.randn g).1 = draw R 0 g := rfl
    rw [e1, e2, stateAfter_add]
    congr 1
    funext j
    rw [Finset.sum_range_succ', add_comm (∑ _ ∈ _, _), ← add_assoc]
    simp only [draw_add]

/-- The value of `mcAt` without a seed. -/
noncomputable def mcValue {G : Type} {n : ℕ} (R : Random G) (c : Coeffs) (ax : Vec × Vec × Vec) (p : Point) (S : Fin n → Point → ℝ) (f : Fin n → ℝ)
    (M : ℕ) (g : G) : ℝ :=
  (∑ j, (∑ b ∈ Finset.range M, blockSum c ax p (S j) (draw R b g)) * f j) / M / 1000 * π ^ 4 / √c.detM

theorem mcAt_ok {G : Type} {n : ℕ} (R : Random G) {c : Coeffs} (d0 : 0 < c.detM) (ax : Vec × Vec × Vec) (p : Point) (S : Fin n → Point → ℝ) (f : Fin n → ℝ)
    {M : ℕ} (hM : M ≠ 0) (g : G) : mcAt R none c ax p S f M g = .ok (mcValue R c ax p S f M g, stateAfter R M g) := by
  unfold mcAt
  rw [blocks_none]
  simp only [zero_add, npDiv_ok (Nat.cast_ne_zero.2 hM : (M : ℝ) ≠ 0), npSqrt_ok d0.le, npDiv_ok (sqrt_pos.2 d0).ne', ok_bind, pure_ok]
  rfl

theorem mcAll_ok {G : Type} {n : ℕ} (R : Random G) (ax : Vec × Vec × Vec) (S : Fin n → Point → ℝ) (f : Pref n) {M : ℕ} (hM : M ≠ 0) :
    ∀ (m : ℕ) (y : Fin m → Point × Res × Coeffs), (∀ k, 0 < (y k).2.2.detM) → ∀ g : G, mcAll R none ax S f M (List.ofFn y) g =
      .ok (List.ofFn fun k => mcValue R (y k).2.2 ax (y k).1 S (f.factor (y k).1) M (stateAfter R (k * M) g) * (y k).2.1.r0 + f.background (y k).1,
        stateAfter R (m * M) g)
  | 0, y, _, g => by
    simp only [List.ofFn_zero, mcAll, zero_mul]
    rfl
  | m + 1, y, hy, g => by
    rw [List.ofFn_succ, List.ofFn_succ, mcAll, mcAt_ok R (hy 0) ax _ S _ hM]
    simp only [lift, ok_bind]
    rw [mcAll_ok R ax S f hM m _ fun k => hy k.succ]
    simp only [ok_bind, pure_ok, stateAfter_add, Fin.val_zero, zero_mul, Fin.val_succ, add_mul, one_mul]
    rfl

/-! ## The integrals -/

/-- The integrand in the variables. -/
noncomputable def inVars (c : Coeffs) (ax : Vec × Vec × Vec) (p : Point) (S : Point → ℝ) (t : Fin 4 → ℝ) : ℝ :=
  S (sampled c ax p (t 0) (t 1) (t 2) (t 3))

theorem inVars_continuous (c : Coeffs) (ax : Vec × Vec × Vec) (p : Point) {S : Point → ℝ} (hS : Smooth S) : Continuous (inVars c ax p S) := by
  have h : Continuous fun t : Fin 4 → ℝ => (t 0, t 1, t 2, t 3) := by fun_prop
  exact (continuous_sampled c ax p hS).comp h

/-- The Gaussian mean with the density `h` of the random numbers. -/
noncomputable def average (c : Coeffs) (ax : Vec × Vec × Vec) (p : Point) (S : Point → ℝ) (h : ℝ → ℝ) : ℝ :=
  (∫ t : Fin 4 → ℝ, (∏ a, h (t a)) * (inVars c ax p S t * exp (-(1 / 2) * ∑ a, t a ^ 2))) / √c.detM

theorem gauss_tame {n : ℕ} {f : (Fin n → ℝ) → ℝ} (hf : Continuous f) {C : ℝ} (hC : ∀ t, |f t| ≤ C) :
    Tame fun t : Fin n → ℝ => f t * exp (-(1 / 2) * ∑ a, t a ^ 2) := by
  refine ⟨hf.mul (by fun_prop), C, fun v => ?_⟩
  rw [abs_mul, abs_of_pos (exp_pos _), ← exp_sum, ← Finset.mul_sum]
  exact mul_le_mul_of_nonneg_right (hC _) (exp_pos _).le

/-- With uniform random numbers the mean is the convolution. -/
theorem average_one {R : M4} (hR : SPD R) {c : Coeffs} (hc : coeffs R = .ok c) (ax : Vec × Vec × Vec) (p : Point) {S : Point → ℝ} (hS : Smooth S) :
    average c ax p S (fun _ => 1) = smeared ax (cut R) S p := by
  obtain ⟨c', hc', hx, hy, hz, hw, -, d0, e2, e3⟩ := coeffs_ok hR
  rw [hc] at hc'
  obtain rfl := Except.ok.inj hc'
  obtain ⟨C, hC⟩ := hS.bounded
  unfold smeared average
  rw [← gauss4_displacement hx hy hz hw d0 e2 e3 (f := fun d => S (displaced ax p d)) (hS.cont.comp (continuous_displaced ax p)) fun d => hC _]
  congr 1
  rw [gauss4_eq (f := fun x y z w => S (displaced ax p (displacement c x y z w))) (continuous_sampled c ax p hS) fun x y z w => hC _]
  obtain ⟨σ, h0, h1, h2, h3⟩ : ∃ σ : Fin 4 ≃ Fin 4, σ 0 = 2 ∧ σ 1 = 0 ∧ σ 2 = 1 ∧ σ 3 = 3 :=
    ⟨⟨![2, 0, 1, 3], ![1, 2, 0, 3], by decide, by decide⟩, rfl, rfl, rfl, rfl⟩
  have hp := (volume_measurePreserving_piCongrLeft (fun _ : Fin 4 => ℝ) σ)
  have := hp.integral_comp (MeasurableEquiv.measurableEmbedding _) fun t : Fin 4 → ℝ => inVars c ax p S t * exp (-(1 / 2) * ∑ a, t a ^ 2)
  simp only [Finset.prod_const_one, one_mul]
  rw [← this]
  refine integral_congr_ae (Eventually.of_forall fun v => ?_)
  have hv : ∀ a, (MeasurableEquiv.piCongrLeft (fun _ : Fin 4 => ℝ) σ) v (σ a) = v a := fun a => by
    rw [MeasurableEquiv.coe_piCongrLeft, Equiv.piCongrLeft_apply_apply]
  dsimp only
  have g2 := hv 0
  have g0 := hv 1
  have g1 := hv 2
  have g3 := hv 3
  rw [h0] at g2
  rw [h1] at g0
  rw [h2] at g1
  rw [h3] at g3
  unfold inVars
  rw [Fin.sum_univ_four, Fin.sum_univ_four, g0, g1, g2, g3, sampled_eq]
  congr 3
  ring

/-- A density close to one changes the mean little. -/
theorem average_near {c : Coeffs} (d0 : 0 < c.detM) (ax : Vec × Vec × Vec) (p : Point) {S : Point → ℝ} (hS : Smooth S) {h : ℝ → ℝ} (hc : Continuous h)
    {δ : ℝ} (hδ : ∀ t : Fin 4 → ℝ, |(∏ a, h (t a)) - 1| ≤ δ) :
    |average c ax p S h - average c ax p S fun _ => 1| ≤ δ * average c ax p (fun q => |S q|) fun _ => 1 := by
  obtain ⟨C, hC⟩ := hS.bounded
  have hs := sqrt_pos.2 d0
  have hv := inVars_continuous c ax p hS
  have i1 := gauss_tame hv fun t => hC (sampled c ax p (t 0) (t 1) (t 2) (t 3))
  have hb : ∀ t : Fin 4 → ℝ, |∏ a, h (t a)| ≤ δ + 1 := fun t => by
    have := abs_le.1 (hδ t)
    rw [abs_le]
    constructor <;> linarith
  have i2 : Tame fun t : Fin 4 → ℝ => ((∏ a, h (t a)) * inVars c ax p S t) * exp (-(1 / 2) * ∑ a, t a ^ 2) :=
    gauss_tame (f := fun t => (∏ a, h (t a)) * inVars c ax p S t) ((by fun_prop : Continuous fun t : Fin 4 → ℝ => ∏ a, h (t a)).mul hv)
      (C := (δ + 1) * C) fun t => by
        rw [abs_mul]
        exact mul_le_mul (hb t) (hC _) (abs_nonneg _) ((abs_nonneg _).trans (hb t))
  have i2' : Integrable fun t : Fin 4 → ℝ => (∏ a, h (t a)) * (inVars c ax p S t * exp (-(1 / 2) * ∑ a, t a ^ 2)) := by
    simpa only [mul_assoc] using i2.integrable
  unfold average
  simp only [Finset.prod_const_one, one_mul]
  rw [← sub_div, ← integral_sub i2' i1.integrable, abs_div, abs_of_pos hs, ← mul_div_assoc]
  refine div_le_div_of_nonneg_right ?_ hs.le
  rw [← integral_const_mul]
  refine (abs_integral_le_integral_abs).trans (integral_mono_of_nonneg (Eventually.of_forall fun t => abs_nonneg _) ?_ (Eventually.of_forall fun t => ?_))
  · refine Integrable.const_mul (i1.integrable.abs.congr (Eventually.of_forall fun t => ?_)) δ
    dsimp only [inVars]
    rw [abs_mul, abs_of_pos (exp_pos _)]
  · dsimp only [inVars]
    rw [show (∏ a, h (t a)) * (S (sampled c ax p (t 0) (t 1) (t 2) (t 3)) * exp (-(1 / 2) * ∑ a, t a ^ 2)) -
        S (sampled c ax p (t 0) (t 1) (t 2) (t 3)) * exp (-(1 / 2) * ∑ a, t a ^ 2) =
        ((∏ a, h (t a)) - 1) * (S (sampled c ax p (t 0) (t 1) (t 2) (t 3)) * exp (-(1 / 2) * ∑ a, t a ^ 2)) by ring, abs_mul, abs_mul,
      abs_of_pos (exp_pos _)]
    exact mul_le_mul_of_nonneg_right (hδ t) (by positivity)

/-- What is known about the density of the random numbers. -/
structure Density (ρ : Measure ℝ) (h : ℝ → ℝ) : Prop where
  continuous : Continuous h
  nonneg : ∀ t, 0 ≤ h t
  bounded : ∀ t, h t ≤ 2
  law : ρ.map angle = volume.withDensity fun t => ENNReal.ofReal (h t / (π * (1 + t ^ 2)))

theorem uniform_density : Density (volume.restrict (Set.Ioc (0 : ℝ) 1)) fun _ => 1 := ⟨continuous_const, fun _ => zero_le_one, fun _ => one_le_two, uniform_law⟩

theorem normal_density : Density (ProbabilityTheory.gaussianReal 0 1) fun t => theta (turn t) :=
  ⟨theta_continuous.comp turn_continuous, fun _ => theta_nonneg _, fun t => by
    have := (abs_le.1 (theta_near (turn t))).2
    norm_num at this ⊢
    linarith, normal_law⟩

/-- The mean over one column. -/
theorem column_mean {ρ : Measure ℝ} [IsProbabilityMeasure ρ] {h : ℝ → ℝ} (hd : Density ρ h) {c : Coeffs} (ax : Vec × Vec × Vec) (p : Point)
    {S : Point → ℝ} (hS : Smooth S) :
    (∫ r, (inVars c ax p S (fun a => angle (r a)) * ∏ a, weight (angle (r a))) ∂Measure.pi (fun _ : Fin 4 => ρ)) * π ^ 4 / √c.detM = average c ax p S h := by
  have hpi := pi_pos
  have hdc : Continuous fun t : ℝ => h t / (π * (1 + t ^ 2)) := hd.continuous.div (by fun_prop) fun t => by positivity
  have hint : Integrable fun t : ℝ => h t / (π * (1 + t ^ 2)) := by
    have hi := integrable_inv_one_add_sq.const_mul (2 / π)
    refine hi.mono' hdc.aestronglyMeasurable (Eventually.of_forall fun t => ?_)
    have h1 := hd.nonneg t
    have h2 := hd.bounded t
    rw [norm_of_nonneg (by positivity)]
    rw [div_mul_eq_mul_div, ← div_eq_mul_inv, div_div, mul_comm π]
    gcongr
  have hf : Continuous fun t : Fin 4 → ℝ => inVars c ax p S t * ∏ a, weight (t a) :=
    (inVars_continuous c ax p hS).mul (continuous_finset_prod _ fun a _ => continuous_weight.comp (continuous_apply a))
  rw [mean_eq hdc.measurable (fun t => by have := hd.nonneg t; positivity) hint hd.law hf.measurable, average, ← integral_mul_const]
  congr 1
  refine integral_congr_ae (Eventually.of_forall fun t => ?_)
  dsimp only
  rw [Finset.mul_sum, exp_sum, Fin.prod_univ_four, Fin.prod_univ_four, Fin.prod_univ_four, Fin.prod_univ_four]
  unfold weight
  have e : ∀ t : ℝ, exp (-0.5 * t ^ 2) = exp (-(1 / 2) * t ^ 2) := fun t => by norm_num
  simp only [e]
  have q : ∀ a, (1 + t a ^ 2) ≠ 0 := fun a => by positivity
  have q0 := q 0
  have q1 := q 1
  have q2 := q 2
  have q3 := q 3
  field_simp

theorem blockSum_eq (c : Coeffs) (ax : Vec × Vec × Vec) (p : Point) (S : Point → ℝ) (r : Fin 4 → Fin 1000 → ℝ) :
    blockSum c ax p S r = ∑ k, inVars c ax p S (fun a => angle (r a k)) * ∏ a, weight (angle (r a k)) := by
  unfold blockSum inVars angle
  refine Finset.sum_congr rfl fun k _ => ?_
  rw [Fin.prod_univ_four]

/-- The mean of the value at one point. -/
theorem mcValue_mean {G : Type} [MeasurableSpace G] {n : ℕ} {R : Random G} {μ : Measure G} [IsProbabilityMeasure μ] {ρ : Measure ℝ}
    [IsProbabilityMeasure ρ] (hD : Draws R μ ρ) {h : ℝ → ℝ} (hd : Density ρ h) (c : Coeffs) (ax : Vec × Vec × Vec) (p : Point)
    {S : Fin n → Point → ℝ} (hS : ∀ j, Smooth (S j)) (f : Fin n → ℝ) {M : ℕ} (hM : M ≠ 0) (b0 : ℕ) :
    Integrable (fun g => mcValue R c ax p S f M (stateAfter R b0 g)) μ ∧
      ∫ g, mcValue R c ax p S f M (stateAfter R b0 g) ∂μ = ∑ j, average c ax p (S j) h * f j := by
  have hw : ∀ t : ℝ, |weight t| ≤ 2 := fun t => by
    rw [abs_of_nonneg (weight_nonneg _)]
    exact weight_le _
  obtain ⟨T, hT⟩ : ∃ T : Fin n → ℕ → Fin 1000 → G → ℝ, T = fun j b k g =>
    inVars c ax p (S j) (fun a => angle (draw R b g a k)) * ∏ a, weight (angle (draw R b g a k)) := ⟨_, rfl⟩
  have hcol : ∀ b k, Measurable fun g a => draw R b g a k := fun b k => measurable_pi_lambda _ fun a => hD.measurable b a k
  have hf : ∀ j, Measurable fun r : Fin 4 → ℝ => inVars c ax p (S j) (fun a => angle (r a)) * ∏ a, weight (angle (r a)) := fun j => by
    have hc : Continuous fun t : Fin 4 → ℝ => inVars c ax p (S j) t * ∏ a, weight (t a) :=
      (inVars_continuous c ax p (hS j)).mul (continuous_finset_prod _ fun a _ => continuous_weight.comp (continuous_apply a))
    exact hc.measurable.comp (measurable_pi_lambda _ fun a => angle_measurable.comp (measurable_pi_apply a))
  have hint : ∀ j b k, Integrable (T j b k) μ := fun j b k => by
    obtain ⟨C, hC⟩ := (hS j).bounded
    rw [hT]
    refine Integrable.of_bound ((hf j).comp (hcol b k)).aestronglyMeasurable (C * 2 ^ 4) (Eventually.of_forall fun g => ?_)
    rw [norm_mul, norm_prod]
    have h0 : 0 ≤ C := (abs_nonneg _).trans (hC p)
    refine mul_le_mul (hC _) ?_ (Finset.prod_nonneg fun a _ => norm_nonneg _) h0
    calc ∏ a : Fin 4, ‖weight (angle (draw R b g a k))‖ ≤ ∏ _a : Fin 4, (2 : ℝ) := Finset.prod_le_prod (fun a _ => norm_nonneg _) fun a _ => hw _
      _ = 2 ^ 4 := by simp
  have hmean : ∀ j b k, (∫ g, T j b k g ∂μ) * π ^ 4 / √c.detM = average c ax p (S j) h := fun j b k => by
    rw [← column_mean hd ax p (hS j), ← hD.law b k, integral_map (hcol b k).aemeasurable (hf j).aestronglyMeasurable, hT]
  have e : (fun g => mcValue R c ax p S f M (stateAfter R b0 g)) =
      fun g => (∑ j, (∑ b ∈ Finset.range M, ∑ k, T j (b + b0) k g) * f j) / M / 1000 * π ^ 4 / √c.detM := by
    funext g
    unfold mcValue
    simp only [blockSum_eq, draw_add, hT]
  rw [e]
  have hsum : ∀ j, Integrable (fun g => (∑ b ∈ Finset.range M, ∑ k, T j (b + b0) k g) * f j) μ := fun j =>
    (integrable_finset_sum _ fun b _ => integrable_finset_sum _ fun k _ => hint j _ k).mul_const _
  refine ⟨((((integrable_finset_sum _ fun j _ => hsum j).div_const _).div_const _).mul_const _).div_const _, ?_⟩
  rw [integral_div, integral_mul_const, integral_div, integral_div, integral_finset_sum _ fun j _ => hsum j, Finset.sum_div, Finset.sum_div,
    Finset.sum_mul, Finset.sum_div]
  refine Finset.sum_congr rfl fun j _ => ?_
  rw [integral_mul_const, integral_finset_sum _ fun b _ => integrable_finset_sum _ fun k _ => hint j _ k]
  have : ∀ b, ∫ g, ∑ k, T j (b + b0) k g ∂μ = ∑ k, ∫ g, T j (b + b0) k g ∂μ := fun b => integral_finset_sum _ fun k _ => hint j _ k
  simp only [this]
  have hM' : (M : ℝ) ≠ 0 := Nat.cast_ne_zero.2 hM
  have e2 : (∑ b ∈ Finset.range M, ∑ k, ∫ g, T j (b + b0) k g ∂μ) * f j / M / 1000 * π ^ 4 / √c.detM =
      (∑ b ∈ Finset.range M, ∑ k : Fin 1000, (∫ g, T j (b + b0) k g ∂μ) * π ^ 4 / √c.detM) * f j / M / 1000 := by
    have e3 : ∑ b ∈ Finset.range M, ∑ k : Fin 1000, (∫ g, T j (b + b0) k g ∂μ) * π ^ 4 / √c.detM =
        (∑ b ∈ Finset.range M, ∑ k, ∫ g, T j (b + b0) k g ∂μ) * π ^ 4 / √c.detM := by
      simp only [Finset.sum_mul, Finset.sum_div]
    rw [e3]
    ring
  rw [e2]
  simp only [hmean, Finset.sum_const, Finset.card_univ, Fintype.card_fin, Finset.card_range, nsmul_eq_mul]
  push_cast
  field_simp

end Verif.Convolution
