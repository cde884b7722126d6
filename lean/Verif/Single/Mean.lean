import Verif.Convolution.PropsMean
import Verif.Single.Props

/-!
# The mean of the Monte Carlo method for single modes

Lemmas for C153.
-/

namespace Verif.Single

open Real Matrix MeasureTheory Filter Topology
open Complex (I)
open Verif.Crystal (Fail Vec Mat npSqrt npDiv npDiv_ok npSqrt_ok standardSystem)
open Verif.Resolution (M4 Decoupled Inst Res calcResolution hkls Query)
open Verif.Tools (quad SPD Arg cleanArgs)
open Verif.Convolution (Point Pref lift weight angle angle_measurable Density mean_eq continuous_weight weight_nonneg weight_le blockNumber)

/-- The state of the random numbers after `b` blocks. -/
def stateAfter {G : Type} (R : Random G) (b : ℕ) (g : G) : G := (fun g => (R.randn g).2)^[b] g

/-- The block drawn after `b` others. -/
def draw {G : Type} (R : Random G) (b : ℕ) (g : G) : Fin 3 → Fin 1000 → ℝ := (R.randn (stateAfter R b g)).1

theorem stateAfter_add {G : Type} (R : Random G) (a b : ℕ) (g : G) : stateAfter R a (stateAfter R b g) = stateAfter R (a + b) g :=
  (Function.iterate_add_apply _ a b g).symm

theorem draw_add {G : Type} (R : Random G) (a b : ℕ) (g : G) : draw R a (stateAfter R b g) = draw R (a + b) g := by
  unfold draw
  rw [stateAfter_add]

/-- The random numbers of one column of each block are independent with the law `ρ`, when the state at the start has the law
`μ`. -/
structure Draws {G : Type} [MeasurableSpace G] (R : Random G) (μ : Measure G) (ρ : Measure ℝ) : Prop where
  measurable : ∀ b a k, Measurable fun g => draw R b g a k
  law : ∀ b k, μ.map (fun g a => draw R b g a k) = Measure.pi fun _ : Fin 3 => ρ

theorem blocks_none {G : Type} {n : ℕ} (R : Random G) (c : Coeffs) (ax : Vec × Vec × Vec) (p : Point) (S : Fin n → Vec → Mode) :
    ∀ (m : ℕ) (u : Fin n → ℝ) (g : G), blocks R none c ax p S m (u, g) =
      (fun j => u j + ∑ b ∈ Finset.range m, blockSum c ax p (S j) (draw R b g), stateAfter R m g)
  | 0, u, g => by simp [blocks, stateAfter]
  | m + 1, u, g => by
    rw [blocks]
    simp only
    rw [blocks_none R c ax p S m]
    have e1 : (R.randn g).2 = stateAfter R 1 g := rfl
    have e2 : (R.randn g).1 = draw R 0 g := rfl
    rw [e1, e2, stateAfter_add]
    congr 1
    funext j
    rw [Finset.sum_range_succ', add_comm (∑ _ ∈ _, _), ← add_assoc]
    simp only [draw_add]

/-- The value of `mcAt` without a seed. -/
noncomputable def mcValue {G : Type} {n : ℕ} (R : Random G) (c : Coeffs) (ax : Vec × Vec × Vec) (p : Point) (S : Fin n → Vec → Mode) (f : Fin n → ℝ)
    (M : ℕ) (g : G) : ℝ :=
  (∑ j, (∑ b ∈ Finset.range M, blockSum c ax p (S j) (draw R b g)) * f j) / M / 1000 * π ^ 3

theorem mcAt_ok {G : Type} {n : ℕ} (R : Random G) (c : Coeffs) (ax : Vec × Vec × Vec) (p : Point) (S : Fin n → Vec → Mode) (f : Fin n → ℝ)
    {M : ℕ} (hM : M ≠ 0) (g : G) : mcAt R none c ax p S f M g = .ok (mcValue R c ax p S f M g, stateAfter R M g) := by
  unfold mcAt
  rw [blocks_none]
  simp only [zero_add, npDiv_ok (Nat.cast_ne_zero.2 hM : (M : ℝ) ≠ 0), ok_bind, pure_ok]
  rfl

theorem mcAll_ok {G : Type} {n : ℕ} (R : Random G) (ax : Vec × Vec × Vec) (S : Fin n → Vec → Mode) (f : Pref n) {M : ℕ} (hM : M ≠ 0) :
    ∀ (m : ℕ) (y : Fin m → Point × Res × Coeffs), ∀ g : G, mcAll R none ax S f M (List.ofFn y) g =
      .ok (List.ofFn fun k => mcValue R (y k).2.2 ax (y k).1 S (f.factor (y k).1) M (stateAfter R (k * M) g) * (y k).2.1.r0 + f.background (y k).1,
        stateAfter R (m * M) g)
  | 0, y, g => by
    simp only [List.ofFn_zero, mcAll, zero_mul]
    rfl
  | m + 1, y, g => by
    rw [List.ofFn_succ, List.ofFn_succ, mcAll, mcAt_ok R _ ax _ S _ hM]
    simp only [lift, ok_bind]
    rw [mcAll_ok R ax S f hM m _]
    simp only [ok_bind, pure_ok, stateAfter_add, Fin.val_zero, zero_mul, Fin.val_succ, add_mul, one_mul]
    rfl

/-! ## The integrals -/

/-- The Gaussian mean with the density `h` of the random numbers. -/
noncomputable def average (h : ℝ → ℝ) (f : (Fin 3 → ℝ) → ℝ) : ℝ := ∫ t : Fin 3 → ℝ, (∏ a, h (t a)) * (f t * exp (-(1 / 2) * ∑ a, t a ^ 2))

theorem gauss_pow : Integrable (fun t : Fin 3 → ℝ => exp (-(1 / 2) * ∑ a, t a ^ 2)) ∧ ∫ t : Fin 3 → ℝ, exp (-(1 / 2) * ∑ a, t a ^ 2) = √(2 * π) ^ 3 := by
  have e : (fun t : Fin 3 → ℝ => exp (-(1 / 2) * ∑ a, t a ^ 2)) = fun t => ∏ a, exp (-(1 / 2) * t a ^ 2) := by
    funext t
    rw [Finset.mul_sum, exp_sum]
  rw [e]
  constructor
  · exact Integrable.fintype_prod (f := fun _ (x : ℝ) => exp (-(1 / 2) * x ^ 2)) fun _ => integrable_exp_neg_mul_sq (by norm_num)
  · have := integral_fintype_prod_volume_eq_pow (ι := Fin 3) fun x : ℝ => exp (-(1 / 2) * x ^ 2)
    rw [this, Fintype.card_fin, integral_gaussian]
    congr 2
    ring

/-- A density close to one and a function close to another change the mean little. -/
theorem average_near {h : ℝ → ℝ} (hc : Continuous h) {δ ε C : ℝ} (hδ : ∀ t : Fin 3 → ℝ, |(∏ a, h (t a)) - 1| ≤ δ) {f g : (Fin 3 → ℝ) → ℝ}
    (hf : Measurable f) (hg : Measurable g) (hfg : ∀ t, |f t - g t| ≤ ε) (hC : ∀ t, |g t| ≤ C) :
    |average h f - average (fun _ => 1) g| ≤ ((1 + δ) * ε + δ * C) * √(2 * π) ^ 3 := by
  obtain ⟨gi, gv⟩ := gauss_pow
  have hh : Measurable fun t : Fin 3 → ℝ => ∏ a, h (t a) := (by fun_prop : Continuous fun t : Fin 3 → ℝ => ∏ a, h (t a)).measurable
  have he : Measurable fun t : Fin 3 → ℝ => exp (-(1 / 2) * ∑ a, t a ^ 2) := by fun_prop
  have hd0 : 0 ≤ δ := (abs_nonneg _).trans (hδ 0)
  have he0 : 0 ≤ ε := (abs_nonneg _).trans (hfg 0)
  have hC0 : 0 ≤ C := (abs_nonneg _).trans (hC 0)
  have hb : ∀ t : Fin 3 → ℝ, |∏ a, h (t a)| ≤ 1 + δ := fun t => by
    have := abs_le.1 (hδ t)
    rw [abs_le]
    constructor <;> linarith
  have hfC : ∀ t, |f t| ≤ ε + C := fun t => by
    have h1 := abs_sub_abs_le_abs_sub (f t) (g t)
    linarith [hfg t, hC t]
  have i1 : Integrable fun t : Fin 3 → ℝ => (∏ a, h (t a)) * (f t * exp (-(1 / 2) * ∑ a, t a ^ 2)) := by
    refine (gi.const_mul ((1 + δ) * (ε + C))).mono' (hh.mul (hf.mul he)).aestronglyMeasurable (Eventually.of_forall fun t => ?_)
    rw [norm_eq_abs, abs_mul, abs_mul, abs_of_pos (exp_pos _), ← mul_assoc]
    exact mul_le_mul_of_nonneg_right (mul_le_mul (hb t) (hfC t) (abs_nonneg _) (by positivity)) (exp_pos _).le
  have i2 : Integrable fun t : Fin 3 → ℝ => g t * exp (-(1 / 2) * ∑ a, t a ^ 2) := by
    refine (gi.const_mul C).mono' (hg.mul he).aestronglyMeasurable (Eventually.of_forall fun t => ?_)
    rw [norm_eq_abs, abs_mul, abs_of_pos (exp_pos _)]
    exact mul_le_mul_of_nonneg_right (hC t) (exp_pos _).le
  unfold average
  simp only [Finset.prod_const_one, one_mul]
  rw [← integral_sub i1 i2, ← gv, ← integral_const_mul, ← norm_eq_abs]
  refine norm_integral_le_of_norm_le (gi.const_mul _) (Eventually.of_forall fun t => ?_)
  have e : (∏ a, h (t a)) * (f t * exp (-(1 / 2) * ∑ a, t a ^ 2)) - g t * exp (-(1 / 2) * ∑ a, t a ^ 2) =
      ((∏ a, h (t a)) * (f t - g t) + ((∏ a, h (t a)) - 1) * g t) * exp (-(1 / 2) * ∑ a, t a ^ 2) := by ring
  rw [norm_eq_abs, e, abs_mul, abs_of_pos (exp_pos _)]
  refine mul_le_mul_of_nonneg_right ((abs_add_le _ _).trans (add_le_add ?_ ?_)) (exp_pos _).le
  · rw [abs_mul]
    exact mul_le_mul (hb t) (hfg t) (abs_nonneg _) (by positivity)
  · rw [abs_mul]
    exact mul_le_mul (hδ t) (hC t) (abs_nonneg _) hd0

/-- The mean over one column. -/
theorem column_mean {ρ : Measure ℝ} [IsProbabilityMeasure ρ] {h : ℝ → ℝ} (hd : Density ρ h) {f : (Fin 3 → ℝ) → ℝ} (hf : Measurable f) :
    (∫ r, (f (fun a => angle (r a)) * ∏ a, weight (angle (r a))) ∂Measure.pi (fun _ : Fin 3 => ρ)) * π ^ 3 = average h f := by
  have hpi := pi_pos
  have hdc : Continuous fun t : ℝ => h t / (π * (1 + t ^ 2)) := hd.continuous.div (by fun_prop) fun t => by positivity
  have hint : Integrable fun t : ℝ => h t / (π * (1 + t ^ 2)) := by
    have hi := integrable_inv_one_add_sq.const_mul (2 / π)
    refine hi.mono' hdc.aestronglyMeasurable (Eventually.of_forall fun t => ?_)
    have h1 := hd.nonneg t
    have h2 := hd.bounded t
    rw [norm_of_nonneg (by positivity)]
    rw [div_mul_eq_mul_div, ← div_eq_mul_inv, div_div, mul_comm π]
    gcongr
  have hw : Measurable fun t : Fin 3 → ℝ => ∏ a, weight (t a) := (continuous_finset_prod _ fun a _ => continuous_weight.comp (continuous_apply a)).measurable
  have e := mean_eq (ρ := ρ) (d := fun t => h t / (π * (1 + t ^ 2))) hdc.measurable (fun t => by have := hd.nonneg t; positivity) hint hd.law
    (f := fun t : Fin 3 → ℝ => f t * ∏ a, weight (t a)) (hf.mul hw)
  rw [e, average, ← integral_mul_const]
  refine integral_congr_ae (Eventually.of_forall fun t => ?_)
  dsimp only
  rw [Finset.mul_sum, exp_sum, Fin.prod_univ_three, Fin.prod_univ_three, Fin.prod_univ_three, Fin.prod_univ_three]
  unfold weight
  have e : ∀ t : ℝ, exp (-0.5 * t ^ 2) = exp (-(1 / 2) * t ^ 2) := fun t => by norm_num
  simp only [e]
  have q : ∀ a, (1 + t a ^ 2) ≠ 0 := fun a => by positivity
  have q0 := q 0
  have q1 := q 1
  have q2 := q 2
  field_simp

/-- The mode in the variables. -/
noncomputable def inVars (c : Coeffs) (ax : Vec × Vec × Vec) (p : Point) (S : Vec → Mode) (t : Fin 3 → ℝ) : ℝ := term c ax p S (t 0) (t 1) (t 2)

/-- The mode with the exact profile. -/
noncomputable def idealVars (c : Coeffs) (ax : Vec × Vec × Vec) (p : Point) (S : Vec → Mode) (t : Fin 3 → ℝ) : ℝ := ideal c ax p S (t 0) (t 1) (t 2)

theorem voigt_measurable : Measurable fun x : ℝ × ℝ => voigt x.1 x.2 := by
  unfold voigt
  have ht : Measurable fun x : ℝ × ℝ => ((x.2 : ℂ) - I * x.1) := by fun_prop
  have h1 : Measurable fun x : ℝ × ℝ => approx1 (x.2 - I * x.1) := by unfold approx1; fun_prop
  have h2 : Measurable fun x : ℝ × ℝ => approx2 (x.2 - I * x.1) ((x.2 - I * x.1) ^ 2) := by unfold approx2; fun_prop
  have h3 : Measurable fun x : ℝ × ℝ => approx3 (x.2 - I * x.1) := by unfold approx3; fun_prop
  have h4 : Measurable fun x : ℝ × ℝ => approx4 (x.2 - I * x.1) ((x.2 - I * x.1) ^ 2) := by unfold approx4; fun_prop
  have ha : Measurable fun x : ℝ × ℝ => x.2 := measurable_snd
  have hx : Measurable fun x : ℝ × ℝ => |x.1| := by fun_prop
  have hs : Measurable fun x : ℝ × ℝ => |x.1| + x.2 := by fun_prop
  have hl : Measurable fun x : ℝ × ℝ => 0.195 * |x.1| - 0.176 := by fun_prop
  have lt : ∀ {f g : ℝ × ℝ → ℝ}, Measurable f → Measurable g → MeasurableSet {x | f x < g x} := fun hf hg => measurableSet_lt hf hg
  have le : ∀ {f g : ℝ × ℝ → ℝ}, Measurable f → Measurable g → MeasurableSet {x | f x ≤ g x} := fun hf hg => measurableSet_le hf hg
  have k : ∀ r : ℝ, Measurable fun _ : ℝ × ℝ => r := fun r => measurable_const
  refine Complex.measurable_re.comp (Measurable.ite ?_ ?_ (Measurable.ite ?_ h3 (Measurable.ite ?_ h3 (Measurable.ite ?_ h2 (Measurable.ite ?_ h2
    (Measurable.ite ?_ h1 (Measurable.ite ?_ ?_ measurable_const)))))))
  · exact (((lt hs (k 5.5)).inter (le hl ha)).compl).inter (lt ha (k 0.75))
  · exact (by fun_prop : Measurable fun x : ℝ × ℝ => Complex.exp ((x.2 - I * x.1) ^ 2)).sub h4
  · exact (lt hs (k 5.5)).inter ((le hl ha).inter (lt ha (k 0.75)))
  · exact (lt hs (k 5.5)).inter ((lt ha (k 5.5)).inter (le (k 0.75) ha))
  · exact (lt hs (k 15)).inter ((le (k 5.5) hs).inter (lt ha (k 5.5)))
  · exact (lt hs (k 15)).inter ((lt ha (k 15)).inter (le (k 5.5) ha))
  · exact (le (k 15) ha).union (le (k 15) hs)
  · exact measurableSet_eq_fun ha (k 0)
  · fun_prop

theorem inVars_measurable {S : Vec → Mode} {C : ℝ} (hS : Line S C) (c : Coeffs) (ax : Vec × Vec × Vec) (p : Point) : Measurable (inVars c ax p S) := by
  unfold inVars term
  dsimp only
  have hm : Continuous fun t : Fin 3 → ℝ => p.1 + (c.tqxx * t 0 - c.tqxy * t 1) • ax.1 + (c.tqy * t 1) • ax.2.1 + (c.tqz * t 2) • ax.2.2 := by fun_prop
  have h1 := (hS.inte.comp hm).measurable
  have h2 := (hS.disp.comp hm).measurable
  have h3 := (hS.width.comp hm).measurable
  simp only [Function.comp_def] at h1 h2 h3
  refine h1.mul (voigt_measurable.comp (f := fun t : Fin 3 → ℝ => (c.gamma * ((S (p.1 + (c.tqxx * t 0 - c.tqxy * t 1) • ax.1 + (c.tqy * t 1) • ax.2.1 +
    (c.tqz * t 2) • ax.2.2)).disp - p.2) + c.omegax * (c.tqxx * t 0 - c.tqxy * t 1) + c.omegay * (c.tqy * t 1),
    (S (p.1 + (c.tqxx * t 0 - c.tqxy * t 1) • ax.1 + (c.tqy * t 1) • ax.2.1 + (c.tqz * t 2) • ax.2.2)).width * c.gamma)) (Measurable.prodMk ?_ (h3.mul_const _)))
  exact (((h2.sub_const _).const_mul _).add (by fun_prop)).add (by fun_prop)

theorem idealVars_continuous {S : Vec → Mode} {C : ℝ} (hS : Line S C) (c : Coeffs) (ax : Vec × Vec × Vec) (p : Point) : Continuous (idealVars c ax p S) := by
  have h : Continuous fun t : Fin 3 → ℝ => (t 0, t 1, t 2) := by fun_prop
  exact (ideal_continuous hS c ax p).comp h

theorem average_ideal {S : Vec → Mode} {C : ℝ} (hS : Line S C) {c : Coeffs} (hg : 0 < c.gamma) (ax : Vec × Vec × Vec) (p : Point) :
    average (fun _ => 1) (idealVars c ax p S) = gauss3 (ideal c ax p S) := by
  rw [gauss3_eq (ideal_continuous hS c ax p) (ideal_le hS hg ax p)]
  unfold average
  obtain ⟨σ, h0, h1, h2⟩ : ∃ σ : Fin 3 ≃ Fin 3, σ 0 = 2 ∧ σ 1 = 1 ∧ σ 2 = 0 := ⟨⟨![2, 1, 0], ![2, 1, 0], by decide, by decide⟩, rfl, rfl, rfl⟩
  have hp := (volume_measurePreserving_piCongrLeft (fun _ : Fin 3 => ℝ) σ)
  have := hp.integral_comp (MeasurableEquiv.measurableEmbedding _) fun t : Fin 3 → ℝ => idealVars c ax p S t * exp (-(1 / 2) * ∑ a, t a ^ 2)
  simp only [Finset.prod_const_one, one_mul]
  rw [← this]
  refine integral_congr_ae (Eventually.of_forall fun v => ?_)
  have hv : ∀ a, (MeasurableEquiv.piCongrLeft (fun _ : Fin 3 => ℝ) σ) v (σ a) = v a := fun a => by
    rw [MeasurableEquiv.coe_piCongrLeft, Equiv.piCongrLeft_apply_apply]
  dsimp only
  have g2 := hv 0
  have g1 := hv 1
  have g0 := hv 2
  rw [h0] at g2
  rw [h1] at g1
  rw [h2] at g0
  unfold idealVars
  rw [Fin.sum_univ_three, Fin.sum_univ_three, g0, g1, g2]
  congr 3
  ring

theorem blockSum_eq (c : Coeffs) (ax : Vec × Vec × Vec) (p : Point) (S : Vec → Mode) (r : Fin 3 → Fin 1000 → ℝ) :
    blockSum c ax p S r = (∑ k, inVars c ax p S (fun a => angle (r a k)) * ∏ a, weight (angle (r a k))) / c.detxy / c.detz := by
  unfold blockSum inVars angle
  rw [Finset.sum_div, Finset.sum_div]
  refine Finset.sum_congr rfl fun k _ => ?_
  rw [Fin.prod_univ_three]

/-- The mean of the value at one point. -/
theorem mcValue_mean {G : Type} [MeasurableSpace G] {n : ℕ} {R : Random G} {μ : Measure G} [IsProbabilityMeasure μ] {ρ : Measure ℝ}
    [IsProbabilityMeasure ρ] (hD : Draws R μ ρ) {h : ℝ → ℝ} (hd : Density ρ h) {c : Coeffs} (hg : 0 < c.gamma) (ax : Vec × Vec × Vec) (p : Point)
    {S : Fin n → Vec → Mode} {C : Fin n → ℝ} (hS : ∀ j, Line (S j) (C j)) (f : Fin n → ℝ) {M : ℕ} (hM : M ≠ 0) (b0 : ℕ) :
    Integrable (fun g => mcValue R c ax p S f M (stateAfter R b0 g)) μ ∧
      ∫ g, mcValue R c ax p S f M (stateAfter R b0 g) ∂μ = ∑ j, average h (inVars c ax p (S j)) / c.detxy / c.detz * f j := by
  have hw : ∀ t : ℝ, |weight t| ≤ 2 := fun t => by
    rw [abs_of_nonneg (weight_nonneg _)]
    exact weight_le _
  obtain ⟨T, hT⟩ : ∃ T : Fin n → ℕ → Fin 1000 → G → ℝ, T = fun j b k g =>
    inVars c ax p (S j) (fun a => angle (draw R b g a k)) * ∏ a, weight (angle (draw R b g a k)) := ⟨_, rfl⟩
  have hcol : ∀ b k, Measurable fun g a => draw R b g a k := fun b k => measurable_pi_lambda _ fun a => hD.measurable b a k
  have hf : ∀ j, Measurable fun r : Fin 3 → ℝ => inVars c ax p (S j) (fun a => angle (r a)) * ∏ a, weight (angle (r a)) := fun j => by
    have hc : Measurable fun t : Fin 3 → ℝ => inVars c ax p (S j) t * ∏ a, weight (t a) :=
      (inVars_measurable (hS j) c ax p).mul (continuous_finset_prod _ fun a _ => continuous_weight.comp (continuous_apply a)).measurable
    exact hc.comp (measurable_pi_lambda _ fun a => angle_measurable.comp (measurable_pi_apply a))
  have hint : ∀ j b k, Integrable (T j b k) μ := fun j b k => by
    have hC : ∀ t, |inVars c ax p (S j) t| ≤ 2 * C j := fun t => by
      have h0 : 0 ≤ C j := (abs_nonneg _).trans ((hS j).bounded 0)
      have h1 := term_near (hS j) hg ax p (t 0) (t 1) (t 2)
      have h2 := ideal_le (hS j) hg ax p (t 0) (t 1) (t 2)
      have h3 := abs_sub_abs_le_abs_sub (term c ax p (S j) (t 0) (t 1) (t 2)) (ideal c ax p (S j) (t 0) (t 1) (t 2))
      unfold inVars
      norm_num at h1
      linarith
    rw [hT]
    refine Integrable.of_bound ((hf j).comp (hcol b k)).aestronglyMeasurable (2 * C j * 2 ^ 3) (Eventually.of_forall fun g => ?_)
    rw [norm_mul, norm_prod]
    refine mul_le_mul (hC _) ?_ (Finset.prod_nonneg fun a _ => norm_nonneg _) ((abs_nonneg _).trans (hC 0))
    calc ∏ a : Fin 3, ‖weight (angle (draw R b g a k))‖ ≤ ∏ _a : Fin 3, (2 : ℝ) := Finset.prod_le_prod (fun a _ => norm_nonneg _) fun a _ => hw _
      _ = 2 ^ 3 := by simp
  have hmean : ∀ j b k, (∫ g, T j b k g ∂μ) * π ^ 3 = average h (inVars c ax p (S j)) := fun j b k => by
    rw [← column_mean hd (inVars_measurable (hS j) c ax p), ← hD.law b k, integral_map (hcol b k).aemeasurable (hf j).aestronglyMeasurable, hT]
  have e : (fun g => mcValue R c ax p S f M (stateAfter R b0 g)) =
      fun g => (∑ j, (∑ b ∈ Finset.range M, (∑ k, T j (b + b0) k g) / c.detxy / c.detz) * f j) / M / 1000 * π ^ 3 := by
    funext g
    unfold mcValue
    simp only [blockSum_eq, draw_add, hT]
  rw [e]
  have hk : ∀ j b, Integrable (fun g => (∑ k, T j (b + b0) k g) / c.detxy / c.detz) μ := fun j b =>
    ((integrable_finset_sum _ fun k _ => hint j _ k).div_const _).div_const _
  have hsum : ∀ j, Integrable (fun g => (∑ b ∈ Finset.range M, (∑ k, T j (b + b0) k g) / c.detxy / c.detz) * f j) μ := fun j =>
    (integrable_finset_sum _ fun b _ => hk j b).mul_const _
  refine ⟨(((integrable_finset_sum _ fun j _ => hsum j).div_const _).div_const _).mul_const _, ?_⟩
  rw [integral_mul_const, integral_div, integral_div, integral_finset_sum _ fun j _ => hsum j, Finset.sum_div, Finset.sum_div, Finset.sum_mul]
  refine Finset.sum_congr rfl fun j _ => ?_
  rw [integral_mul_const, integral_finset_sum _ fun b _ => hk j b]
  have : ∀ b, ∫ g, (∑ k, T j (b + b0) k g) / c.detxy / c.detz ∂μ = (∑ k, ∫ g, T j (b + b0) k g ∂μ) / c.detxy / c.detz := fun b => by
    rw [integral_div, integral_div, integral_finset_sum _ fun k _ => hint j _ k]
  simp only [this]
  have hM' : (M : ℝ) ≠ 0 := Nat.cast_ne_zero.2 hM
  have hp : π ^ 3 ≠ 0 := by have := pi_pos; positivity
  have hv : ∀ b k, ∫ g, T j b k g ∂μ = average h (inVars c ax p (S j)) / π ^ 3 := fun b k => by
    rw [← hmean j b k]
    field_simp
  simp only [hv, Finset.sum_const, Finset.card_univ, Fintype.card_fin, Finset.card_range, nsmul_eq_mul]
  push_cast
  field_simp

end Verif.Single
