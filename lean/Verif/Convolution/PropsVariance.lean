import Mathlib.Probability.Independence.InfinitePi
import Verif.Convolution.Variance

/-!
# Property theorem C148: more blocks
-/

namespace Verif.Convolution

open Real Matrix MeasureTheory ProbabilityTheory Filter Topology
open Verif.Crystal (Fail Vec Mat standardSystem)
open Verif.Resolution (M4 Decoupled Inst Res calcResolution hkls Query demoSetup demoSetup_valid demo_valid)
open Verif.Tools (quad SPD Arg)

/-- The samples of all blocks are independent of each other. -/
def Independent {G : Type} [MeasurableSpace G] (R : Random G) (μ : Measure G) : Prop :=
  ∀ x y : ℕ × Fin 1000, x ≠ y → IndepFun (fun g a => draw R x.1 g a x.2) (fun g a => draw R y.1 g a y.2) μ

theorem mcValue_blockMean {G : Type} {n : ℕ} (R : Random G) (c : Coeffs) (ax : Vec × Vec × Vec) (p : Point) (S : Fin n → Point → ℝ) (f : Fin n → ℝ)
    (b0 M : ℕ) (g : G) :
    mcValue R c ax p S f M (stateAfter R b0 g) = blockMean (fun x g (a : Fin 4) => draw R x.1 g a x.2)
      (fun r => (∑ j, inVars c ax p (S j) (fun a => angle (r a)) * (∏ a, weight (angle (r a))) * f j) * π ^ 4 / √c.detM) b0 M g := by
  unfold mcValue blockMean
  simp only [blockSum_eq, draw_add]
  simp only [mul_div_assoc, ← Finset.sum_mul]
  have e : ∀ j, (∑ b ∈ Finset.range M, ∑ k, inVars c ax p (S j) (fun a => angle (draw R (b + b0) g a k)) * ∏ a, weight (angle (draw R (b + b0) g a k))) * f j =
      ∑ b ∈ Finset.range M, ∑ k, inVars c ax p (S j) (fun a => angle (draw R (b + b0) g a k)) * (∏ a, weight (angle (draw R (b + b0) g a k))) * f j := fun j => by
    simp only [Finset.sum_mul]
  simp only [e]
  rw [Finset.sum_comm]
  simp only [Finset.sum_comm (s := Finset.univ (α := Fin n))]
  ring

theorem sample_bound {n : ℕ} (c : Coeffs) (ax : Vec × Vec × Vec) (p : Point) {S : Fin n → Point → ℝ} (hS : ∀ j, Smooth (S j)) (f : Fin n → ℝ) (w : ℝ) :
    Measurable (fun r : Fin 4 → ℝ => (∑ j, inVars c ax p (S j) (fun a => angle (r a)) * (∏ a, weight (angle (r a))) * f j) * π ^ 4 / w) ∧
      ∃ C, ∀ r : Fin 4 → ℝ, |(∑ j, inVars c ax p (S j) (fun a => angle (r a)) * (∏ a, weight (angle (r a))) * f j) * π ^ 4 / w| ≤ C := by
  constructor
  · have h : ∀ j, Measurable fun r : Fin 4 → ℝ => inVars c ax p (S j) (fun a => angle (r a)) * ∏ a, weight (angle (r a)) := fun j => by
      have hc : Continuous fun t : Fin 4 → ℝ => inVars c ax p (S j) t * ∏ a, weight (t a) :=
        (inVars_continuous c ax p (hS j)).mul (continuous_finset_prod _ fun a _ => continuous_weight.comp (continuous_apply a))
      exact hc.measurable.comp (measurable_pi_lambda _ fun a => angle_measurable.comp (measurable_pi_apply a))
    exact ((Finset.measurable_sum _ fun j _ => (h j).mul_const _).mul_const _).div_const _
  · choose C hC using fun j => (hS j).bounded
    refine ⟨(∑ j, C j * 2 ^ 4 * |f j|) * π ^ 4 / |w|, fun r => ?_⟩
    have hp : 0 < π ^ 4 := by have := pi_pos; positivity
    rw [abs_div, abs_mul, abs_of_pos hp]
    refine div_le_div_of_nonneg_right (mul_le_mul_of_nonneg_right ((Finset.abs_sum_le_sum_abs _ _).trans (Finset.sum_le_sum fun j _ => ?_)) hp.le) (abs_nonneg _)
    rw [abs_mul, abs_mul, Finset.abs_prod]
    refine mul_le_mul_of_nonneg_right (mul_le_mul (hC j _) ?_ (Finset.prod_nonneg fun a _ => abs_nonneg _) ((abs_nonneg _).trans (hC j p))) (abs_nonneg _)
    calc ∏ a : Fin 4, |weight (angle (r a))| ≤ ∏ _a : Fin 4, (2 : ℝ) := Finset.prod_le_prod (fun a _ => abs_nonneg _) fun a _ => by
          rw [abs_of_nonneg (weight_nonneg _)]
          exact weight_le _
      _ = 2 ^ 4 := by simp

/-- C148, more blocks.  Without a seed and with independent samples, the variance of each value is inversely proportional to the
number of blocks. -/
theorem C148_variance {G : Type} [MeasurableSpace G] {n m : ℕ} {gen : Random G} {μ : Measure G} [IsProbabilityMeasure μ] {ρ : Measure ℝ}
    (hD : Draws gen μ ρ) (hI : Independent gen μ) {i : Inst} {E F : Mat} (h : Level i.setup E F) {q : Query}
    (hq : q.Len m) (hm : m ≠ 1) (hS : i.setup.settings.Valid m) (hp : Points i.setup F q) {sqw : Fin n → Point → ℝ} (hw : ∀ j, Smooth (sqw j))
    (pref : Option (Pref n)) (nargout : ℤ) {f : Pref n} (hf : prefactor pref nargout = .ok f) :
    ∃ (i' : Inst) (v : ℕ → G → Fin m → ℝ) (g' : ℕ → G → G) (K : Fin m → ℝ),
      (∀ M ≠ 0, ∀ g, convolve gen g i sqw pref nargout (.list q.H) (.list q.K) (.list q.L) (.list q.W) .mc (.number M) none =
          (i', .ok (List.ofFn (v M g), g' M g))) ∧
      ∀ M ≠ 0, ∀ k, MemLp (fun g => v M g k) 2 μ ∧ Var[fun g => v M g k; μ] = K k / (1000 * M) := by
  obtain ⟨i', ax, P, r, c, h1, h2, h3, -, h4, h5, h6⟩ := convolve_mc (n := n) gen h hq hm hS hp
  refine ⟨i', _, _, fun k => Var[fun t => (∑ j, inVars (c k) ax (P k) (sqw j) (fun a => angle (t a)) * (∏ a, weight (angle (t a))) * f.factor (P k) j) * π ^ 4 /
    √(c k).detM; Measure.pi fun _ : Fin 4 => ρ] * (r k).r0 ^ 2, fun M hM g => h6 sqw pref nargout f hf g M hM, fun M hM k => ?_⟩
  obtain ⟨hφ, C, hC⟩ := sample_bound (c k) ax (P k) hw (f.factor (P k)) √(c k).detM
  obtain ⟨hL, hv⟩ := blockMean_variance (fun x => measurable_pi_lambda _ fun a => hD.measurable x.1 a x.2) (fun x => hD.law x.1 x.2) hI hφ hC (k * M) hM
  simp only [mcValue_blockMean]
  refine ⟨(hL.mul_const _).add (memLp_const _), ?_⟩
  rw [variance_add_const (hL.mul_const _).aestronglyMeasurable, variance_mul_const, hv]
  ring

/-- C148, more blocks: with normal random numbers each value comes to the convolution in probability, within 1e-7 of the
convolution of the absolute values.  Missing: as in `C148_mean_partial`. -/
theorem C148_converges_partial {G : Type} [MeasurableSpace G] {n m : ℕ} {gen : Random G} {μ : Measure G} [IsProbabilityMeasure μ]
    (hD : Draws gen μ (gaussianReal 0 1)) (hI : Independent gen μ) {i : Inst} {E F : Mat} (h : Level i.setup E F) {q : Query}
    (hq : q.Len m) (hm : m ≠ 1) (hS : i.setup.settings.Valid m) (hp : Points i.setup F q) {sqw : Fin n → Point → ℝ} (hw : ∀ j, Smooth (sqw j))
    (pref : Option (Pref n)) (nargout : ℤ) {f : Pref n} (hf : prefactor pref nargout = .ok f) :
    ∃ (i' : Inst) (ax : Vec × Vec × Vec) (P : Fin m → Point) (r : Fin m → Res) (v : ℕ → G → Fin m → ℝ) (g' : ℕ → G → G),
      calcResolution i (.list q.H) (.list q.K) (.list q.L) (.list q.W) = (i', none) ∧ i'.result = some (List.ofFn r) ∧
      standardSystem i.setup.lattice i.setup.u i.setup.v = .ok ax ∧ (hkls q.H q.K q.L).zip q.W = List.ofFn P ∧
      (∀ M ≠ 0, ∀ g, convolve gen g i sqw pref nargout (.list q.H) (.list q.K) (.list q.L) (.list q.W) .mc (.number M) none =
          (i', .ok (List.ofFn (v M g), g' M g))) ∧
      ∀ k, ∀ ε > 1e-7 * ∑ j, |f.factor (P k) j| * ∫ d : Fin 4 → ℝ, |sqw j (displaced ax (P k) d)| * ((r k).r0 * exp (-(1 / 2) * quad (r k).rms d)),
        Tendsto (fun M => μ {g | ε ≤ |v M g k - expected ax sqw f (P k) (r k)|}) atTop (𝓝 0) := by
  obtain ⟨i', v, g', K, hv, hvar⟩ := C148_variance hD hI h hq hm hS hp hw pref nargout hf
  obtain ⟨i2, ax, P, r, _, _, h1, h2, h3, h4, h5, -⟩ := C148_mean_partial hD h hq hm hS hp hw pref nargout hf one_ne_zero
  have hne : Nonempty G := μ.nonempty_of_neZero
  obtain ⟨g0⟩ := hne
  have e := (h5 g0).symm.trans (hv 1 one_ne_zero g0)
  obtain rfl : i2 = i' := congrArg Prod.fst e
  refine ⟨i2, ax, P, r, v, g', h1, h2, h3, h4, hv, fun k ε hε => ?_⟩
  refine tendsto_of_variance (fun M hM => (hvar M hM k).1) (fun M hM => (hvar M hM k).2) (fun M hM => ?_) hε
  obtain ⟨i3, ax3, P3, r3, v3, g3, k1, k2, k3, k4, k5, k6⟩ := C148_mean_partial hD h hq hm hS hp hw pref nargout hf hM
  rw [h1] at k1
  obtain rfl : i2 = i3 := congrArg Prod.fst k1
  rw [h3] at k3
  obtain rfl : ax = ax3 := Except.ok.inj k3
  rw [h4] at k4
  obtain rfl : P = P3 := List.ofFn_injective k4
  rw [h2] at k2
  obtain rfl : r = r3 := List.ofFn_injective (Option.some.inj k2)
  have ev : ∀ g, v3 g = v M g := fun g => by
    have := (k5 g).symm.trans (hv M hM g)
    have := congrArg Prod.fst (Except.ok.inj (congrArg Prod.snd this))
    exact List.ofFn_injective this
  simpa only [ev] using (k6 k).2

/-! ## Random numbers that meet the hypotheses -/

/-- A sequence of blocks of columns. -/
abbrev Columns := ℕ × Fin 1000 → Fin 4 → ℝ

/-- The blocks of a sequence, one after the other. -/
def columns : Random Columns := ⟨fun _ _ _ => 0, fun g => (fun a k => g (0, k) a, fun x => g (x.1 + 1, x.2))⟩

theorem columns_draw (b : ℕ) (g : Columns) (k : Fin 1000) : (fun a => draw columns b g a k) = g (b, k) := by
  have e : ∀ b, stateAfter columns b g = fun x => g (x.1 + b, x.2) := fun b => by
    induction b with
    | zero => rfl
    | succ b ih =>
      unfold stateAfter at *
      rw [Function.iterate_succ_apply', ih]
      funext x
      simp only [columns]
      congr 2
      omega
  funext a
  unfold draw
  rw [e]
  simp only [columns, zero_add]

theorem columns_ok (ρ : Measure ℝ) [IsProbabilityMeasure ρ] :
    Draws columns (Measure.infinitePi fun _ : ℕ × Fin 1000 => Measure.pi fun _ : Fin 4 => ρ) ρ ∧
    Independent columns (Measure.infinitePi fun _ : ℕ × Fin 1000 => Measure.pi fun _ : Fin 4 => ρ) := by
  have hd : ∀ b k, (fun (g : Columns) a => draw columns b g a k) = fun g => g (b, k) := fun b k => funext fun g => columns_draw b g k
  refine ⟨⟨fun b a k => ?_, fun b k => ?_⟩, fun x y hxy => ?_⟩
  · have e : (fun g => draw columns b g a k) = fun g : Columns => g (b, k) a := by
      funext g
      exact congrFun (columns_draw b g k) a
    rw [e]
    fun_prop
  · rw [hd]
    exact (measurePreserving_eval_infinitePi (fun _ : ℕ × Fin 1000 => Measure.pi fun _ : Fin 4 => ρ) (b, k)).map_eq
  · rw [hd, hd]
    have := iIndepFun_infinitePi (P := fun _ : ℕ × Fin 1000 => Measure.pi fun _ : Fin 4 => ρ) (X := fun _ (t : Fin 4 → ℝ) => t) fun _ => measurable_id
    exact this.indepFun hxy

/-- Independent normal numbers, an instrument, two points and a cross section. -/
example : ∃ (μ : Measure Columns), IsProbabilityMeasure μ ∧ Draws columns μ (gaussianReal 0 1) ∧ Independent columns μ ∧
    Level demoSetup ((2 * π) • 1) 1 ∧ twoPoints.Len 2 ∧ demoSetup.settings.Valid 2 ∧ Points demoSetup 1 twoPoints ∧ Smooth (fun p => cos p.2) :=
  ⟨_, inferInstance, (columns_ok _).1, (columns_ok _).2, (.of demoSetup_valid), ⟨rfl, rfl, rfl, rfl⟩, demo_valid 2, twoPoints_ok,
    ⟨by fun_prop, 1, fun p => abs_cos_le_one _⟩⟩

end Verif.Convolution
