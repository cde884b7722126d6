import Verif.Convolution.PropsVariance
import Verif.Single.PropsMean

/-!
# Property theorem C153: more blocks
-/

namespace Verif.Single

open Real Matrix MeasureTheory ProbabilityTheory Filter Topology
open Verif.Crystal (Fail Vec Mat standardSystem)
open Verif.Resolution (M4 Decoupled Inst Res calcResolution hkls Query demoSetup demoSetup_valid demo_valid)
open Verif.Tools (quad SPD Arg)
open Verif.Convolution (Point Pref Points Level weight angle angle_measurable continuous_weight weight_nonneg weight_le blockMean blockMean_variance
  tendsto_of_variance twoPoints twoPoints_ok)

/-- The samples of all blocks are independent of each other. -/
def Independent {G : Type} [MeasurableSpace G] (R : Random G) (μ : Measure G) : Prop :=
  ∀ x y : ℕ × Fin 1000, x ≠ y → IndepFun (fun g a => draw R x.1 g a x.2) (fun g a => draw R y.1 g a y.2) μ

/-- What one sample contributes. -/
noncomputable def sample {n : ℕ} (c : Coeffs) (ax : Vec × Vec × Vec) (p : Point) (S : Fin n → Vec → Mode) (f : Fin n → ℝ) (r : Fin 3 → ℝ) : ℝ :=
  (∑ j, inVars c ax p (S j) (fun a => angle (r a)) * (∏ a, weight (angle (r a))) * f j) * π ^ 3 / c.detxy / c.detz

theorem sum_modes {n K : ℕ} (M : ℕ) (T : Fin n → ℕ → Fin K → ℝ) (f : Fin n → ℝ) (x y w : ℝ) :
    (∑ j, (∑ b ∈ Finset.range M, (∑ k, T j b k) / x / y) * f j) * w = ∑ b ∈ Finset.range M, ∑ k, (∑ j, T j b k * f j) * w / x / y := by
  have e : ∀ b, ∑ k, (∑ j, T j b k * f j) * w / x / y = ∑ j, ((∑ k, T j b k) / x / y) * f j * w := fun b => by
    simp only [Finset.sum_mul, Finset.sum_div]
    rw [Finset.sum_comm]
    exact Finset.sum_congr rfl fun j _ => Finset.sum_congr rfl fun k _ => by ring
  simp only [e]
  rw [Finset.sum_comm, Finset.sum_mul]
  refine Finset.sum_congr rfl fun j _ => ?_
  rw [Finset.sum_mul, Finset.sum_mul]

theorem mcValue_blockMean {G : Type} {n : ℕ} (R : Random G) (c : Coeffs) (ax : Vec × Vec × Vec) (p : Point) (S : Fin n → Vec → Mode) (f : Fin n → ℝ)
    (b0 M : ℕ) (g : G) :
    mcValue R c ax p S f M (stateAfter R b0 g) = blockMean (fun x g (a : Fin 3) => draw R x.1 g a x.2) (sample c ax p S f) b0 M g := by
  unfold mcValue blockMean sample
  simp only [blockSum_eq, draw_add]
  rw [← sum_modes M (fun j b k => inVars c ax p (S j) (fun a => angle (draw R (b + b0) g a k)) * ∏ a, weight (angle (draw R (b + b0) g a k)))]
  ring

theorem sample_bound {n : ℕ} {c : Coeffs} (hg : 0 < c.gamma) (ax : Vec × Vec × Vec) (p : Point) {S : Fin n → Vec → Mode} {C : Fin n → ℝ}
    (hS : ∀ j, Line (S j) (C j)) (f : Fin n → ℝ) : Measurable (sample c ax p S f) ∧ ∃ B, ∀ r : Fin 3 → ℝ, |sample c ax p S f r| ≤ B := by
  constructor
  · have h : ∀ j, Measurable fun r : Fin 3 → ℝ => inVars c ax p (S j) (fun a => angle (r a)) * ∏ a, weight (angle (r a)) := fun j => by
      have hc : Measurable fun t : Fin 3 → ℝ => inVars c ax p (S j) t * ∏ a, weight (t a) :=
        (inVars_measurable (hS j) c ax p).mul (continuous_finset_prod _ fun a _ => continuous_weight.comp (continuous_apply a)).measurable
      exact hc.comp (measurable_pi_lambda _ fun a => angle_measurable.comp (measurable_pi_apply a))
    exact (((Finset.measurable_sum _ fun j _ => (h j).mul_const _).mul_const _).div_const _).div_const _
  · have hC : ∀ j t, |inVars c ax p (S j) t| ≤ 2 * C j := fun j t => by
      have h0 : 0 ≤ C j := (abs_nonneg _).trans ((hS j).bounded 0)
      have h1 := term_near (hS j) hg ax p (t 0) (t 1) (t 2)
      have h2 := ideal_le (hS j) hg ax p (t 0) (t 1) (t 2)
      have h3 := abs_sub_abs_le_abs_sub (term c ax p (S j) (t 0) (t 1) (t 2)) (ideal c ax p (S j) (t 0) (t 1) (t 2))
      unfold inVars
      norm_num at h1
      linarith
    refine ⟨(∑ j, 2 * C j * 2 ^ 3 * |f j|) * π ^ 3 / |c.detxy| / |c.detz|, fun r => ?_⟩
    have hp : 0 < π ^ 3 := by have := pi_pos; positivity
    unfold sample
    rw [abs_div, abs_div, abs_mul, abs_of_pos hp]
    refine div_le_div_of_nonneg_right (div_le_div_of_nonneg_right (mul_le_mul_of_nonneg_right
      ((Finset.abs_sum_le_sum_abs _ _).trans (Finset.sum_le_sum fun j _ => ?_)) hp.le) (abs_nonneg _)) (abs_nonneg _)
    rw [abs_mul, abs_mul, Finset.abs_prod]
    refine mul_le_mul_of_nonneg_right (mul_le_mul (hC j _) ?_ (Finset.prod_nonneg fun a _ => abs_nonneg _) ((abs_nonneg _).trans (hC j 0))) (abs_nonneg _)
    calc ∏ a : Fin 3, |weight (angle (r a))| ≤ ∏ _a : Fin 3, (2 : ℝ) := Finset.prod_le_prod (fun a _ => abs_nonneg _) fun a _ => by
          rw [abs_of_nonneg (weight_nonneg _)]
          exact weight_le _
      _ = 2 ^ 3 := by simp

/-- C153, more blocks.  Without a seed and with independent samples, the variance of each value is inversely proportional to the
number of blocks. -/
theorem C153_variance {G : Type} [MeasurableSpace G] {n m : ℕ} {gen : Random G} {μ : Measure G} [IsProbabilityMeasure μ] {ρ : Measure ℝ}
    (hD : Draws gen μ ρ) (hI : Independent gen μ) {i : Inst} {E F : Mat} (h : Level i.setup E F) {q : Query}
    (hq : q.Len m) (hm : m ≠ 1) (hS : i.setup.settings.Valid m) (hp : Points i.setup F q) {sqw : Fin n → Vec → Mode} {C : Fin n → ℝ}
    (hw : ∀ j, Line (sqw j) (C j)) (pref : Option (Pref n)) (nargout : ℤ) {f : Pref n} (hf : prefactor pref nargout = .ok f) :
    ∃ (i' : Inst) (v : ℕ → G → Fin m → ℝ) (g' : ℕ → G → G) (K : Fin m → ℝ),
      (∀ M ≠ 0, ∀ g, convolve gen g i sqw pref nargout (.list q.H) (.list q.K) (.list q.L) (.list q.W) .mc (.number M) none =
          (i', .ok (List.ofFn (v M g), g' M g))) ∧
      ∀ M ≠ 0, ∀ k, MemLp (fun g => v M g k) 2 μ ∧ Var[fun g => v M g k; μ] = K k / (1000 * M) := by
  obtain ⟨i', ax, P, r, c, h1, h2, h3, h4, h5, h6⟩ := convolve_mc (n := n) gen h hq hm hS hp
  refine ⟨i', _, _, fun k => Var[sample (c k) ax (P k) sqw (f.factor (P k)); Measure.pi fun _ : Fin 3 => ρ] * (r k).r0 ^ 2,
    fun M hM g => h6 sqw pref nargout f hf g M hM, fun M hM k => ?_⟩
  obtain ⟨s1, s2, s3, s4⟩ := h5 k
  obtain ⟨c', hc', hx, hy, hz, hxy, hdz, hg, -⟩ := coeffs_ok s1
  rw [s4] at hc'
  obtain rfl := Except.ok.inj hc'
  obtain ⟨hφ, B, hB⟩ := sample_bound hg ax (P k) hw (f.factor (P k))
  obtain ⟨hL, hv⟩ := blockMean_variance (fun x => measurable_pi_lambda _ fun a => hD.measurable x.1 a x.2) (fun x => hD.law x.1 x.2) hI hφ hB (k * M) hM
  simp only [mcValue_blockMean]
  refine ⟨(hL.mul_const _).add (memLp_const _), ?_⟩
  rw [variance_add_const (hL.mul_const _).aestronglyMeasurable, variance_mul_const, hv]
  ring

/-- C153, more blocks: with normal random numbers each value comes to the convolution in probability, up to 1.01e-4 of the greatest
intensities times the volume of the resolution function in reciprocal space.  Missing: as in `C153_mean_partial`. -/
theorem C153_converges_partial {G : Type} [MeasurableSpace G] {n m : ℕ} {gen : Random G} {μ : Measure G} [IsProbabilityMeasure μ]
    (hD : Draws gen μ (gaussianReal 0 1)) (hI : Independent gen μ) {i : Inst} {E F : Mat} (h : Level i.setup E F) {q : Query}
    (hq : q.Len m) (hm : m ≠ 1) (hS : i.setup.settings.Valid m) (hp : Points i.setup F q) {sqw : Fin n → Vec → Mode} {C : Fin n → ℝ}
    (hw : ∀ j, Line (sqw j) (C j)) (pref : Option (Pref n)) (nargout : ℤ) {f : Pref n} (hf : prefactor pref nargout = .ok f) :
    ∃ (i' : Inst) (ax : Vec × Vec × Vec) (P : Fin m → Point) (r : Fin m → Res) (v : ℕ → G → Fin m → ℝ) (g' : ℕ → G → G),
      calcResolution i (.list q.H) (.list q.K) (.list q.L) (.list q.W) = (i', none) ∧ i'.result = some (List.ofFn r) ∧
      standardSystem i.setup.lattice i.setup.u i.setup.v = .ok ax ∧ (hkls q.H q.K q.L).zip q.W = List.ofFn P ∧
      (∀ M ≠ 0, ∀ g, convolve gen g i sqw pref nargout (.list q.H) (.list q.K) (.list q.L) (.list q.W) .mc (.number M) none =
          (i', .ok (List.ofFn (v M g), g' M g))) ∧
      ∀ k, ∀ ε > 1.01e-4 * (∑ j, |f.factor (P k) j| * C j) * ((r k).r0 * √((r k).rms 3 3 * (2 * π) ^ 3 / (r k).rms.det)),
        Tendsto (fun M => μ {g | ε ≤ |v M g k - expected ax sqw f (P k) (r k)|}) atTop (𝓝 0) := by
  obtain ⟨i', v, g', K, hv, hvar⟩ := C153_variance hD hI h hq hm hS hp hw pref nargout hf
  obtain ⟨i2, ax, P, r, _, _, h1, h2, h3, h4, h5, -⟩ := C153_mean_partial hD h hq hm hS hp hw pref nargout hf one_ne_zero
  have hne : Nonempty G := μ.nonempty_of_neZero
  obtain ⟨g0⟩ := hne
  have e := (h5 g0).symm.trans (hv 1 one_ne_zero g0)
  obtain rfl : i2 = i' := congrArg Prod.fst e
  refine ⟨i2, ax, P, r, v, g', h1, h2, h3, h4, hv, fun k ε hε => ?_⟩
  refine tendsto_of_variance (fun M hM => (hvar M hM k).1) (fun M hM => (hvar M hM k).2) (fun M hM => ?_) hε
  obtain ⟨i3, ax3, P3, r3, v3, g3, k1, k2, k3, k4, k5, k6⟩ := C153_mean_partial hD h hq hm hS hp hw pref nargout hf hM
  rw [h1] at k1
  obtain rfl : i2 = i3 := congrArg Prod.fst k1
  rw [h3] at k3
  obtain rfl : ax = ax3 := Except.ok.inj k3
  rw [h4] at k4
  obtain rfl : P = P3 := List.ofFn_injective k4
  rw [h2] at k2
  obtain rfl : r = r3 := List.ofFn_injective (Option.some.inj k2)
  have ev : ∀ g, v3 g = v M g := fun g => by
    have := (k5 g).symm.trans (hv M hM g)
    have := congrArg Prod.fst (Except.ok.inj (congrArg Prod.snd this))
    exact List.ofFn_injective this
  simpa only [ev] using (k6 k).2

/-! ## Random numbers that meet the hypotheses -/

/-- A sequence of blocks of columns. -/
abbrev Columns := ℕ × Fin 1000 → Fin 3 → ℝ

/-- The blocks of a sequence, one after the other. -/
def columns : Random Columns := ⟨fun _ _ _ => 0, fun g => (fun a k => g (0, k) a, fun x => g (x.1 + 1, x.2))⟩

theorem columns_draw (b : ℕ) (g : Columns) (k : Fin 1000) : (fun a => draw columns b g a k) = g (b, k) := by
  have e : ∀ b, stateAfter columns b g = fun x => g (x.1 + b, x.2) := fun b => by
    induction b with
    | zero => rfl
    | succ b ih =>
      unfold stateAfter at *
      rw [Function.iterate_succ_apply', ih]
      funext x
      simp only [columns]
      congr 2
      omega
  funext a
  unfold draw
  rw [e]
  simp only [columns, zero_add]

theorem columns_ok (ρ : Measure ℝ) [IsProbabilityMeasure ρ] :
    Draws columns (Measure.infinitePi fun _ : ℕ × Fin 1000 => Measure.pi fun _ : Fin 3 => ρ) ρ ∧
    Independent columns (Measure.infinitePi fun _ : ℕ × Fin 1000 => Measure.pi fun _ : Fin 3 => ρ) := by
  have hd : ∀ b k, (fun (g : Columns) a => draw columns b g a k) = fun g => g (b, k) := fun b k => funext fun g => columns_draw b g k
  refine ⟨⟨fun b a k => ?_, fun b k => ?_⟩, fun x y hxy => ?_⟩
  · have e : (fun g => draw columns b g a k) = fun g : Columns => g (b, k) a := by
      funext g
      exact congrFun (columns_draw b g k) a
    rw [e]
    fun_prop
  · rw [hd]
    exact (measurePreserving_eval_infinitePi (fun _ : ℕ × Fin 1000 => Measure.pi fun _ : Fin 3 => ρ) (b, k)).map_eq
  · rw [hd, hd]
    have := iIndepFun_infinitePi (P := fun _ : ℕ × Fin 1000 => Measure.pi fun _ : Fin 3 => ρ) (X := fun _ (t : Fin 3 → ℝ) => t) fun _ => measurable_id
    exact this.indepFun hxy

/-- Independent normal numbers, an instrument, two points and a mode. -/
example : ∃ (μ : Measure Columns), IsProbabilityMeasure μ ∧ Draws columns μ (gaussianReal 0 1) ∧ Independent columns μ ∧
    Level demoSetup ((2 * π) • 1) 1 ∧ twoPoints.Len 2 ∧ demoSetup.settings.Valid 2 ∧ Points demoSetup 1 twoPoints ∧ Line wave 1 ∧
    prefactor (n := 1) (some ⟨fun _ _ => 2, fun _ => 1⟩) 2 = .ok ⟨fun _ _ => 2, fun _ => 1⟩ :=
  ⟨_, inferInstance, (columns_ok _).1, (columns_ok _).2, (.of demoSetup_valid), ⟨rfl, rfl, rfl, rfl⟩, demo_valid 2, twoPoints_ok, wave_line, rfl⟩

end Verif.Single
