import Mathlib.Probability.ProductMeasure
import Verif.Convolution.Mean

/-!
# Property theorem C148, second part: the mean of the Monte Carlo method
-/

namespace Verif.Convolution

open Real Matrix MeasureTheory Filter Topology
open Verif.Crystal (Fail Vec Mat standardSystem vecOf vecOf_sub vecOf_smul)
open Verif.Resolution (M4 Decoupled Inst Res calcResolution hkls Query Frame demoSetup demoSetup_valid demo_valid)
open Verif.Tools (quad SPD Arg cleanArgs)

/-- The method `'mc'` without a seed at points that the instrument can reach. -/
theorem convolve_mc {G : Type} {n m : ℕ} (gen : Random G) {i : Inst} {E F : Mat} (h : Level i.setup E F) {q : Query}
    (hq : q.Len m) (hm : m ≠ 1) (hS : i.setup.settings.Valid m) (hp : Points i.setup F q) :
    ∃ (i' : Inst) (ax : Vec × Vec × Vec) (P : Fin m → Point) (r : Fin m → Res) (c : Fin m → Coeffs),
      calcResolution i (.list q.H) (.list q.K) (.list q.L) (.list q.W) = (i', none) ∧ i'.result = some (List.ofFn r) ∧
      standardSystem i.setup.lattice i.setup.u i.setup.v = .ok ax ∧ Frame (vecOf F ax.1) (vecOf F ax.2.1) (vecOf F ax.2.2) ∧
      (hkls q.H q.K q.L).zip q.W = List.ofFn P ∧
      (∀ k, SPD (r k).rms ∧ Decoupled (r k).rms ∧ 0 < (r k).r0 ∧ coeffs (r k).rms = .ok (c k)) ∧
      ∀ (sqw : Fin n → Point → ℝ) (pref : Option (Pref n)) (nargout : ℤ) (f : Pref n), prefactor pref nargout = .ok f → ∀ (g : G) (M : ℕ), M ≠ 0 →
        convolve gen g i sqw pref nargout (.list q.H) (.list q.K) (.list q.L) (.list q.W) .mc (.number M) none =
          (i', .ok (List.ofFn fun k => mcValue gen (c k) ax (P k) sqw (f.factor (P k)) M (stateAfter gen (k * M) g) * (r k).r0 + f.background (P k),
            stateAfter gen (m * M) g)) := by
  obtain ⟨i', rs, hc, hset, hres, hlen, hgood⟩ := calc_points h hq hS hp
  obtain ⟨x, y, z, hax, hfr, -⟩ := h.axes
  obtain ⟨cs, hcs, hall⟩ := coeffs_all fun r hr => (hgood r hr).1
  have hlc : cs.length = m := by rw [← hall.length_eq, hlen]
  obtain ⟨ps, hps⟩ : ∃ ps, ps = (hkls q.H q.K q.L).zip q.W := ⟨_, rfl⟩
  have hlp : ps.length = m := by
    rw [hps, List.length_zip, Verif.Resolution.hkls_length hq.H hq.K hq.L, hq.W, min_self]
  have e1 : ps = List.ofFn fun k : Fin m => ps[(k : ℕ)] := by
    refine List.ext_getElem (by simp [hlp]) fun k h1 h2 => by simp
  have e2 : rs = List.ofFn fun k : Fin m => rs[(k : ℕ)] := by
    refine List.ext_getElem (by simp [hlen]) fun k h1 h2 => by simp
  have good : ∀ k : Fin m, SPD (rs[(k : ℕ)]).rms ∧ Decoupled (rs[(k : ℕ)]).rms ∧ 0 < (rs[(k : ℕ)]).r0 ∧ coeffs (rs[(k : ℕ)]).rms = .ok cs[(k : ℕ)] := fun k => by
    obtain ⟨s1, s2, s3⟩ := hgood rs[(k : ℕ)] (List.getElem_mem _)
    exact ⟨s1, s2, s3, List.forall₂_iff_get.1 hall |>.2 k _ _⟩
  refine ⟨i', (x, y, z), fun k => ps[(k : ℕ)], fun k => rs[(k : ℕ)], fun k => cs[(k : ℕ)], hc, by rw [hres]; exact congrArg some e2, hax, hfr,
    by rw [← hps]; exact e1, good, fun sqw pref nargout f hf g M hM => ?_⟩
  unfold convolve
  rw [hc, Verif.Resolution.clean_query hq]
  dsimp only
  rw [hset.1, hset.2.1, hset.2.2, hax, hres]
  simp only [lift, ok_bind, Option.getD_some]
  unfold convolveAt
  rw [if_neg (show ¬ rs.length = 1 by rw [hlen]; exact hm), hcs, hf, ← hps]
  simp only [lift, ok_bind, blockNumber]
  have e3 : ps.zip (rs.zip cs) = List.ofFn fun k : Fin m => (ps[(k : ℕ)], rs[(k : ℕ)], cs[(k : ℕ)]) := by
    refine List.ext_getElem (by simp [hlp, hlen, hlc]) fun k h1 h2 => by simp
  rw [e3, mcAll_ok gen _ sqw f hM]
  intro k
  obtain ⟨s1, -, -, s4⟩ := good k
  obtain ⟨c, hc, -, -, -, -, -, d0, -⟩ := coeffs_ok s1
  rw [s4] at hc
  obtain rfl := Except.ok.inj hc
  exact d0

theorem detM_pos {R : M4} (h : SPD R) {c : Coeffs} (hc : coeffs R = .ok c) : 0 < c.detM := by
  obtain ⟨c', hc', -, -, -, -, -, d0, -⟩ := coeffs_ok h
  rw [hc] at hc'
  obtain rfl := Except.ok.inj hc'
  exact d0

theorem expected_average {n : ℕ} {r : Res} (h : SPD r.rms) (hd : Decoupled r.rms) {c : Coeffs} (hc : coeffs r.rms = .ok c) (ax : Vec × Vec × Vec) (p : Point)
    {sqw : Fin n → Point → ℝ} (hS : ∀ j, Smooth (sqw j)) (f : Pref n) :
    expected ax sqw f p r = (∑ j, average c ax p (sqw j) (fun _ => 1) * f.factor p j) * r.r0 + f.background p := by
  rw [expected_eq]
  congr 2
  refine Finset.sum_congr rfl fun j _ => ?_
  rw [average_one h hc ax p (hS j), cut_of_decoupled hd]

theorem product_near {h : ℝ → ℝ} (hh : ∀ t, |h t - 1| ≤ 2e-8) (t : Fin 4 → ℝ) : |(∏ a, h (t a)) - 1| ≤ 1e-7 := by
  rw [Fin.prod_univ_four]
  have b : ∀ x y e : ℝ, |x - 1| ≤ e → |y - 1| ≤ 2e-8 → e ≤ 1 → |x * y - 1| ≤ e + 2.5e-8 + 2e-8 * e - 0.5e-8 := fun x y e hx hy he => by
    have : x * y - 1 = (x - 1) * (y - 1) + (x - 1) + (y - 1) := by ring
    rw [this]
    have h1 := abs_mul (x - 1) (y - 1)
    have h2 : |x - 1| * |y - 1| ≤ e * 2e-8 := mul_le_mul hx hy (abs_nonneg _) ((abs_nonneg _).trans hx)
    have h3 := abs_add_three ((x - 1) * (y - 1)) (x - 1) (y - 1)
    rw [h1] at h3
    linarith
  have h1 := b _ _ _ (hh (t 0)) (hh (t 1)) (by norm_num)
  have h2 := b _ _ _ h1 (hh (t 2)) (by norm_num)
  have h3 := b _ _ _ h2 (hh (t 3)) (by norm_num)
  refine h3.trans ?_
  norm_num

/-- C148, the mean.  Without a seed, for every valid instrument and points in the plane that it can reach, every number of
blocks, bounded and continuous cross sections, prefactors and backgrounds, and normal random numbers (the four numbers of a
sample independent): the method `'mc'` succeeds, and the mean of each value over the random numbers is the convolution, within
1e-7 of the convolution of the absolute values.  Missing: the mean is not the convolution itself (`C148_normal_false`), and
with a seed the number of blocks has no effect (`C148_seed`); single points and other samples as in C145. -/
theorem C148_mean_partial {G : Type} [MeasurableSpace G] {n m : ℕ} {gen : Random G} {μ : Measure G} [IsProbabilityMeasure μ]
    (hD : Draws gen μ (ProbabilityTheory.gaussianReal 0 1)) {i : Inst} {E F : Mat} (h : Level i.setup E F) {q : Query}
    (hq : q.Len m) (hm : m ≠ 1) (hS : i.setup.settings.Valid m) (hp : Points i.setup F q) {sqw : Fin n → Point → ℝ} (hw : ∀ j, Smooth (sqw j))
    (pref : Option (Pref n)) (nargout : ℤ) {f : Pref n} (hf : prefactor pref nargout = .ok f) {M : ℕ} (hM : M ≠ 0) :
    ∃ (i' : Inst) (ax : Vec × Vec × Vec) (P : Fin m → Point) (r : Fin m → Res) (v : G → Fin m → ℝ) (g' : G → G),
      calcResolution i (.list q.H) (.list q.K) (.list q.L) (.list q.W) = (i', none) ∧ i'.result = some (List.ofFn r) ∧
      standardSystem i.setup.lattice i.setup.u i.setup.v = .ok ax ∧ (hkls q.H q.K q.L).zip q.W = List.ofFn P ∧
      (∀ g, convolve gen g i sqw pref nargout (.list q.H) (.list q.K) (.list q.L) (.list q.W) .mc (.number M) none =
          (i', .ok (List.ofFn (v g), g' g))) ∧
      ∀ k, Integrable (fun g => v g k) μ ∧ |∫ g, v g k ∂μ - expected ax sqw f (P k) (r k)| ≤
        1e-7 * ∑ j, |f.factor (P k) j| * ∫ d : Fin 4 → ℝ, |sqw j (displaced ax (P k) d)| * ((r k).r0 * exp (-(1 / 2) * quad (r k).rms d)) := by
  obtain ⟨i', ax, P, r, c, h1, h2, h3, -, h4, h5, h6⟩ := convolve_mc (n := n) gen h hq hm hS hp
  refine ⟨i', ax, P, r, _, _, h1, h2, h3, h4, fun g => h6 sqw pref nargout f hf g M hM, fun k => ?_⟩
  obtain ⟨s1, s2, s3, s4⟩ := h5 k
  have d0 := detM_pos s1 s4
  obtain ⟨hi, hmean⟩ := mcValue_mean hD normal_density (c k) ax (P k) hw (f.factor (P k)) hM (k * M)
  refine ⟨(hi.mul_const _).add (integrable_const _), ?_⟩
  rw [integral_add (hi.mul_const _) (integrable_const _), integral_mul_const, hmean, integral_const, probReal_univ, one_smul,
    expected_average s1 s2 s4 ax (P k) hw f]
  have e : (∑ j, average (c k) ax (P k) (sqw j) (fun t => theta (turn t)) * f.factor (P k) j) * (r k).r0 + f.background (P k) -
      ((∑ j, average (c k) ax (P k) (sqw j) (fun _ => 1) * f.factor (P k) j) * (r k).r0 + f.background (P k)) =
      ∑ j, (average (c k) ax (P k) (sqw j) (fun t => theta (turn t)) - average (c k) ax (P k) (sqw j) (fun _ => 1)) * (f.factor (P k) j * (r k).r0) := by
    rw [add_sub_add_right_eq_sub, ← sub_mul, ← Finset.sum_sub_distrib, Finset.sum_mul]
    exact Finset.sum_congr rfl fun j _ => by ring
  rw [e]
  refine (Finset.abs_sum_le_sum_abs _ _).trans ?_
  rw [Finset.mul_sum]
  refine Finset.sum_le_sum fun j _ => ?_
  have habs : Smooth fun q => |sqw j q| := ⟨(hw j).cont.abs, by
    obtain ⟨C, hC⟩ := (hw j).bounded
    exact ⟨C, fun q => by rw [abs_abs]; exact hC q⟩⟩
  have hn := average_near d0 ax (P k) (hw j) normal_density.continuous (product_near fun t => theta_near (turn t))
  rw [average_one s1 s4 ax (P k) habs, cut_of_decoupled s2] at hn
  have e2 : ∫ d : Fin 4 → ℝ, |sqw j (displaced ax (P k) d)| * ((r k).r0 * exp (-(1 / 2) * quad (r k).rms d)) =
      (r k).r0 * smeared ax (r k).rms (fun q => |sqw j q|) (P k) := by
    unfold smeared
    rw [← integral_const_mul]
    refine integral_congr_ae (Eventually.of_forall fun d => ?_)
    dsimp only
    ring
  rw [e2, abs_mul, abs_mul, abs_of_pos s3]
  calc _ ≤ 1e-7 * smeared ax (r k).rms (fun q => |sqw j q|) (P k) * (|f.factor (P k) j| * (r k).r0) :=
        mul_le_mul_of_nonneg_right hn (by positivity)
    _ = _ := by ring

/-- C148, what the method is meant to do: if the random numbers were uniform between zero and one, as its transformation of the
variables assumes, the mean would be the convolution. -/
theorem C148_uniform {G : Type} [MeasurableSpace G] {n m : ℕ} {gen : Random G} {μ : Measure G} [IsProbabilityMeasure μ]
    (hD : Draws gen μ (volume.restrict (Set.Ioc (0 : ℝ) 1))) {i : Inst} {E F : Mat} (h : Level i.setup E F) {q : Query}
    (hq : q.Len m) (hm : m ≠ 1) (hS : i.setup.settings.Valid m) (hp : Points i.setup F q) {sqw : Fin n → Point → ℝ} (hw : ∀ j, Smooth (sqw j))
    (pref : Option (Pref n)) (nargout : ℤ) {f : Pref n} (hf : prefactor pref nargout = .ok f) {M : ℕ} (hM : M ≠ 0) :
    ∃ (i' : Inst) (ax : Vec × Vec × Vec) (P : Fin m → Point) (r : Fin m → Res) (v : G → Fin m → ℝ) (g' : G → G),
      calcResolution i (.list q.H) (.list q.K) (.list q.L) (.list q.W) = (i', none) ∧ i'.result = some (List.ofFn r) ∧
      standardSystem i.setup.lattice i.setup.u i.setup.v = .ok ax ∧ (hkls q.H q.K q.L).zip q.W = List.ofFn P ∧
      (∀ g, convolve gen g i sqw pref nargout (.list q.H) (.list q.K) (.list q.L) (.list q.W) .mc (.number M) none =
          (i', .ok (List.ofFn (v g), g' g))) ∧
      ∀ k, Integrable (fun g => v g k) μ ∧ ∫ g, v g k ∂μ = expected ax sqw f (P k) (r k) := by
  have : IsProbabilityMeasure (volume.restrict (Set.Ioc (0 : ℝ) 1)) := ⟨by simp⟩
  obtain ⟨i', ax, P, r, c, h1, h2, h3, -, h4, h5, h6⟩ := convolve_mc (n := n) gen h hq hm hS hp
  refine ⟨i', ax, P, r, _, _, h1, h2, h3, h4, fun g => h6 sqw pref nargout f hf g M hM, fun k => ?_⟩
  obtain ⟨s1, s2, s3, s4⟩ := h5 k
  obtain ⟨hi, hmean⟩ := mcValue_mean hD uniform_density (c k) ax (P k) hw (f.factor (P k)) hM (k * M)
  refine ⟨(hi.mul_const _).add (integrable_const _), ?_⟩
  rw [integral_add (hi.mul_const _) (integrable_const _), integral_mul_const, hmean, integral_const, probReal_univ, one_smul,
    expected_average s1 s2 s4 ax (P k) hw f]

/-! ## The mean is not the convolution -/

/-- The variables from a point. -/
noncomputable def unsampled (c : Coeffs) (F : Mat) (ax : Vec × Vec × Vec) (p q : Point) : Fin 4 → ℝ :=
  let V := vecOf F (q.1 - p.1)
  let tx := (vecOf F ax.1 ⬝ᵥ V) / c.tqx
  let ty := (vecOf F ax.2.1 ⬝ᵥ V - c.tqyx * tx) / c.tqyy
  ![tx, ty, (vecOf F ax.2.2 ⬝ᵥ V) / c.tqz, (q.2 - p.2 - c.tqwx * tx - c.tqwy * ty) / c.tqww]

theorem vecOf_add' (F : Mat) (p q : Vec) : vecOf F (p + q) = vecOf F p + vecOf F q := by
  simp only [vecOf, Pi.add_apply, add_smul]
  abel

theorem unsampled_sampled {c : Coeffs} (hx : 0 < c.tqx) (hy : 0 < c.tqyy) (hz : 0 < c.tqz) (hw : 0 < c.tqww) {F : Mat} {ax : Vec × Vec × Vec}
    (hF : Frame (vecOf F ax.1) (vecOf F ax.2.1) (vecOf F ax.2.2)) (p : Point) (t : Fin 4 → ℝ) :
    unsampled c F ax p (sampled c ax p (t 0) (t 1) (t 2) (t 3)) = t := by
  have e : (sampled c ax p (t 0) (t 1) (t 2) (t 3)).1 - p.1 =
      (c.tqx * t 0) • ax.1 + (c.tqyy * t 1 + c.tqyx * t 0) • ax.2.1 + (c.tqz * t 2) • ax.2.2 := by
    simp only [sampled]
    abel
  have yx : vecOf F ax.2.1 ⬝ᵥ vecOf F ax.1 = 0 := by rw [dotProduct_comm]; exact hF.xy
  have zx : vecOf F ax.2.2 ⬝ᵥ vecOf F ax.1 = 0 := by rw [dotProduct_comm]; exact hF.xz
  have zy : vecOf F ax.2.2 ⬝ᵥ vecOf F ax.2.1 = 0 := by rw [dotProduct_comm]; exact hF.yz
  unfold unsampled
  simp only [e, vecOf_add', vecOf_smul, dotProduct_add, dotProduct_smul, hF.xx, hF.yy, hF.zz, hF.xy, hF.xz, hF.yz, yx, zx, zy, smul_eq_mul, mul_one,
    mul_zero, add_zero, zero_add]
  have h0 : c.tqx * t 0 / c.tqx = t 0 := by field_simp
  have h1 : (c.tqyy * t 1 + c.tqyx * t 0 - c.tqyx * t 0) / c.tqyy = t 1 := by field_simp; ring
  have h2 : c.tqz * t 2 / c.tqz = t 2 := by field_simp
  rw [h0, h1, h2]
  have h3 : ((sampled c ax p (t 0) (t 1) (t 2) (t 3)).2 - p.2 - c.tqwx * t 0 - c.tqwy * t 1) / c.tqww = t 3 := by
    simp only [sampled]
    field_simp
    ring
  rw [h3]
  funext a
  fin_cases a <;> rfl

theorem unsampled_continuous (c : Coeffs) (F : Mat) (ax : Vec × Vec × Vec) (p : Point) : Continuous (unsampled c F ax p) := by
  refine continuous_pi fun a => ?_
  fin_cases a <;> simp [unsampled, vecOf, dotProduct, Fin.sum_univ_three] <;> fun_prop

/-- A bump where the density of the fractional part exceeds one. -/
theorem bump : ∃ s : ℝ → ℝ, Continuous s ∧ (∀ t, 0 ≤ s t) ∧ (∀ t, s t ≤ 1) ∧
    0 < ∫ t, s t * exp (-(1 / 2) * t ^ 2) ∧
    ∫ t, s t * exp (-(1 / 2) * t ^ 2) < ∫ t, theta (turn t) * (s t * exp (-(1 / 2) * t ^ 2)) := by
  have hc := theta_continuous
  obtain ⟨η, hη, hη1⟩ : ∃ η > 0, ∀ x, |x| < η → 1 < theta x := by
    have := Metric.mem_nhds_iff.1 (hc.continuousAt.eventually (lt_mem_nhds theta_zero))
    obtain ⟨η, hη, hs⟩ := this
    exact ⟨η, hη, fun x hx => hs (by simpa [Metric.mem_ball, dist_eq] using hx)⟩
  obtain ⟨x0, hx0, hx1, hx2⟩ : ∃ x0, 0 < x0 ∧ x0 < 1 ∧ x0 < η := ⟨min η 1 / 2, by positivity, by
    have := min_le_right η 1
    linarith, by
    have := min_le_left η 1
    linarith⟩
  obtain ⟨t0, -, ht0⟩ : x0 ∈ turn '' Set.univ := turn_image ▸ ⟨hx0, hx1⟩
  have hth : 1 < theta (turn t0) := by
    rw [ht0]
    exact hη1 _ (by rwa [abs_of_pos hx0])
  obtain ⟨w, hw, hw1⟩ : ∃ w > 0, ∀ t, |t - t0| < w → 1 < theta (turn t) := by
    have := Metric.mem_nhds_iff.1 ((hc.comp turn_continuous).continuousAt.eventually (lt_mem_nhds hth))
    obtain ⟨w, hw, hs⟩ := this
    exact ⟨w, hw, fun t ht => hs (by simpa [Metric.mem_ball, dist_eq] using ht)⟩
  obtain ⟨s, hs⟩ : ∃ s : ℝ → ℝ, s = fun t => max 0 (1 - |t - t0| / w) := ⟨_, rfl⟩
  have sc : Continuous s := by rw [hs]; fun_prop
  have s0 : ∀ t, 0 ≤ s t := fun t => by rw [hs]; exact le_max_left _ _
  have s1 : ∀ t, s t ≤ 1 := fun t => by
    rw [hs]
    refine max_le zero_le_one ?_
    have : 0 ≤ |t - t0| / w := by positivity
    linarith
  have st : s t0 = 1 := by rw [hs]; simp
  have sz : ∀ t, ¬ |t - t0| < w → s t = 0 := fun t ht => by
    rw [hs]
    refine max_eq_left ?_
    have : 1 ≤ |t - t0| / w := by rw [le_div_iff₀ hw]; linarith
    linarith
  have supp : HasCompactSupport s := by
    refine HasCompactSupport.intro (isCompact_closedBall t0 w) fun t ht => sz t fun h => ht ?_
    rw [Metric.mem_closedBall, dist_eq]
    exact h.le
  have fc : Continuous fun t : ℝ => s t * exp (-(1 / 2) * t ^ 2) := sc.mul (by fun_prop)
  have fs : HasCompactSupport fun t : ℝ => s t * exp (-(1 / 2) * t ^ 2) := supp.mul_right
  have tc : Continuous fun t => theta (turn t) := hc.comp turn_continuous
  refine ⟨s, sc, s0, s1, ?_, ?_⟩
  · refine fc.integral_pos_of_hasCompactSupport_nonneg_nonzero fs (fun t => ?_) (x := t0) ?_
    · have := s0 t
      positivity
    · rw [st]
      positivity
  · have ti : Integrable fun t : ℝ => theta (turn t) * (s t * exp (-(1 / 2) * t ^ 2)) := (tc.mul fc).integrable_of_hasCompactSupport fs.mul_left
    rw [← sub_pos, ← integral_sub ti (fc.integrable_of_hasCompactSupport fs)]
    have e : (fun t : ℝ => theta (turn t) * (s t * exp (-(1 / 2) * t ^ 2)) - s t * exp (-(1 / 2) * t ^ 2)) =
        fun t => (theta (turn t) - 1) * (s t * exp (-(1 / 2) * t ^ 2)) := by
      funext t
      ring
    rw [e]
    refine ((tc.sub continuous_const).mul fc).integral_pos_of_hasCompactSupport_nonneg_nonzero fs.mul_left (fun t => ?_) (x := t0) ?_
    · by_cases h : |t - t0| < w
      · have := hw1 t h
        have := s0 t
        have : 0 ≤ theta (turn t) - 1 := by linarith
        positivity
      · simp [sz t h]
    · have h1 : theta (turn t0) - 1 ≠ 0 := by linarith
      simp only [st, one_mul, ne_eq, mul_eq_zero, not_or]
      exact ⟨h1, (exp_pos _).ne'⟩

/-- C148, the mean is not the convolution: for normal random numbers, every valid instrument and every point in the plane that
it can reach, there is a continuous cross section between zero and one for which the mean of the values exceeds the convolution,
for every number of blocks. -/
theorem C148_normal_false {G : Type} [MeasurableSpace G] {m : ℕ} {gen : Random G} {μ : Measure G} [IsProbabilityMeasure μ]
    (hD : Draws gen μ (ProbabilityTheory.gaussianReal 0 1)) {i : Inst} {E F : Mat} (h : Level i.setup E F) {q : Query}
    (hq : q.Len m) (hm : m ≠ 1) (hS : i.setup.settings.Valid m) (hp : Points i.setup F q) (k : Fin m) :
    ∃ (i' : Inst) (ax : Vec × Vec × Vec) (P : Fin m → Point) (r : Fin m → Res) (S : Point → ℝ),
      calcResolution i (.list q.H) (.list q.K) (.list q.L) (.list q.W) = (i', none) ∧ i'.result = some (List.ofFn r) ∧
      standardSystem i.setup.lattice i.setup.u i.setup.v = .ok ax ∧ (hkls q.H q.K q.L).zip q.W = List.ofFn P ∧
      Continuous S ∧ (∀ p, 0 ≤ S p ∧ S p ≤ 1) ∧ ∀ M ≠ 0, ∃ (v : G → Fin m → ℝ) (g' : G → G),
        (∀ g, convolve gen g i (fun _ : Fin 1 => S) none 0 (.list q.H) (.list q.K) (.list q.L) (.list q.W) .mc (.number M) none =
          (i', .ok (List.ofFn (v g), g' g))) ∧
        expected ax (fun _ : Fin 1 => S) ⟨fun _ _ => 1, fun _ => 0⟩ (P k) (r k) < ∫ g, v g k ∂μ := by
  obtain ⟨i', ax, P, r, c, h1, h2, h3, hF, h4, h5, h6⟩ := convolve_mc (n := 1) gen h hq hm hS hp
  obtain ⟨s, sc, s0, s1, p0, p1⟩ := bump
  obtain ⟨q1, q2, q3, q4⟩ := h5 k
  have d0 := detM_pos q1 q4
  obtain ⟨c', hc', hx, hy, hz, hw, -⟩ := coeffs_ok q1
  rw [q4] at hc'
  obtain rfl := Except.ok.inj hc'
  obtain ⟨S, hSd⟩ : ∃ S : Point → ℝ, S = fun q => ∏ a, s (unsampled (c k) F ax (P k) q a) := ⟨_, rfl⟩
  have Sc : Continuous S := by
    rw [hSd]
    exact continuous_finset_prod _ fun a _ => sc.comp ((continuous_apply a).comp (unsampled_continuous _ _ _ _))
  have Sb : ∀ p, 0 ≤ S p ∧ S p ≤ 1 := fun p => by
    rw [hSd]
    exact ⟨Finset.prod_nonneg fun a _ => s0 _, Finset.prod_le_one (fun a _ => s0 _) fun a _ => s1 _⟩
  have hsm : Smooth S := ⟨Sc, 1, fun p => by rw [abs_of_nonneg (Sb p).1]; exact (Sb p).2⟩
  have av : ∀ h : ℝ → ℝ, average (c k) ax (P k) S h = (∫ t, h t * (s t * exp (-(1 / 2) * t ^ 2))) ^ 4 / √(c k).detM := fun h => by
    unfold average
    congr 1
    have e := integral_fintype_prod_volume_eq_pow (ι := Fin 4) fun t : ℝ => h t * (s t * exp (-(1 / 2) * t ^ 2))
    rw [Fintype.card_fin] at e
    rw [← e]
    refine integral_congr_ae (Eventually.of_forall fun t => ?_)
    dsimp only [inVars]
    rw [hSd]
    dsimp only
    rw [unsampled_sampled hx hy hz hw hF, Finset.mul_sum, exp_sum, ← Finset.prod_mul_distrib, ← Finset.prod_mul_distrib]
  refine ⟨i', ax, P, r, S, h1, h2, h3, h4, Sc, Sb, fun M hM => ⟨_, _, fun g => h6 (fun _ => S) none 0 _ rfl g M hM, ?_⟩⟩
  obtain ⟨hi, hmean⟩ := mcValue_mean hD normal_density (c k) ax (P k) (S := fun _ : Fin 1 => S) (fun _ => hsm) (fun _ => 1) hM (k * M)
  rw [integral_add (hi.mul_const _) (integrable_const _), integral_mul_const, hmean, integral_const, probReal_univ, one_smul,
    expected_average q1 q2 q4 ax (P k) (fun _ => hsm) ⟨fun _ _ => 1, fun _ => 0⟩]
  simp only [Finset.univ_unique, Finset.sum_const, Finset.card_singleton, one_smul, mul_one, av, one_mul, add_zero]
  refine mul_lt_mul_of_pos_right ?_ q3
  refine div_lt_div_of_pos_right ?_ (sqrt_pos.2 d0)
  exact pow_lt_pow_left₀ p1 p0.le (by norm_num)

/-! ## Random numbers that meet the hypotheses -/

/-- A sequence of blocks. -/
abbrev Tape := ℕ → Fin 4 → Fin 1000 → ℝ

/-- The blocks of a sequence, one after the other. -/
def tape : Random Tape := ⟨fun _ _ _ _ => 0, fun g => (g 0, fun b => g (b + 1))⟩

theorem tape_state (b : ℕ) (g : Tape) : stateAfter tape b g = fun k => g (k + b) := by
  induction b with
  | zero => rfl
  | succ b ih =>
    unfold stateAfter at *
    rw [Function.iterate_succ_apply', ih]
    funext k
    simp only [tape]
    congr 1
    omega

theorem tape_draws (ρ : Measure ℝ) [IsProbabilityMeasure ρ] :
    Draws tape (Measure.infinitePi fun _ : ℕ => Measure.pi fun _ : Fin 4 => Measure.pi fun _ : Fin 1000 => ρ) ρ := by
  have e : ∀ b g, draw tape b g = g b := fun b g => by
    unfold draw
    rw [tape_state]
    change g (0 + b) = g b
    rw [zero_add]
  constructor
  · intro b a k
    simp only [e]
    fun_prop
  · intro b k
    simp only [e]
    have h1 := (measurePreserving_eval_infinitePi (fun _ : ℕ => Measure.pi fun _ : Fin 4 => Measure.pi fun _ : Fin 1000 => ρ) b)
    have h2 : Measurable fun (x : Fin 4 → Fin 1000 → ℝ) (a : Fin 4) => x a k := by fun_prop
    have h3 := Measure.map_map h2 h1.measurable (μ := Measure.infinitePi fun _ : ℕ => Measure.pi fun _ : Fin 4 => Measure.pi fun _ : Fin 1000 => ρ)
    rw [h1.map_eq] at h3
    refine Eq.trans h3.symm ?_
    have h4 : (Measure.pi fun _ : Fin 1000 => ρ).map (fun y => y k) = ρ := (measurePreserving_eval (fun _ : Fin 1000 => ρ) k).map_eq
    have : IsProbabilityMeasure ((Measure.pi fun _ : Fin 1000 => ρ).map (fun y : Fin 1000 → ℝ => y k)) := by rw [h4]; infer_instance
    rw [Measure.pi_map_pi (f := fun _ (y : Fin 1000 → ℝ) => y k) fun _ => (measurable_pi_apply k).aemeasurable]
    simp only [h4]

/-- Independent normal numbers, an instrument and two points. -/
example : ∃ (μ : Measure Tape), IsProbabilityMeasure μ ∧ Draws tape μ (ProbabilityTheory.gaussianReal 0 1) ∧
    Level demoSetup ((2 * π) • 1) 1 ∧ twoPoints.Len 2 ∧ demoSetup.settings.Valid 2 ∧ Points demoSetup 1 twoPoints ∧ Smooth lorentzian :=
  ⟨_, inferInstance, tape_draws _, (.of demoSetup_valid), ⟨rfl, rfl, rfl, rfl⟩, demo_valid 2, twoPoints_ok, lorentzian_smooth⟩

end Verif.Convolution
