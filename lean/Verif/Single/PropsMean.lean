import Verif.Single.Mean

/-!
# Property theorem C153: the Monte Carlo method for single modes
-/

namespace Verif.Single

open Real Matrix MeasureTheory Filter Topology
open Verif.Crystal (Fail Vec Mat npDiv_ok standardSystem)
open Verif.Resolution (M4 Decoupled Inst Res calcResolution hkls Query demoSetup demoSetup_valid demo_valid)
open Verif.Tools (quad SPD Arg cleanArgs)
open Verif.Convolution (Point Pref lift cut_of_decoupled Points Level calc_points Accuracy blockNumber Density normal_density uniform_density theta turn theta_near
  twoPoints twoPoints_ok)

/-! ## With a seed -/

theorem blocks_seed {G : Type} {n : ℕ} (R : Random G) (s : ℕ) (c : Coeffs) (ax : Vec × Vec × Vec) (p : Point) (S : Fin n → Vec → Mode) :
    ∀ (m : ℕ) (u : Fin n → ℝ) (g : G), blocks R (some s) c ax p S (m + 1) (u, g) =
      (fun j => u j + (m + 1 : ℕ) * blockSum c ax p (S j) (R.randn (R.seed s)).1, (R.randn (R.seed s)).2)
  | 0, u, g => by simp [blocks]
  | m + 1, u, g => by
    rw [blocks]
    simp only
    rw [blocks_seed R s c ax p S m]
    congr 1
    funext j
    push_cast
    ring

theorem mcAt_seed {G : Type} {n : ℕ} (R : Random G) (s : ℕ) (c : Coeffs) (ax : Vec × Vec × Vec) (p : Point) (S : Fin n → Vec → Mode)
    (f : Fin n → ℝ) (m : ℕ) (g : G) : mcAt R (some s) c ax p S f (m + 1) g = mcAt R (some s) c ax p S f 1 g := by
  unfold mcAt
  rw [blocks_seed, show (1 : ℕ) = 0 + 1 from rfl, blocks_seed]
  have h0 : ((m + 1 : ℕ) : ℝ) ≠ 0 := Nat.cast_ne_zero.2 (by omega)
  simp only [zero_add, Nat.cast_one, one_mul, npDiv_ok h0, npDiv_ok one_ne_zero, ok_bind, div_one]
  have e : (∑ j, ((m + 1 : ℕ) : ℝ) * blockSum c ax p (S j) (R.randn (R.seed s)).1 * f j) / ((m + 1 : ℕ) : ℝ) =
      ∑ j, blockSum c ax p (S j) (R.randn (R.seed s)).1 * f j := by
    rw [eq_comm, eq_div_iff h0, Finset.sum_mul]
    exact Finset.sum_congr rfl fun j _ => by ring
  rw [e]

theorem mcAll_seed {G : Type} {n : ℕ} (R : Random G) (s : ℕ) (ax : Vec × Vec × Vec) (S : Fin n → Vec → Mode) (f : Pref n) (m : ℕ) :
    ∀ (l : List (Point × Res × Coeffs)) (g : G), mcAll R (some s) ax S f (m + 1) l g = mcAll R (some s) ax S f 1 l g
  | [], _ => rfl
  | x :: l, g => by
    unfold mcAll
    rw [mcAt_seed]
    simp only [mcAll_seed R s ax S f m l]

/-- C153, with a seed: as in `resolution_convolution`, `ACCURACY` has no effect, because the random numbers start again from the
seed for every block. -/
theorem C153_seed_false {G : Type} {n : ℕ} (R : Random G) (g : G) (i : Inst) (S : Fin n → Vec → Mode) (pref : Option (Pref n)) (nargout : ℤ)
    (H K L W : Arg ℝ) (s : ℕ) {acc : Accuracy} {k : ℕ} (hacc : blockNumber acc = .ok k) (hk : k ≠ 0) :
    convolve R g i S pref nargout H K L W .mc acc (some s) = convolve R g i S pref nargout H K L W .mc (.number 1) (some s) := by
  obtain ⟨m, rfl⟩ := Nat.exists_eq_succ_of_ne_zero hk
  have : ∀ ax rs ps, convolveAt R g ax rs ps S pref nargout .mc acc (some s) = convolveAt R g ax rs ps S pref nargout .mc (.number 1) (some s) := by
    intro ax rs ps
    unfold convolveAt
    rw [hacc, show blockNumber (.number 1) = .ok 1 from rfl]
    simp only [ok_bind, Nat.succ_eq_add_one, mcAll_seed]
  unfold convolve
  simp only [this]

/-- The default, and a thousand blocks. -/
example : blockNumber .none = .ok 10 ∧ blockNumber (.list [1000]) = .ok 1000 := ⟨rfl, rfl⟩

/-! ## Without a seed -/

/-- The method `'mc'` without a seed at points that the instrument can reach. -/
theorem convolve_mc {G : Type} {n m : ℕ} (gen : Random G) {i : Inst} {E F : Mat} (h : Level i.setup E F) {q : Query}
    (hq : q.Len m) (hm : m ≠ 1) (hS : i.setup.settings.Valid m) (hp : Points i.setup F q) :
    ∃ (i' : Inst) (ax : Vec × Vec × Vec) (P : Fin m → Point) (r : Fin m → Res) (c : Fin m → Coeffs),
      calcResolution i (.list q.H) (.list q.K) (.list q.L) (.list q.W) = (i', none) ∧ i'.result = some (List.ofFn r) ∧
      standardSystem i.setup.lattice i.setup.u i.setup.v = .ok ax ∧ (hkls q.H q.K q.L).zip q.W = List.ofFn P ∧
      (∀ k, SPD (r k).rms ∧ Decoupled (r k).rms ∧ 0 < (r k).r0 ∧ coeffs (r k).rms = .ok (c k)) ∧
      ∀ (sqw : Fin n → Vec → Mode) (pref : Option (Pref n)) (nargout : ℤ) (f : Pref n), prefactor pref nargout = .ok f → ∀ (g : G) (M : ℕ), M ≠ 0 →
        convolve gen g i sqw pref nargout (.list q.H) (.list q.K) (.list q.L) (.list q.W) .mc (.number M) none =
          (i', .ok (List.ofFn fun k => mcValue gen (c k) ax (P k) sqw (f.factor (P k)) M (stateAfter gen (k * M) g) * (r k).r0 + f.background (P k),
            stateAfter gen (m * M) g)) := by
  obtain ⟨i', rs, hc, hset, hres, hlen, hgood⟩ := calc_points h hq hS hp
  obtain ⟨x, y, z, hax, -⟩ := h.axes
  obtain ⟨cs, hcs, hall⟩ := coeffs_all fun r hr => (hgood r hr).1
  have hlc : cs.length = m := by rw [← hall.length_eq, hlen]
  obtain ⟨ps, hps⟩ : ∃ ps, ps = (hkls q.H q.K q.L).zip q.W := ⟨_, rfl⟩
  have hlp : ps.length = m := by
    rw [hps, List.length_zip, Verif.Resolution.hkls_length hq.H hq.K hq.L, hq.W, min_self]
  have e1 : ps = List.ofFn fun k : Fin m => ps[(k : ℕ)] := by
    refine List.ext_getElem (by simp [hlp]) fun k h1 h2 => by simp
  have e2 : rs = List.ofFn fun k : Fin m => rs[(k : ℕ)] := by
    refine List.ext_getElem (by simp [hlen]) fun k h1 h2 => by simp
  refine ⟨i', (x, y, z), fun k => ps[(k : ℕ)], fun k => rs[(k : ℕ)], fun k => cs[(k : ℕ)], hc, by rw [hres]; exact congrArg some e2, hax,
    by rw [← hps]; exact e1, fun k => ?_, fun sqw pref nargout f hf g M hM => ?_⟩
  · obtain ⟨s1, s2, s3⟩ := hgood rs[(k : ℕ)] (List.getElem_mem _)
    exact ⟨s1, s2, s3, List.forall₂_iff_get.1 hall |>.2 k _ _⟩
  unfold convolve
  rw [hc, Verif.Resolution.clean_query hq]
  dsimp only
  rw [hset.1, hset.2.1, hset.2.2, hax, hres]
  simp only [lift, ok_bind, Option.getD_some]
  unfold convolveAt
  rw [if_neg (show ¬ rs.length = 1 by rw [hlen]; exact hm), hcs, hf, ← hps]
  simp only [lift, ok_bind, blockNumber]
  have e3 : ps.zip (rs.zip cs) = List.ofFn fun k : Fin m => (ps[(k : ℕ)], rs[(k : ℕ)], cs[(k : ℕ)]) := by
    refine List.ext_getElem (by simp [hlp, hlen, hlc]) fun k h1 h2 => by simp
  rw [e3, mcAll_ok gen _ sqw f hM]

theorem product_near {h : ℝ → ℝ} (hh : ∀ t, |h t - 1| ≤ 2e-8) (t : Fin 3 → ℝ) : |(∏ a, h (t a)) - 1| ≤ 1e-7 := by
  rw [Fin.prod_univ_three]
  have b : ∀ x y e : ℝ, |x - 1| ≤ e → |y - 1| ≤ 2e-8 → e ≤ 1 → |x * y - 1| ≤ e + 2e-8 + 2e-8 * e := fun x y e hx hy he => by
    have : x * y - 1 = (x - 1) * (y - 1) + (x - 1) + (y - 1) := by ring
    rw [this]
    have h1 := abs_mul (x - 1) (y - 1)
    have h2 : |x - 1| * |y - 1| ≤ e * 2e-8 := mul_le_mul hx hy (abs_nonneg _) ((abs_nonneg _).trans hx)
    have h3 := abs_add_three ((x - 1) * (y - 1)) (x - 1) (y - 1)
    rw [h1] at h3
    linarith
  have h1 := b _ _ _ (hh (t 0)) (hh (t 1)) (by norm_num)
  have h2 := b _ _ _ h1 (hh (t 2)) (by norm_num)
  refine h2.trans ?_
  norm_num

/-- The mean of the values for random numbers whose density is close to one. -/
theorem mean_near {G : Type} [MeasurableSpace G] {n m : ℕ} {gen : Random G} {μ : Measure G} [IsProbabilityMeasure μ] {ρ : Measure ℝ} [IsProbabilityMeasure ρ]
    (hD : Draws gen μ ρ) {h : ℝ → ℝ} (hd : Density ρ h) {δ : ℝ} (hδ : ∀ t : Fin 3 → ℝ, |(∏ a, h (t a)) - 1| ≤ δ)
    {i : Inst} {E F : Mat} (hi : Level i.setup E F) {q : Query}
    (hq : q.Len m) (hm : m ≠ 1) (hS : i.setup.settings.Valid m) (hp : Points i.setup F q) {sqw : Fin n → Vec → Mode} {C : Fin n → ℝ}
    (hw : ∀ j, Line (sqw j) (C j)) (pref : Option (Pref n)) (nargout : ℤ) {f : Pref n} (hf : prefactor pref nargout = .ok f) {M : ℕ} (hM : M ≠ 0) :
    ∃ (i' : Inst) (ax : Vec × Vec × Vec) (P : Fin m → Point) (r : Fin m → Res) (v : G → Fin m → ℝ) (g' : G → G),
      calcResolution i (.list q.H) (.list q.K) (.list q.L) (.list q.W) = (i', none) ∧ i'.result = some (List.ofFn r) ∧
      standardSystem i.setup.lattice i.setup.u i.setup.v = .ok ax ∧ (hkls q.H q.K q.L).zip q.W = List.ofFn P ∧
      (∀ g, convolve gen g i sqw pref nargout (.list q.H) (.list q.K) (.list q.L) (.list q.W) .mc (.number M) none =
          (i', .ok (List.ofFn (v g), g' g))) ∧
      ∀ k, Integrable (fun g => v g k) μ ∧ |∫ g, v g k ∂μ - expected ax sqw f (P k) (r k)| ≤
        ((1 + δ) * 1e-4 + δ) * (∑ j, |f.factor (P k) j| * C j) * ((r k).r0 * √((r k).rms 3 3 * (2 * π) ^ 3 / (r k).rms.det)) := by
  obtain ⟨i', ax, P, r, c, h1, h2, h3, h4, h5, h6⟩ := convolve_mc (n := n) gen hi hq hm hS hp
  refine ⟨i', ax, P, r, _, _, h1, h2, h3, h4, fun g => h6 sqw pref nargout f hf g M hM, fun k => ?_⟩
  obtain ⟨s1, s2, s3, s4⟩ := h5 k
  obtain ⟨c', hc', hx, hy, hz, hxy, hdz, hg, e1, e2, e3⟩ := coeffs_ok s1
  rw [s4] at hc'
  obtain rfl := Except.ok.inj hc'
  rw [cut_of_decoupled s2] at e2
  have hR : 0 < (r k).rms 3 3 := s1.diag 3
  obtain ⟨hint, hmean⟩ := mcValue_mean hD hd hg ax (P k) hw (f.factor (P k)) hM (k * M)
  refine ⟨(hint.mul_const _).add (integrable_const _), ?_⟩
  rw [integral_add (hint.mul_const _) (integrable_const _), integral_mul_const, hmean, integral_const, probReal_univ, one_smul, expected_eq,
    add_sub_add_right_eq_sub, ← sub_mul, ← Finset.sum_sub_distrib, abs_mul, abs_of_pos s3]
  have e : √((r k).rms 3 3 * (2 * π) ^ 3 / (r k).rms.det) = √(2 * π) ^ 3 / (c k).detxy / (c k).detz := by
    have hp := pi_pos
    rw [← e2, sqrt_eq_iff_mul_self_eq_of_pos (by positivity)]
    have q := mul_self_sqrt (show 0 ≤ 2 * π by positivity)
    have : √(2 * π) ^ 3 / (c k).detxy / (c k).detz * (√(2 * π) ^ 3 / (c k).detxy / (c k).detz) =
      (√(2 * π) * √(2 * π)) ^ 3 / ((c k).detxy * (c k).detz) ^ 2 := by
      field_simp
    rw [this, q]
    field_simp
  rw [e]
  have each : ∀ j, |average h (inVars (c k) ax (P k) (sqw j)) / (c k).detxy / (c k).detz * f.factor (P k) j -
      (∫ d : Fin 3 → ℝ, (sqw j (moved ax (P k).1 d)).inte * lorentz (sqw j (moved ax (P k).1 d)).width (sqw j (moved ax (P k).1 d)).disp
        fun e => exp (-(1 / 2) * quad (r k).rms ![d 0, d 1, d 2, e - (P k).2])) * f.factor (P k) j| ≤
      |f.factor (P k) j| * C j * (((1 + δ) * 1e-4 + δ) * (√(2 * π) ^ 3 / (c k).detxy / (c k).detz)) := fun j => by
    rw [← ideal_integral (hw j) s1 s2 s4 ax (P k), ← average_ideal (hw j) hg, ← sub_mul, ← sub_div, ← sub_div, abs_mul, abs_div, abs_div, abs_of_pos hxy,
      abs_of_pos hdz, mul_comm, mul_assoc]
    refine mul_le_mul_of_nonneg_left ?_ (abs_nonneg _)
    have := average_near hd.continuous hδ (inVars_measurable (hw j) (c k) ax (P k)) (idealVars_continuous (hw j) (c k) ax (P k)).measurable
      (fun t => term_near (hw j) hg ax (P k) (t 0) (t 1) (t 2)) fun t => ideal_le (hw j) hg ax (P k) (t 0) (t 1) (t 2)
    calc _ ≤ ((1 + δ) * (1e-4 * C j) + δ * C j) * √(2 * π) ^ 3 / (c k).detxy / (c k).detz :=
          div_le_div_of_nonneg_right (div_le_div_of_nonneg_right this hxy.le) hdz.le
      _ = _ := by ring
  refine (mul_le_mul_of_nonneg_right ((Finset.abs_sum_le_sum_abs _ _).trans (Finset.sum_le_sum fun j _ => each j)) s3.le).trans (le_of_eq ?_)
  rw [← Finset.sum_mul]
  ring

/-- C153.  Without a seed, for every valid instrument and two or more points (or none) in the plane that it can reach, every number
of blocks, modes with continuous dispersion, width and bounded intensity, and normal random numbers (the three numbers of a sample
independent): the method `'mc'` succeeds, and the mean of each value over the random numbers is the convolution, up to 1.01e-4 of
the greatest intensities times the volume of the resolution function in reciprocal space.  Missing: the number of blocks has no
effect with a seed (`C153_seed_false`); single points and other samples as in C145. -/
theorem C153_mean_partial {G : Type} [MeasurableSpace G] {n m : ℕ} {gen : Random G} {μ : Measure G} [IsProbabilityMeasure μ]
    (hD : Draws gen μ (ProbabilityTheory.gaussianReal 0 1)) {i : Inst} {E F : Mat} (h : Level i.setup E F) {q : Query}
    (hq : q.Len m) (hm : m ≠ 1) (hS : i.setup.settings.Valid m) (hp : Points i.setup F q) {sqw : Fin n → Vec → Mode} {C : Fin n → ℝ}
    (hw : ∀ j, Line (sqw j) (C j)) (pref : Option (Pref n)) (nargout : ℤ) {f : Pref n} (hf : prefactor pref nargout = .ok f) {M : ℕ} (hM : M ≠ 0) :
    ∃ (i' : Inst) (ax : Vec × Vec × Vec) (P : Fin m → Point) (r : Fin m → Res) (v : G → Fin m → ℝ) (g' : G → G),
      calcResolution i (.list q.H) (.list q.K) (.list q.L) (.list q.W) = (i', none) ∧ i'.result = some (List.ofFn r) ∧
      standardSystem i.setup.lattice i.setup.u i.setup.v = .ok ax ∧ (hkls q.H q.K q.L).zip q.W = List.ofFn P ∧
      (∀ g, convolve gen g i sqw pref nargout (.list q.H) (.list q.K) (.list q.L) (.list q.W) .mc (.number M) none =
          (i', .ok (List.ofFn (v g), g' g))) ∧
      ∀ k, Integrable (fun g => v g k) μ ∧ |∫ g, v g k ∂μ - expected ax sqw f (P k) (r k)| ≤
        1.01e-4 * (∑ j, |f.factor (P k) j| * C j) * ((r k).r0 * √((r k).rms 3 3 * (2 * π) ^ 3 / (r k).rms.det)) := by
  obtain ⟨i', ax, P, r, v, g', h1, h2, h3, h4, h5, h6⟩ :=
    mean_near hD normal_density (product_near fun t => theta_near (turn t)) h hq hm hS hp hw pref nargout hf hM
  refine ⟨i', ax, P, r, v, g', h1, h2, h3, h4, h5, fun k => ⟨(h6 k).1, (h6 k).2.trans ?_⟩⟩
  have hr0 : 0 ≤ (r k).r0 := by
    obtain ⟨i2, rs, hc, -, hres, -, hgood⟩ := calc_points h hq hS hp
    rw [h1] at hc
    cases hc
    rw [h2] at hres
    have := (hgood (r k) (by rw [← Option.some.inj hres]; exact List.mem_ofFn.2 ⟨k, rfl⟩)).2.2
    exact this.le
  have hC : 0 ≤ ∑ j, |f.factor (P k) j| * C j :=
    Finset.sum_nonneg fun j _ => mul_nonneg (abs_nonneg _) ((abs_nonneg _).trans ((hw j).bounded 0))
  refine mul_le_mul_of_nonneg_right (mul_le_mul_of_nonneg_right (by norm_num) hC) (mul_nonneg hr0 (sqrt_nonneg _))

/-! ## Random numbers that meet the hypotheses -/

/-- A sequence of blocks. -/
abbrev Tape := ℕ → Fin 3 → Fin 1000 → ℝ

/-- The blocks of a sequence, one after the other. -/
def tape : Random Tape := ⟨fun _ _ _ _ => 0, fun g => (g 0, fun b => g (b + 1))⟩

theorem tape_state (b : ℕ) (g : Tape) : stateAfter tape b g = fun k => g (k + b) := by
  induction b with
  | zero => rfl
  | succ b ih =>
    unfold stateAfter at *
    rw [Function.iterate_succ_apply', ih]
    funext k
    simp only [tape]
    congr 1
    omega

theorem tape_draws (ρ : Measure ℝ) [IsProbabilityMeasure ρ] :
    Draws tape (Measure.infinitePi fun _ : ℕ => Measure.pi fun _ : Fin 3 => Measure.pi fun _ : Fin 1000 => ρ) ρ := by
  have e : ∀ b g, draw tape b g = g b := fun b g => by
    unfold draw
    rw [tape_state]
    change g (0 + b) = g b
    rw [zero_add]
  constructor
  · intro b a k
    simp only [e]
    fun_prop
  · intro b k
    simp only [e]
    have h1 := (measurePreserving_eval_infinitePi (fun _ : ℕ => Measure.pi fun _ : Fin 3 => Measure.pi fun _ : Fin 1000 => ρ) b)
    have h2 : Measurable fun (x : Fin 3 → Fin 1000 → ℝ) (a : Fin 3) => x a k := by fun_prop
    have h3 := Measure.map_map h2 h1.measurable (μ := Measure.infinitePi fun _ : ℕ => Measure.pi fun _ : Fin 3 => Measure.pi fun _ : Fin 1000 => ρ)
    rw [h1.map_eq] at h3
    refine Eq.trans h3.symm ?_
    have h4 : (Measure.pi fun _ : Fin 1000 => ρ).map (fun y => y k) = ρ := (measurePreserving_eval (fun _ : Fin 1000 => ρ) k).map_eq
    have : IsProbabilityMeasure ((Measure.pi fun _ : Fin 1000 => ρ).map (fun y : Fin 1000 → ℝ => y k)) := by rw [h4]; infer_instance
    rw [Measure.pi_map_pi (f := fun _ (y : Fin 1000 → ℝ) => y k) fun _ => (measurable_pi_apply k).aemeasurable]
    simp only [h4]

/-- Independent normal numbers, an instrument, two points and a mode. -/
example : ∃ (μ : Measure Tape), IsProbabilityMeasure μ ∧ Draws tape μ (ProbabilityTheory.gaussianReal 0 1) ∧
    Level demoSetup ((2 * π) • 1) 1 ∧ twoPoints.Len 2 ∧ demoSetup.settings.Valid 2 ∧ Points demoSetup 1 twoPoints ∧ Line wave 1 ∧
    prefactor (n := 1) (some ⟨fun _ _ => 2, fun _ => 1⟩) 2 = .ok ⟨fun _ _ => 2, fun _ => 1⟩ :=
  ⟨_, inferInstance, tape_draws _, (.of demoSetup_valid), ⟨rfl, rfl, rfl, rfl⟩, demo_valid 2, twoPoints_ok, wave_line, rfl⟩

end Verif.Single
