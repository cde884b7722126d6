import Verif.Convolution.PropsForm
import Verif.Single.Lemmas
import Verif.Single.Regions

/-!
# Property theorems C150 (single modes), C151 (arguments) and C152 (profile)
-/

namespace Verif.Single

open Real Matrix MeasureTheory Filter Topology
open Complex (I)
open Verif.Crystal (Fail Vec Mat npSqrt npDiv npDiv_ok npSqrt_ok standardSystem)
open Verif.Resolution (M4 Decoupled Inst Res calcResolution hkls Query demoSetup demoSetup_valid demo_valid)
open Verif.Tools (quad SPD Arg cleanArgs)
open Verif.Convolution (Err lift Point Pref cut cut_of_decoupled Accuracy Method gridSize blockNumber Points Level calc_points quadrature Agrees twoPoints
  twoPoints_ok weight step)

/-! ## Specification -/

/-- The reciprocal lattice vector displaced from `q` along three axes. -/
def moved (ax : Vec × Vec × Vec) (q : Vec) (d : Fin 3 → ℝ) : Vec := q + d 0 • ax.1 + d 1 • ax.2.1 + d 2 • ax.2.2

/-- The mean of `g` over a line at `e₀` with the Lorentzian profile of unit area and half width `w`; a sharp line has no width. -/
noncomputable def lorentz (w e₀ : ℝ) (g : ℝ → ℝ) : ℝ := if w = 0 then g e₀ else ∫ e : ℝ, 1 / π * (w / (w ^ 2 + (e - e₀) ^ 2)) * g e

/-- The convolution as it should be: at each displacement in reciprocal space a mode counts with its intensity times the mean of
the resolution function over the energies of the mode. -/
noncomputable def expected {n : ℕ} (ax : Vec × Vec × Vec) (sqw : Fin n → Vec → Mode) (f : Pref n) (p : Point) (r : Res) : ℝ :=
  (∑ j, f.factor p j * ∫ d : Fin 3 → ℝ, (sqw j (moved ax p.1 d)).inte * lorentz (sqw j (moved ax p.1 d)).width (sqw j (moved ax p.1 d)).disp
    fun e => r.r0 * exp (-(1 / 2) * quad r.rms ![d 0, d 1, d 2, e - p.2])) + f.background p

/-- What is asked of a mode: dispersion, intensity and width are continuous, the intensity is at most `C`, and the width is not
negative. -/
structure Line (S : Vec → Mode) (C : ℝ) : Prop where
  disp : Continuous fun q => (S q).disp
  inte : Continuous fun q => (S q).inte
  width : Continuous fun q => (S q).width
  bounded : ∀ q, |(S q).inte| ≤ C
  nonneg : ∀ q, 0 ≤ (S q).width

/-! ## C152 -/

/-- C152, symmetry: the profile does not depend on the sign of the distance from the line, for every width. -/
theorem C152_symmetric (x a : ℝ) : voigt (-x) a = voigt x a := voigt_neg x a

/-- C152, lines without width: the profile is the Gaussian, up to 5e-5 within 0.91 of the centre, and exactly elsewhere. -/
theorem C152_sharp (x : ℝ) : |voigt x 0 - exp (-x ^ 2)| ≤ 5e-5 ∧ (0.91 ≤ |x| → voigt x 0 = exp (-x ^ 2)) :=
  ⟨voigt_zero x, fun h => voigt_outside (by norm_num at h; linarith)⟩

/-- C152, lines without width: it is not exactly the Gaussian. -/
theorem C152_sharp_false : voigt (1 / 2) 0 ≠ exp (-(1 / 2) ^ 2) := by
  rw [voigt_core (by rw [abs_of_pos] <;> norm_num)]
  have hs := abs_le.1 (series_near (s := 1 / 4) (by norm_num) (by norm_num))
  have e : exp (-(1 / 2) ^ 2) = exp (-(1 / 4)) := by norm_num
  rw [e]
  intro h
  rw [← h] at hs
  norm_num [num3, den3, series] at hs

/-- C152, all widths: the profile is the convolution of the Gaussian with the Lorentzian of unit area, up to 1e-4. -/
theorem C152_profile {a : ℝ} (ha : 0 < a) (x : ℝ) : |voigt x a - ∫ y : ℝ, 1 / π * (a / (a ^ 2 + (x - y) ^ 2)) * exp (-y ^ 2)| ≤ 1e-4 := by
  rw [← plasma_eq ha]
  exact voigt_plasma ha.le

/-! ## C150 -/

/-- The contribution of a mode with the exact profile. -/
noncomputable def ideal (c : Coeffs) (ax : Vec × Vec × Vec) (p : Point) (S : Vec → Mode) (tx ty tz : ℝ) : ℝ :=
  (S (moved ax p.1 (shift c tx ty tz))).inte *
    (plasma (((S (moved ax p.1 (shift c tx ty tz))).width * c.gamma : ℝ) -
      I * (c.gamma * ((S (moved ax p.1 (shift c tx ty tz))).disp - p.2) + c.omegax * shift c tx ty tz 0 + c.omegay * shift c tx ty tz 1 : ℝ))).re

theorem term_near {S : Vec → Mode} {C : ℝ} (hS : Line S C) {c : Coeffs} (hg : 0 < c.gamma) (ax : Vec × Vec × Vec) (p : Point) (tx ty tz : ℝ) :
    |term c ax p S tx ty tz - ideal c ax p S tx ty tz| ≤ 1e-4 * C := by
  unfold term ideal
  dsimp only
  have e : p.1 + (c.tqxx * tx - c.tqxy * ty) • ax.1 + (c.tqy * ty) • ax.2.1 + (c.tqz * tz) • ax.2.2 = moved ax p.1 (shift c tx ty tz) := rfl
  rw [e, ← mul_sub, abs_mul, mul_comm (1e-4) C]
  exact mul_le_mul (hS.bounded _) (voigt_plasma (mul_nonneg (hS.nonneg _) hg.le)) (abs_nonneg _) ((abs_nonneg _).trans (hS.bounded 0))

/-- The complex error function is at most one. -/
theorem plasma_le_one {t : ℂ} (h : 0 ≤ t.re) : |(plasma t).re| ≤ 1 := by
  refine (Complex.abs_re_le_norm _).trans ?_
  have hp : 0 < √π := sqrt_pos.2 pi_pos
  unfold plasma
  rw [norm_mul, Complex.norm_real, norm_of_nonneg (by positivity)]
  have hi : ∫ v in Set.Ioi (0 : ℝ), exp (-(1 / 4) * v ^ 2) = √π := by
    rw [integral_gaussian_Ioi]
    have : π / (1 / 4) = 2 ^ 2 * π := by ring
    rw [this, sqrt_mul (by norm_num), sqrt_sq (by norm_num)]
    ring
  have hg : IntegrableOn (fun v : ℝ => exp (-(1 / 4) * v ^ 2)) (Set.Ioi 0) := (integrable_exp_neg_mul_sq (by norm_num)).integrableOn
  have := norm_integral_le_of_norm_le hg (f := kernel t) ((ae_restrict_iff' measurableSet_Ioi).2 (Eventually.of_forall fun v hv => by
    rw [norm_kernel]
    refine exp_le_exp.2 ?_
    have := mul_nonneg (le_of_lt hv) h
    linarith))
  rw [hi] at this
  calc _ ≤ 1 / √π * √π := mul_le_mul_of_nonneg_left this (by positivity)
    _ = 1 := by field_simp

/-- The mean of a Gaussian over a line. -/
theorem lorentz_plasma {w γ : ℝ} (hw : 0 ≤ w) (hγ : 0 < γ) (e₀ k c : ℝ) : lorentz w e₀ (fun e => k * exp (-(γ * e + c) ^ 2)) =
    k * (plasma (((w * γ : ℝ) : ℂ) - I * ((γ * e₀ + c : ℝ) : ℂ))).re := by
  unfold lorentz
  rcases hw.eq_or_lt with h | h
  · rw [if_pos h.symm, ← h, zero_mul]
    have : (((0 : ℝ) : ℂ) - I * ((γ * e₀ + c : ℝ) : ℂ)) = -I * ((γ * e₀ + c : ℝ) : ℂ) := by
      push_cast
      ring
    rw [this, plasma_axis]
  · rw [if_neg h.ne', plasma_eq (mul_pos h hγ), ← integral_const_mul]
    obtain ⟨G, hG⟩ : ∃ G : ℝ → ℝ, G = fun y => k * (1 / π * (w * γ / ((w * γ) ^ 2 + (γ * e₀ + c - y) ^ 2)) * exp (-y ^ 2)) := ⟨_, rfl⟩
    have h1 : ∫ y, G y = γ * ∫ e, G (γ * e + c) := by
      have h2 := Measure.integral_comp_mul_left (fun e => G (e + c)) γ
      rw [integral_add_right_eq_self G c, abs_of_pos (by positivity), smul_eq_mul] at h2
      rw [h2]
      field_simp
    rw [← hG, h1, ← integral_const_mul]
    refine integral_congr_ae (Eventually.of_forall fun e => ?_)
    have hne : w ^ 2 + (e - e₀) ^ 2 ≠ 0 := by positivity
    have e1 : (w * γ) ^ 2 + (γ * e₀ + c - (γ * e + c)) ^ 2 = γ ^ 2 * (w ^ 2 + (e - e₀) ^ 2) := by ring
    rw [hG]
    dsimp only
    rw [e1]
    field_simp

/-- Every displacement is reached. -/
theorem shift_onto {c : Coeffs} (hx : 0 < c.tqxx) (hy : 0 < c.tqy) (hz : 0 < c.tqz) (d : Fin 3 → ℝ) : ∃ tx ty tz, shift c tx ty tz = d := by
  refine ⟨(d 0 + c.tqxy * (d 1 / c.tqy)) / c.tqxx, d 1 / c.tqy, d 2 / c.tqz, ?_⟩
  funext k
  fin_cases k <;> simp [shift] <;> field_simp
  ring

/-- The resolution function as a Gaussian in the energy. -/
theorem quad_split {R : M4} {c : Coeffs} (hx : 0 < c.tqxx) (hy : 0 < c.tqy) (hz : 0 < c.tqz)
    (e3 : ∀ tx ty tz e, quad R ![shift c tx ty tz 0, shift c tx ty tz 1, shift c tx ty tz 2, e] = tx ^ 2 + ty ^ 2 + tz ^ 2 +
      2 * (c.gamma * e + c.omegax * shift c tx ty tz 0 + c.omegay * shift c tx ty tz 1) ^ 2) (d : Fin 3 → ℝ) (e : ℝ) :
    quad R ![d 0, d 1, d 2, e] = (quad R ![d 0, d 1, d 2, 0] - 2 * (c.omegax * d 0 + c.omegay * d 1) ^ 2) +
      2 * (c.gamma * e + c.omegax * d 0 + c.omegay * d 1) ^ 2 := by
  obtain ⟨x, y, z, rfl⟩ := shift_onto hx hy hz d
  rw [e3, e3]
  ring

theorem lorentz_line {R : M4} {c : Coeffs} (hx : 0 < c.tqxx) (hy : 0 < c.tqy) (hz : 0 < c.tqz) (hg : 0 < c.gamma)
    (e3 : ∀ tx ty tz e, quad R ![shift c tx ty tz 0, shift c tx ty tz 1, shift c tx ty tz 2, e] = tx ^ 2 + ty ^ 2 + tz ^ 2 +
      2 * (c.gamma * e + c.omegax * shift c tx ty tz 0 + c.omegay * shift c tx ty tz 1) ^ 2) (d : Fin 3 → ℝ) {w : ℝ} (hw : 0 ≤ w) (e₀ W : ℝ) :
    lorentz w e₀ (fun e => exp (-(1 / 2) * quad R ![d 0, d 1, d 2, e - W])) =
      exp (-(1 / 2) * (quad R ![d 0, d 1, d 2, 0] - 2 * (c.omegax * d 0 + c.omegay * d 1) ^ 2)) *
        (plasma (((w * c.gamma : ℝ) : ℂ) - I * ((c.gamma * (e₀ - W) + c.omegax * d 0 + c.omegay * d 1 : ℝ) : ℂ))).re := by
  have h := lorentz_plasma hw hg e₀ (exp (-(1 / 2) * (quad R ![d 0, d 1, d 2, 0] - 2 * (c.omegax * d 0 + c.omegay * d 1) ^ 2)))
    (-c.gamma * W + c.omegax * d 0 + c.omegay * d 1)
  have e1 : c.gamma * e₀ + (-c.gamma * W + c.omegax * d 0 + c.omegay * d 1) = c.gamma * (e₀ - W) + c.omegax * d 0 + c.omegay * d 1 := by ring
  rw [e1] at h
  rw [← h]
  congr 1
  funext e
  rw [quad_split hx hy hz e3 d (e - W), ← exp_add]
  congr 1
  ring

theorem continuous_moved (ax : Vec × Vec × Vec) (q : Vec) : Continuous (moved ax q) := by
  unfold moved
  fun_prop

theorem continuous_shift (c : Coeffs) : Continuous fun t : ℝ × ℝ × ℝ => shift c t.1 t.2.1 t.2.2 := by
  unfold shift
  fun_prop

theorem ideal_continuous {S : Vec → Mode} {C : ℝ} (hS : Line S C) (c : Coeffs) (ax : Vec × Vec × Vec) (p : Point) :
    Continuous fun t : ℝ × ℝ × ℝ => ideal c ax p S t.1 t.2.1 t.2.2 := by
  have h1 := hS.inte.comp ((continuous_moved ax p.1).comp (continuous_shift c))
  have h2 := hS.disp.comp ((continuous_moved ax p.1).comp (continuous_shift c))
  have h5 := hS.width.comp ((continuous_moved ax p.1).comp (continuous_shift c))
  have h3 : Continuous fun t : ℝ × ℝ × ℝ => shift c t.1 t.2.1 t.2.2 0 := (continuous_apply 0).comp (continuous_shift c)
  have h4 : Continuous fun t : ℝ × ℝ × ℝ => shift c t.1 t.2.1 t.2.2 1 := (continuous_apply 1).comp (continuous_shift c)
  simp only [Function.comp_def] at h1 h2 h5
  unfold ideal
  refine h1.mul (Complex.continuous_re.comp (plasma_differentiable.continuous.comp ((Complex.continuous_ofReal.comp (h5.mul continuous_const)).sub
    (continuous_const.mul (Complex.continuous_ofReal.comp ?_)))))
  exact (((h2.sub continuous_const).const_mul _).add (h3.const_mul _)).add (h4.const_mul _)

theorem ideal_le {S : Vec → Mode} {C : ℝ} (hS : Line S C) {c : Coeffs} (hg : 0 < c.gamma) (ax : Vec × Vec × Vec) (p : Point) (x y z : ℝ) :
    |ideal c ax p S x y z| ≤ C := by
  unfold ideal
  rw [abs_mul]
  have h0 : 0 ≤ C := (abs_nonneg _).trans (hS.bounded 0)
  calc _ ≤ C * 1 := mul_le_mul (hS.bounded _) (plasma_le_one (by simpa using mul_nonneg (hS.nonneg _) hg.le)) (abs_nonneg _) h0
    _ = C := mul_one C

/-- The Gaussian integral of a mode. -/
theorem ideal_integral {S : Vec → Mode} {C : ℝ} (hS : Line S C) {R : M4} (h : SPD R) (hd : Decoupled R) {c : Coeffs} (hc : coeffs R = .ok c)
    (ax : Vec × Vec × Vec) (p : Point) : gauss3 (ideal c ax p S) / c.detxy / c.detz =
      ∫ d : Fin 3 → ℝ, (S (moved ax p.1 d)).inte * lorentz (S (moved ax p.1 d)).width (S (moved ax p.1 d)).disp
        fun e => exp (-(1 / 2) * quad R ![d 0, d 1, d 2, e - p.2]) := by
  obtain ⟨c', hc', hx, hy, hz, hxy, hdz, hg, e1, -, e3⟩ := coeffs_ok h
  rw [hc] at hc'
  obtain rfl := Except.ok.inj hc'
  rw [cut_of_decoupled hd] at e3
  simp only [lorentz_line hx hy hz hg e3 _ (hS.nonneg _)]
  refine gauss3_shift hx hy hz hxy hdz e1 ?_ (ideal_continuous hS c ax p) (ideal_le hS hg ax p) fun x y z => ?_
  · have h1 := hS.inte.comp (continuous_moved ax p.1)
    have h2 := hS.disp.comp (continuous_moved ax p.1)
    have h3 := hS.width.comp (continuous_moved ax p.1)
    simp only [Function.comp_def] at h1 h2 h3
    have hq : Continuous fun d : Fin 3 → ℝ => quad R ![d 0, d 1, d 2, 0] := by
      have : Continuous fun d : Fin 3 → ℝ => (![d 0, d 1, d 2, 0] : Fin 4 → ℝ) := by
        refine continuous_pi fun k => ?_
        fin_cases k
        · exact continuous_apply 0
        · exact continuous_apply 1
        · exact continuous_apply 2
        · exact continuous_const
      unfold quad
      exact continuous_finset_sum _ fun k _ => continuous_finset_sum _ fun l _ => (continuous_const.mul ((continuous_apply k).comp this)).mul ((continuous_apply l).comp this)
    have ho : Continuous fun d : Fin 3 → ℝ => c.omegax * d 0 + c.omegay * d 1 := by fun_prop
    refine h1.mul ((continuous_exp.comp ((hq.sub ((ho.pow 2).const_mul 2)).const_mul _)).mul (Complex.continuous_re.comp
      (plasma_differentiable.continuous.comp ((Complex.continuous_ofReal.comp (h3.mul continuous_const)).sub
      (continuous_const.mul (Complex.continuous_ofReal.comp ?_))))))
    exact (((h2.sub continuous_const).const_mul _).add ((continuous_apply 0).const_mul _)).add ((continuous_apply 1).const_mul _)
  · rw [e3]
    unfold ideal
    have : x ^ 2 + y ^ 2 + z ^ 2 + 2 * (c.gamma * 0 + c.omegax * shift c x y z 0 + c.omegay * shift c x y z 1) ^ 2 -
      2 * (c.omegax * shift c x y z 0 + c.omegay * shift c x y z 1) ^ 2 = x ^ 2 + y ^ 2 + z ^ 2 := by ring
    rw [this]
    ring

/-- The value of `fixAt`. -/
theorem fixAt_eq {n : ℕ} (c : Coeffs) (ax : Vec × Vec × Vec) (p : Point) (sqw : Fin n → Vec → Mode) (factor : Fin n → ℝ) (M0 M1 : ℕ) :
    fixAt c ax p sqw factor M0 M1 = (∑ j, quadrature3 M0 M1 (fun x y z => term c ax p (sqw j) x y z / c.detxy / c.detz) * factor j) *
      (if M1 = 0 then 0.79788 else 1) * (if M0 = 0 then 0.79788 ^ 2 else 1) := by
  have e : (∑ j, gridSum c ax p (sqw j) M0 M1 * factor j) * step M0 ^ 2 * step M1 =
      ∑ j, quadrature3 M0 M1 (fun x y z => term c ax p (sqw j) x y z / c.detxy / c.detz) * factor j := by
    rw [Finset.sum_mul, Finset.sum_mul]
    refine Finset.sum_congr rfl fun j _ => ?_
    rw [← gridSum_eq]
    ring
  unfold fixAt
  rw [e]
  by_cases h0 : M0 = 0 <;> by_cases h1 : M1 = 0 <;> simp [h0, h1]

theorem coeffs_all : ∀ {rs : List Res}, (∀ r ∈ rs, SPD r.rms) → ∃ cs, rs.mapM (fun r => coeffs r.rms) = .ok cs ∧
    List.Forall₂ (fun r c => coeffs r.rms = .ok c) rs cs
  | [], _ => ⟨[], rfl, .nil⟩
  | r :: rs, h => by
    obtain ⟨c, hc, -⟩ := coeffs_ok (h r (by simp))
    obtain ⟨cs, h1, h2⟩ := coeffs_all (rs := rs) fun r hr => h r (by simp [hr])
    exact ⟨c :: cs, by rw [List.mapM_cons, hc, h1]; rfl, .cons hc h2⟩

/-- The method `'fix'` at points that the instrument can reach. -/
theorem convolve_fix {G : Type} {n m : ℕ} (gen : Random G) (g : G) {i : Inst} {E F : Mat} (h : Level i.setup E F) {q : Query}
    (hq : q.Len m) (hm : m ≠ 1) (hS : i.setup.settings.Valid m) (hp : Points i.setup F q) (sqw : Fin n → Vec → Mode)
    (pref : Option (Pref n)) (nargout : ℤ) {f : Pref n} (hf : prefactor pref nargout = .ok f) (seed : Option ℕ) :
    ∃ (i' : Inst) (ax : Vec × Vec × Vec) (P : Fin m → Point) (r : Fin m → Res) (c : Fin m → Coeffs),
      calcResolution i (.list q.H) (.list q.K) (.list q.L) (.list q.W) = (i', none) ∧ i'.result = some (List.ofFn r) ∧
      standardSystem i.setup.lattice i.setup.u i.setup.v = .ok ax ∧ (hkls q.H q.K q.L).zip q.W = List.ofFn P ∧
      (∀ k, SPD (r k).rms ∧ Decoupled (r k).rms ∧ 0 < (r k).r0 ∧ coeffs (r k).rms = .ok (c k)) ∧
      ∀ M0 M1, convolve gen g i sqw pref nargout (.list q.H) (.list q.K) (.list q.L) (.list q.W) .fix (.list [M0, M1]) seed =
        (i', .ok (List.ofFn fun k => fixAt (c k) ax (P k) sqw (f.factor (P k)) M0 M1 * (r k).r0 + f.background (P k), g)) := by
  obtain ⟨i', rs, hc, hset, hres, hlen, hgood⟩ := calc_points h hq hS hp
  obtain ⟨x, y, z, hax, -⟩ := h.axes
  obtain ⟨cs, hcs, hall⟩ := coeffs_all fun r hr => (hgood r hr).1
  have hlc : cs.length = m := by rw [← hall.length_eq, hlen]
  obtain ⟨ps, hps⟩ : ∃ ps, ps = (hkls q.H q.K q.L).zip q.W := ⟨_, rfl⟩
  have hlp : ps.length = m := by
    rw [hps, List.length_zip, Verif.Resolution.hkls_length hq.H hq.K hq.L, hq.W, min_self]
  have e1 : ps = List.ofFn fun k : Fin m => ps[(k : ℕ)] := by
    refine List.ext_getElem (by simp [hlp]) fun k h1 h2 => by simp
  have e2 : rs = List.ofFn fun k : Fin m => rs[(k : ℕ)] := by
    refine List.ext_getElem (by simp [hlen]) fun k h1 h2 => by simp
  refine ⟨i', (x, y, z), fun k => ps[(k : ℕ)], fun k => rs[(k : ℕ)], fun k => cs[(k : ℕ)], hc, by rw [hres]; exact congrArg some e2, hax,
    by rw [← hps]; exact e1, fun k => ?_, fun M0 M1 => ?_⟩
  · obtain ⟨s1, s2, s3⟩ := hgood rs[(k : ℕ)] (List.getElem_mem _)
    exact ⟨s1, s2, s3, List.forall₂_iff_get.1 hall |>.2 k _ _⟩
  · unfold convolve
    rw [hc, Verif.Resolution.clean_query hq]
    dsimp only
    rw [hset.1, hset.2.1, hset.2.2, hax, hres]
    simp only [lift, ok_bind, Option.getD_some]
    unfold convolveAt
    rw [if_neg (show ¬ rs.length = 1 by rw [hlen]; exact hm), hcs, hf, ← hps]
    simp only [lift, ok_bind, gridSize, pure_ok]
    congr 3
    refine List.ext_getElem (by simp [hlp, hlen, hlc]) fun k h1 h2 => ?_
    rw [List.getElem_map, List.getElem_ofFn]
    simp only [List.getElem_zip]

theorem lorentz_const (w e₀ k : ℝ) (g : ℝ → ℝ) : lorentz w e₀ (fun e => k * g e) = k * lorentz w e₀ g := by
  unfold lorentz
  split_ifs
  · rfl
  · rw [← integral_const_mul]
    refine integral_congr_ae (Eventually.of_forall fun e => ?_)
    dsimp only
    ring

theorem expected_eq {n : ℕ} (ax : Vec × Vec × Vec) (sqw : Fin n → Vec → Mode) (f : Pref n) (p : Point) (r : Res) :
    expected ax sqw f p r = (∑ j, (∫ d : Fin 3 → ℝ, (sqw j (moved ax p.1 d)).inte * lorentz (sqw j (moved ax p.1 d)).width (sqw j (moved ax p.1 d)).disp
      fun e => exp (-(1 / 2) * quad r.rms ![d 0, d 1, d 2, e - p.2])) * f.factor p j) * r.r0 + f.background p := by
  unfold expected
  rw [Finset.sum_mul]
  congr 1
  refine Finset.sum_congr rfl fun j _ => ?_
  rw [mul_right_comm, ← integral_mul_const, mul_comm]
  congr 1
  refine integral_congr_ae (Eventually.of_forall fun d => ?_)
  dsimp only
  rw [lorentz_const]
  ring

theorem quadrature_one : Tendsto (fun M : ℕ => quadrature M fun _ => 1) atTop (𝓝 √(2 * π)) := by
  have h := Verif.Convolution.tendsto_quadrature (l := atTop) (m := fun M : ℕ => M) tendsto_id (g := fun _ _ => (1 : ℝ)) (G := fun _ => 1) (C := 1)
    (fun _ _ => by simp) fun _ _ _ => tendsto_const_nhds
  simp only [one_mul] at h
  rw [integral_gaussian] at h
  convert h using 3
  ring

/-- The values for one point, and a matrix that does not couple the vertical component. -/
theorem fixAt_near {n : ℕ} (ax : Vec × Vec × Vec) (p : Point) {sqw : Fin n → Vec → Mode} {C : Fin n → ℝ} (hw : ∀ j, Line (sqw j) (C j)) (f : Pref n) {r : Res}
    {c : Coeffs} (s1 : SPD r.rms) (s2 : Decoupled r.rms) (s3 : 0 < r.r0) (s4 : coeffs r.rms = .ok c) {ε : ℝ}
    (hε : ε > 1e-4 * (∑ j, |f.factor p j| * C j) * (r.r0 * √(r.rms 3 3 * (2 * π) ^ 3 / r.rms.det))) :
    ∀ᶠ M : ℕ × ℕ in atTop, |fixAt c ax p sqw (f.factor p) M.1 M.2 * r.r0 + f.background p - expected ax sqw f p r| ≤ ε := by
  obtain ⟨c', hc', hx, hy, hz, hxy, hdz, hg, e1, e2, e3⟩ := coeffs_ok s1
  rw [s4] at hc'
  obtain rfl := Except.ok.inj hc'
  rw [cut_of_decoupled s2] at e2
  have hR : 0 < r.rms 3 3 := s1.diag 3
  have hC : ∀ j, 0 ≤ C j := fun j => (abs_nonneg _).trans ((hw j).bounded 0)
  -- the values with the exact profile
  have lim : Tendsto (fun M : ℕ × ℕ => (∑ j, quadrature3 M.1 M.2 (ideal c ax p (sqw j)) / c.detxy / c.detz * f.factor p j) * r.r0 +
      f.background p) atTop (𝓝 (expected ax sqw f p r)) := by
    rw [expected_eq]
    refine Tendsto.add_const _ (Tendsto.mul_const _ (tendsto_finset_sum _ fun j _ => Tendsto.mul_const _ ?_))
    rw [← ideal_integral (hw j) s1 s2 s4 ax p]
    exact ((tendsto_quadrature3 (ideal_continuous (hw j) _ _ _) (ideal_le (hw j) hg _ _)).div_const _).div_const _
  -- the bound on the difference
  have bound : Tendsto (fun M : ℕ × ℕ => 1e-4 * (∑ j, |f.factor p j| * C j) *
      (r.r0 * ((quadrature M.1 fun _ => 1) * (quadrature M.1 fun _ => 1) * (quadrature M.2 fun _ => 1) / c.detxy / c.detz))) atTop
      (𝓝 (1e-4 * (∑ j, |f.factor p j| * C j) * (r.r0 * √(r.rms 3 3 * (2 * π) ^ 3 / r.rms.det)))) := by
    have e : √(r.rms 3 3 * (2 * π) ^ 3 / r.rms.det) = √(2 * π) * √(2 * π) * √(2 * π) / c.detxy / c.detz := by
      have hp := pi_pos
      rw [← e2, sqrt_eq_iff_mul_self_eq_of_pos (by positivity)]
      have q := mul_self_sqrt (show 0 ≤ 2 * π by positivity)
      have : √(2 * π) * √(2 * π) * √(2 * π) / c.detxy / c.detz * (√(2 * π) * √(2 * π) * √(2 * π) / c.detxy / c.detz) =
        (√(2 * π) * √(2 * π)) ^ 3 / (c.detxy * c.detz) ^ 2 := by
        field_simp
      rw [this, q]
      field_simp
    rw [e, ← prod_atTop_atTop_eq]
    refine Tendsto.const_mul _ (Tendsto.const_mul _ (Tendsto.div_const (Tendsto.div_const ?_ _) _))
    exact ((quadrature_one.comp tendsto_fst).mul (quadrature_one.comp tendsto_fst)).mul (quadrature_one.comp tendsto_snd)
  obtain ⟨δ, hδ, hδε⟩ : ∃ δ > 0, 1e-4 * (∑ j, |f.factor p j| * C j) * (r.r0 * √(r.rms 3 3 * (2 * π) ^ 3 / r.rms.det)) + δ < ε :=
    ⟨(ε - 1e-4 * (∑ j, |f.factor p j| * C j) * (r.r0 * √(r.rms 3 3 * (2 * π) ^ 3 / r.rms.det))) / 2, by linarith, by linarith⟩
  have ev1 : ∀ᶠ M : ℕ × ℕ in atTop, |(∑ j, quadrature3 M.1 M.2 (ideal c ax p (sqw j)) / c.detxy / c.detz * f.factor p j) * r.r0 +
      f.background p - expected ax sqw f p r| < δ / 2 := by
    have := Metric.tendsto_nhds.1 lim (δ / 2) (by linarith)
    simpa [dist_eq] using this
  have ev2 := bound.eventually (gt_mem_nhds (show _ < 1e-4 * (∑ j, |f.factor p j| * C j) * (r.r0 * √(r.rms 3 3 * (2 * π) ^ 3 / r.rms.det)) + δ / 2 by linarith))
  filter_upwards [eventually_ge_atTop (1, 1), ev1, ev2] with M hM m1 m2
  have h0 : M.1 ≠ 0 := by have := hM.1; simp only at this; omega
  have h1' : M.2 ≠ 0 := by have := hM.2; simp only at this; omega
  rw [fixAt_eq, if_neg h0, if_neg h1', mul_one, mul_one]
  have diff : |((∑ j, quadrature3 M.1 M.2 (fun x y z => term c ax p (sqw j) x y z / c.detxy / c.detz) * f.factor p j) * r.r0 + f.background p) -
      ((∑ j, quadrature3 M.1 M.2 (ideal c ax p (sqw j)) / c.detxy / c.detz * f.factor p j) * r.r0 + f.background p)| ≤
      1e-4 * (∑ j, |f.factor p j| * C j) *
      (r.r0 * ((quadrature M.1 fun _ => 1) * (quadrature M.1 fun _ => 1) * (quadrature M.2 fun _ => 1) / c.detxy / c.detz)) := by
    rw [add_sub_add_right_eq_sub, ← sub_mul, ← Finset.sum_sub_distrib, abs_mul, abs_of_pos s3]
    have each : ∀ j, |quadrature3 M.1 M.2 (fun x y z => term c ax p (sqw j) x y z / c.detxy / c.detz) * f.factor p j -
        quadrature3 M.1 M.2 (ideal c ax p (sqw j)) / c.detxy / c.detz * f.factor p j| ≤
        |f.factor p j| * C j * (1e-4 * ((quadrature M.1 fun _ => 1) * (quadrature M.1 fun _ => 1) * (quadrature M.2 fun _ => 1) / c.detxy / c.detz)) := fun j => by
      have e : quadrature3 M.1 M.2 (fun x y z => term c ax p (sqw j) x y z / c.detxy / c.detz) =
          quadrature3 M.1 M.2 (term c ax p (sqw j)) / c.detxy / c.detz := by
        unfold quadrature3 quadrature
        simp only [div_eq_mul_inv, Finset.sum_mul]
        refine Finset.sum_congr rfl fun z _ => Finset.sum_congr rfl fun y _ => Finset.sum_congr rfl fun x _ => ?_
        ring
      rw [e, ← sub_mul, ← sub_div, ← sub_div, abs_mul, abs_div, abs_div, abs_of_pos hxy, abs_of_pos hdz, mul_comm]
      rw [mul_assoc]
      refine mul_le_mul_of_nonneg_left ?_ (abs_nonneg _)
      have := quadrature3_near (M0 := M.1) (M1 := M.2) (term_near (hw j) hg ax p)
      calc _ ≤ 1e-4 * C j * ((quadrature M.1 fun _ => 1) * (quadrature M.1 fun _ => 1) * (quadrature M.2 fun _ => 1)) / c.detxy / c.detz := by
            refine div_le_div_of_nonneg_right (div_le_div_of_nonneg_right this hxy.le) hdz.le
        _ = _ := by ring
    refine (mul_le_mul_of_nonneg_right ((Finset.abs_sum_le_sum_abs _ _).trans (Finset.sum_le_sum fun j _ => each j)) s3.le).trans (le_of_eq ?_)
    rw [← Finset.sum_mul]
    ring
  have tri := abs_sub_le (((∑ j, quadrature3 M.1 M.2 (fun x y z => term c ax p (sqw j) x y z / c.detxy / c.detz) * f.factor p j) * r.r0 + f.background p))
    (((∑ j, quadrature3 M.1 M.2 (ideal c ax p (sqw j)) / c.detxy / c.detz * f.factor p j) * r.r0 + f.background p))
    (expected ax sqw f p r)
  linarith

/-- C150.  For every valid instrument with a sample that is the same seen from above and below (or without shape), two or more
points (or none) in the scattering plane that it
can reach, modes with continuous dispersion, bounded continuous intensity and continuous width (zero for sharp lines), and any prefactor and
background: the method `'fix'` succeeds for every `ACCURACY`, and when both its numbers grow, the results come closer to the
convolution with the resolution function than 1e-4 of the greatest intensities times the volume of the resolution function in
reciprocal space (its integral over the displacements at the energy that is most likely).  Missing: samples with a tilted shape
(`C150_coupled_false`), points outside the plane (the matrix is wrong there, C95), and single points (C151). -/
theorem C150_lines_partial {G : Type} {n m : ℕ} (gen : Random G) (g : G) {i : Inst} {E F : Mat} (h : Level i.setup E F) {q : Query}
    (hq : q.Len m) (hm : m ≠ 1) (hS : i.setup.settings.Valid m) (hp : Points i.setup F q) {sqw : Fin n → Vec → Mode} {C : Fin n → ℝ}
    (hw : ∀ j, Line (sqw j) (C j)) (pref : Option (Pref n)) (nargout : ℤ) {f : Pref n} (hf : prefactor pref nargout = .ok f) (seed : Option ℕ) :
    ∃ (i' : Inst) (ax : Vec × Vec × Vec) (P : Fin m → Point) (r : Fin m → Res) (v : ℕ → ℕ → Fin m → ℝ),
      calcResolution i (.list q.H) (.list q.K) (.list q.L) (.list q.W) = (i', none) ∧ i'.result = some (List.ofFn r) ∧
      standardSystem i.setup.lattice i.setup.u i.setup.v = .ok ax ∧ (hkls q.H q.K q.L).zip q.W = List.ofFn P ∧
      (∀ M0 M1, convolve gen g i sqw pref nargout (.list q.H) (.list q.K) (.list q.L) (.list q.W) .fix (.list [M0, M1]) seed =
          (i', .ok (List.ofFn (v M0 M1), g))) ∧
      ∀ k, ∀ ε > 1e-4 * (∑ j, |f.factor (P k) j| * C j) * ((r k).r0 * √((r k).rms 3 3 * (2 * π) ^ 3 / (r k).rms.det)),
        ∀ᶠ M : ℕ × ℕ in atTop, |v M.1 M.2 k - expected ax sqw f (P k) (r k)| ≤ ε := by
  obtain ⟨i', ax, P, r, c, h1, h2, h3, h4, h5, h6⟩ := convolve_fix gen g h hq hm hS hp sqw pref nargout hf seed
  refine ⟨i', ax, P, r, _, h1, h2, h3, h4, h6, fun k ε hε => ?_⟩
  obtain ⟨s1, s2, s3, s4⟩ := h5 k
  exact fixAt_near ax (P k) hw f s1 s2 s3 s4 hε

/-- A mode with a dispersion, with a width away from the centre. -/
noncomputable def wave : Vec → Mode := fun q => ⟨√(1 + q 0 ^ 2), 1 / (1 + q 1 ^ 2), q 0 ^ 2⟩

theorem wave_line : Line wave 1 := by
  have h : ∀ q : Vec, 0 < 1 + q 1 ^ 2 := fun q => by positivity
  refine ⟨by unfold wave; fun_prop, ?_, by unfold wave; fun_prop, fun q => ?_, fun q => sq_nonneg (q 0)⟩
  · unfold wave
    exact continuous_const.div (by fun_prop) fun q => (h q).ne'
  · simp only [wave]
    rw [abs_of_pos (by have := h q; positivity), div_le_one (h q)]
    nlinarith [sq_nonneg (q 1)]

/-- An instrument, two points, and a mode with a dispersion. -/
example : Level demoSetup ((2 * π) • 1) 1 ∧ twoPoints.Len 2 ∧ demoSetup.settings.Valid 2 ∧ Points demoSetup 1 twoPoints ∧ Line wave 1 ∧
    prefactor (n := 1) (some ⟨fun _ _ => 2, fun _ => 1⟩) 2 = .ok ⟨fun _ _ => 2, fun _ => 1⟩ :=
  ⟨(.of demoSetup_valid), ⟨rfl, rfl, rfl, rfl⟩, demo_valid 2, twoPoints_ok, wave_line, rfl⟩

/-! ## C151 -/

/-- What `resolution_convolution_SMA` accepts, for `m` points that the instrument can reach: the exception (or `nan`), or nothing
where there is a result. -/
def refusal (m : ℕ) (prefGiven : Bool) (nargout : ℤ) (method : Method) (acc : Accuracy) : Option Err :=
  if m = 1 then some .indexError
  else if prefGiven = false then some .typeError
  else if nargout ≠ 1 ∧ nargout ≠ 2 then some .valueError
  else match method, acc with
    | .other, _ => some .valueError
    | .fix, .none => none
    | .fix, .number _ => some .typeError
    | .fix, .list l => if l.length < 2 then some .indexError else none
    | .mc, .none => none
    | .mc, .number k => if k = 0 ∧ m ≠ 0 then some (.fail .nan) else none
    | .mc, .list l => if l.length ≠ 1 then some .valueError else if l = [0] ∧ m ≠ 0 then some (.fail .nan) else none

theorem mcAll_total {G : Type} {n : ℕ} (R : Random G) (seed : Option ℕ) (ax : Vec × Vec × Vec) (S : Fin n → Vec → Mode) (f : Pref n) {M : ℕ} (hM : M ≠ 0) :
    ∀ (l : List (Point × Res × Coeffs)) (g : G), ∃ r, mcAll R seed ax S f M l g = .ok r
  | [], g => ⟨([], g), rfl⟩
  | x :: l, g => by
    obtain ⟨y, g', hy⟩ : ∃ y g', mcAt R seed x.2.2 ax x.1 S (f.factor x.1) M g = .ok (y, g') := by
      unfold mcAt
      simp only [npDiv_ok (Nat.cast_ne_zero.2 hM : (M : ℝ) ≠ 0), ok_bind]
      exact ⟨_, _, rfl⟩
    obtain ⟨⟨l1, g1⟩, h1⟩ := mcAll_total R seed ax S f hM l g'
    unfold mcAll
    rw [hy]
    simp only [lift, ok_bind, h1]
    exact ⟨_, rfl⟩

theorem mcAll_none {G : Type} {n : ℕ} (R : Random G) (seed : Option ℕ) (ax : Vec × Vec × Vec) (S : Fin n → Vec → Mode) (f : Pref n)
    {l : List (Point × Res × Coeffs)} (g : G) (hl : l ≠ []) : mcAll R seed ax S f 0 l g = .error (.fail .nan) := by
  obtain ⟨x, l, rfl⟩ := List.exists_cons_of_ne_nil hl
  unfold mcAll
  have : mcAt R seed x.2.2 ax x.1 S (f.factor x.1) 0 g = .error .nan := by
    unfold mcAt
    simp only [blocks, zero_mul, Finset.sum_const_zero, Nat.cast_zero, npDiv, if_true]
    rfl
  rw [this]
  rfl

theorem mcAll_agrees {G : Type} {n m : ℕ} (R : Random G) (seed : Option ℕ) (ax : Vec × Vec × Vec) (S : Fin n → Vec → Mode) (f : Pref n)
    {l : List (Point × Res × Coeffs)} (hl : l.length = m) (g : G) (M : ℕ) :
    Agrees (mcAll R seed ax S f M l g) (if M = 0 ∧ m ≠ 0 then some (.fail .nan) else none) := by
  by_cases hM : M = 0
  · subst hM
    by_cases h0 : m = 0
    · rw [if_neg (fun h => h.2 h0)]
      obtain rfl := List.eq_nil_of_length_eq_zero (hl.trans h0)
      exact ⟨_, rfl⟩
    · rw [if_pos ⟨rfl, h0⟩]
      exact mcAll_none R seed ax S f g fun h => h0 (by rw [← hl, h]; rfl)
  · rw [if_neg (fun h => hM h.1)]
    exact mcAll_total R seed ax S f hM l g

/-- C151.  For every valid instrument and points in the plane that it can reach, `resolution_convolution_SMA` has the outcome of
the table, whatever the cross section, the prefactor, the seed and the state of the random numbers. -/
theorem C151_outcome {G : Type} {n m : ℕ} (gen : Random G) (g : G) {i : Inst} {E F : Mat} (h : Level i.setup E F) {q : Query}
    (hq : q.Len m) (hS : i.setup.settings.Valid m) (hp : Points i.setup F q) (sqw : Fin n → Vec → Mode) (pref : Option (Pref n)) (nargout : ℤ)
    (method : Method) (acc : Accuracy) (seed : Option ℕ) :
    Agrees (convolve gen g i sqw pref nargout (.list q.H) (.list q.K) (.list q.L) (.list q.W) method acc seed).2
      (refusal m pref.isSome nargout method acc) := by
  obtain ⟨i', rs, hc, hset, hres, hlen, hgood⟩ := calc_points h hq hS hp
  obtain ⟨x, y, z, hax, -⟩ := h.axes
  obtain ⟨cs, hcs, hall⟩ := coeffs_all fun r hr => (hgood r hr).1
  have hlc : cs.length = m := by rw [← hall.length_eq, hlen]
  have hlz : (((hkls q.H q.K q.L).zip q.W).zip (rs.zip cs)).length = m := by
    simp only [List.length_zip, Verif.Resolution.hkls_length hq.H hq.K hq.L, hq.W, hlen, hlc, min_self]
  unfold convolve
  rw [hc, Verif.Resolution.clean_query hq]
  dsimp only
  rw [hset.1, hset.2.1, hset.2.2, hax, hres]
  simp only [lift, ok_bind, Option.getD_some]
  unfold convolveAt refusal
  rw [hlen]
  by_cases hm : m = 1
  · rw [if_pos hm, if_pos hm]
    rfl
  rw [if_neg hm, if_neg hm, hcs]
  simp only [lift, ok_bind]
  cases pref with
  | none => rfl
  | some f =>
    rw [if_neg (by simp)]
    by_cases hn : nargout ≠ 1 ∧ nargout ≠ 2
    · rw [if_pos hn]
      unfold prefactor
      dsimp only
      rw [if_neg hn.2, if_neg hn.1]
      rfl
    rw [if_neg hn]
    obtain ⟨f', hf'⟩ : ∃ f', prefactor (some f) nargout = .ok f' := by
      unfold prefactor
      by_cases h2 : nargout = 2
      · exact ⟨_, if_pos h2⟩
      · have h1 : nargout = 1 := by
          by_contra h
          exact hn ⟨h, h2⟩
        exact ⟨_, (if_neg h2).trans (if_pos h1)⟩
    rw [hf', ok_bind]
    cases method with
    | other => rfl
    | fix =>
      cases acc with
      | none => exact ⟨_, rfl⟩
      | number k => rfl
      | list l =>
        match l with
        | [] => rfl
        | [_] => rfl
        | a :: b :: l =>
          dsimp only
          rw [if_neg (by simp)]
          exact ⟨_, rfl⟩
    | mc =>
      cases acc with
      | none =>
        have := mcAll_agrees gen seed (x, y, z) sqw f' hlz g 10
        simpa [blockNumber, ok_bind] using this
      | number k => exact mcAll_agrees gen seed (x, y, z) sqw f' hlz g k
      | list l =>
        match l with
        | [] => rfl
        | [k] =>
          have := mcAll_agrees gen seed (x, y, z) sqw f' hlz g k
          dsimp only
          rw [if_neg (by simp)]
          simpa [blockNumber, ok_bind] using this
        | a :: b :: l =>
          dsimp only
          rw [if_pos (by simp)]
          rfl

/-- C151, no prefactor: there is never a result without a prefactor, although `None` is accepted by `resolution_convolution`. -/
theorem C151_pref_false {G : Type} {n m : ℕ} (gen : Random G) (g : G) {i : Inst} {E F : Mat} (h : Level i.setup E F) {q : Query}
    (hq : q.Len m) (hm : m ≠ 1) (hS : i.setup.settings.Valid m) (hp : Points i.setup F q) (sqw : Fin n → Vec → Mode) (nargout : ℤ)
    (method : Method) (acc : Accuracy) (seed : Option ℕ) :
    (convolve gen g i sqw none nargout (.list q.H) (.list q.K) (.list q.L) (.list q.W) method acc seed).2 = .error .typeError := by
  simpa [refusal, hm, Agrees] using C151_outcome gen g h hq hS hp sqw none nargout method acc seed

/-- C151. A call without `ACCURACY` gives what `[7, 0]` gives for `'fix'` and what `10` gives for `'mc'`, the defaults of the
source. -/
theorem C151_default {G : Type} {n : ℕ} (gen : Random G) (g : G) (i : Inst) (sqw : Fin n → Vec → Mode) (pref : Option (Pref n)) (nargout : ℤ)
    (H K L W : Arg ℝ) (seed : Option ℕ) :
    convolve gen g i sqw pref nargout H K L W .fix .none seed = convolve gen g i sqw pref nargout H K L W .fix (.list [7, 0]) seed ∧
    convolve gen g i sqw pref nargout H K L W .mc .none seed = convolve gen g i sqw pref nargout H K L W .mc (.number 10) seed :=
  ⟨rfl, rfl⟩

end Verif.Single
