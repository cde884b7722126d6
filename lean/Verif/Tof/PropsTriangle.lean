import Verif.Tof.PropsFlight

/-!
# Property C136: the flight paths of the calculation belong to the point asked for
-/

namespace Verif.Tof

open Real Matrix
open Verif.Crystal (Fail Vec Mat Lattice deg2rad Valid getPhi)
open Verif.Tools (kinetic Closes ClosesAt)

/-- The constants of the two tables are the same. -/
structure Agree (c : Consts) : Prop where
  mass : c.mn = c.scipy.m
  planck : c.hbar = c.scipy.hbar
  charge : 1e-3 * c.e * c.scipy.J = 1

section
variable {c : Consts} {i : Inst} {Q : Vec} {W q a : ℝ} {m : Measures} {k : Kin}

/-- The momentum and energy transfer of a neutron on the nominal path. -/
theorem transfer_nominal (hc : Agree c) (hF : Facts c i W q k) (hi : m.thetaI = 0) (hj : m.phiI = 0) (hpm : m.lPm ≠ 0) (hsd : m.lSd ≠ 0)
    {f : Form} (hcos : f = .cylinder → cos k.phi ≠ 0) : transfer c f (nominal f m k) =
      ![k.ki - k.kf * (cos k.theta * cos k.phi), -k.kf * (sin k.theta * cos k.phi), -k.kf * sin k.phi, W] := by
  have hm := c.scipy.m_pos
  have hh := Verif.Energy.hbar_pos c.scipy
  have hki := hF.ki
  have hkf := hF.kf
  have hvi : 0 < k.vi := by rw [hF.vi]; positivity
  have hvf : 0 < k.vf := by rw [hF.vf]; positivity
  set x := nominal f m k with hx
  have x0 : x 0 = m.lPm / k.vi := by simp [hx, nominal]
  have x1 : x 1 = m.lMs / k.vi + path f m k / k.vf := by simp [hx, nominal]
  have x2 : x 2 = m.lPm := by simp [hx, nominal]
  have x3 : x 3 = m.lMs := by simp [hx, nominal]
  have x4 : x 4 = m.lSd := by simp [hx, nominal]
  have x5 : x 5 = 0 := by simp [hx, nominal, hi]
  have x6 : x 6 = 0 := by simp [hx, nominal, hj]
  have x7 : x 7 = k.theta := by simp [hx, nominal]
  have x8 : x 8 = k.phi := by simp [hx, nominal]
  have e1 : speedIn x = k.vi := by rw [speedIn, x0, x2]; field_simp
  have e2 : timeOut x = path f m k / k.vf := by rw [timeOut, e1, x1, x3]; ring
  have e3 : velocityOut f x = k.vf • heading k.theta k.phi := by
    unfold velocityOut
    rw [e2]
    cases f with
    | spherical =>
      simp only [pixel, path, x4, x7, x8, smul_smul]
      congr 1
      field_simp
    | cylinder =>
      have := hcos rfl
      simp only [pixel, path, x4, x7, x8, smul_smul]
      ext b
      fin_cases b <;> simp [heading, tan_eq_sin_div_cos] <;> field_simp
  have ka : c.mn / c.hbar * 1e-10 * k.vi = k.ki := by
    rw [hc.mass, hc.planck, hF.vi]
    field_simp
    norm_num
  have kb : c.mn / c.hbar * 1e-10 * k.vf = k.kf := by
    rw [hc.mass, hc.planck, hF.vf]
    field_simp
    norm_num
  have hE : energyLoss c f x = W := by
    unfold energyLoss
    rw [e1, e3, smul_dotProduct, dotProduct_smul, heading_unit]
    have h1 : k.vi ^ 2 * c.scipy.m / 2 * c.scipy.J = i.ei := by
      rw [← hF.initial, hF.vi]
      unfold kinetic
      field_simp
    have h2 : k.vf ^ 2 * c.scipy.m / 2 * c.scipy.J = i.ei - W := by
      rw [← hF.final, hF.vf]
      unfold kinetic
      field_simp
    have hJ : (1e-3 * c.e)⁻¹ = c.scipy.J := inv_eq_of_mul_eq_one_right hc.charge
    rw [div_eq_mul_inv, hJ, hc.mass, smul_eq_mul, smul_eq_mul]
    linear_combination h1 - h2
  have hM (b : Fin 3) : momentum c f x b = k.ki * heading 0 0 b - k.kf * heading k.theta k.phi b := by
    simp only [momentum, Pi.smul_apply, Pi.sub_apply, smul_eq_mul, e1, e3, x5, x6]
    linear_combination heading 0 0 b * ka - heading k.theta k.phi b * kb
  unfold transfer
  rw [hM, hM, hM, hE]
  simp [heading]

theorem cos_theta (hF : Facts c i W q k) : q ^ 2 = 2 * k.ki ^ 2 * (1 - cos k.theta) := by
  have : cos (2 * (k.theta / 2)) = 1 - 2 * sin (k.theta / 2) ^ 2 := by rw [cos_two_mul, cos_sq']; ring
  rw [mul_div_cancel₀ _ two_ne_zero] at this
  rw [hF.bragg, this]
  ring

/-- **C136** (partial) in the horizontal plane the nominal flight paths give the energy transfer asked for, and they
give the momentum transfer asked for exactly if the scattering is elastic (or the point is on a certain curve).
Missing: inelastic scattering, because the scattering angle is that of elastic scattering, see `C136_inelastic_false`;
points out of the plane, see `C136_vertical_false`. -/
theorem C136_triangle_partial (hc : Agree c) (hl : Valid i.sample.lattice) (hk : kinematics c i Q W = .ok k)
    (hq : i.sample.lattice.getQ Q = .ok q) (hcl : ClosesAt k.ki k.kf q a) (ha : a ≤ 0) (ha' : |a| ≤ π) (hphi : k.phi = 0)
    (hi : m.thetaI = 0) (hj : m.phiI = 0) (hpm : m.lPm ≠ 0) (hsd : m.lSd ≠ 0) (f : Form) :
    transfer c f (nominal f m k) 3 = W ∧
    (inAxes a (transfer c f (nominal f m k)) = ![q, 0, 0, W] ↔ W = 0 ∨ q ^ 2 = k.ki ^ 2 - k.ki * k.kf) := by
  obtain ⟨-, hq0, hF⟩ := facts hl hk hq
  have hki := hF.ki
  have hkf := hF.kf
  have hct := cos_theta hF
  have hT := transfer_nominal (f := f) hc hF hi hj hpm hsd (fun _ => by rw [hphi, cos_zero]; exact one_ne_zero)
  rw [hphi, cos_zero, sin_zero, mul_one, mul_one, mul_zero] at hT
  have htri : k.kf ^ 2 = k.ki ^ 2 + q ^ 2 - 2 * k.ki * q * cos a := by
    rw [← Verif.Tools.normSq_triangle, hcl]
  have hsa : sin a ≤ 0 := sin_nonpos_of_nonpos_of_neg_pi_le ha (by linarith [(abs_le.1 ha').1])
  have hst : 0 ≤ sin k.theta := sin_nonneg_of_nonneg_of_le_pi hF.theta0.le hF.theta1
  have hWk : W = 0 ↔ k.kf = k.ki := by
    constructor
    · intro h
      refine kinetic_inj (c := c.scipy) hkf.le hki.le ?_
      rw [hF.initial, hF.final, h, sub_zero]
    · intro h
      have h1 := hF.initial
      have h2 := hF.final
      rw [h] at h2
      linarith
  have hsc := sin_sq_add_cos_sq a
  have hsc' := sin_sq_add_cos_sq k.theta
  rw [hT, hWk]
  refine ⟨rfl, ?_⟩
  constructor
  · intro h
    have h0 : (k.ki - k.kf * cos k.theta) * cos a + -k.kf * sin k.theta * sin a = q := congrFun h 0
    have h1 : -(k.ki - k.kf * cos k.theta) * sin a + -k.kf * sin k.theta * cos a = 0 := congrFun h 1
    have hsum : (k.ki - k.kf * cos k.theta) ^ 2 + (k.kf * sin k.theta) ^ 2 = q ^ 2 := by
      have e : ((k.ki - k.kf * cos k.theta) * cos a + -k.kf * sin k.theta * sin a) ^ 2 +
          (-(k.ki - k.kf * cos k.theta) * sin a + -k.kf * sin k.theta * cos a) ^ 2 =
          ((k.ki - k.kf * cos k.theta) ^ 2 + (k.kf * sin k.theta) ^ 2) * (sin a ^ 2 + cos a ^ 2) := by ring
      rw [h0, h1, hsc] at e
      linarith
    have hfac : (k.ki - k.kf) * (q ^ 2 - (k.ki ^ 2 - k.ki * k.kf)) = 0 := by
      have : k.ki ^ 2 + k.kf ^ 2 - 2 * k.ki * k.kf * cos k.theta = q ^ 2 := by
        linear_combination hsum - k.kf ^ 2 * hsc'
      linear_combination -k.ki * this - k.kf * hct
    rcases mul_eq_zero.1 hfac with h | h
    · exact Or.inl (by linarith)
    · exact Or.inr (by linarith)
  · intro h
    have hx : k.ki - k.kf * cos k.theta = q * cos a := by
      refine mul_left_cancel₀ (by positivity : 2 * k.ki ≠ 0) ?_
      rcases h with h | h
      · rw [h] at htri ⊢
        linear_combination -htri - hct
      · have hc2 : 2 * k.ki * cos k.theta = k.ki + k.kf := by
          refine mul_left_cancel₀ hki.ne' ?_
          linear_combination hct - h
        linear_combination -htri - h - k.kf * hc2
    have hy : k.kf * sin k.theta = -(q * sin a) := by
      refine (sq_eq_sq₀ (by positivity) (by nlinarith)).1 ?_
      have : k.kf * cos k.theta = k.ki - q * cos a := by linarith
      linear_combination htri + k.kf ^ 2 * hsc' - (k.kf * cos k.theta + (k.ki - q * cos a)) * this - q ^ 2 * hsc
    ext b
    fin_cases b
    · change (k.ki - k.kf * cos k.theta) * cos a + -k.kf * sin k.theta * sin a = q
      rw [hx]
      linear_combination q * hsc - sin a * hy
    · change -(k.ki - k.kf * cos k.theta) * sin a + -k.kf * sin k.theta * cos a = 0
      rw [hx]
      linear_combination -cos a * hy
    · rfl
    · rfl

/-- **C136** is false for inelastic scattering: for the example, the nominal flight paths belong to another momentum
transfer. -/
theorem C136_inelastic_false (hc : Agree c) : ∃ i Q W r0 RM, calcInQ c i Q W = .ok (r0, RM) ∧
    ∀ lam m k q a, (Verif.Energy.derive c.scipy i.ei).wavelen = .num lam → decode i lam = .ok m → kinematics c i Q W = .ok k →
      i.sample.lattice.getQ Q = .ok q → ClosesAt k.ki k.kf q a → a ≤ 0 → |a| ≤ π →
      k.phi = 0 ∧ inAxes a (transfer c .spherical (nominal .spherical m k)) ≠ ![q, 0, 0, W] := by
  obtain ⟨-, ⟨r0, RM, h⟩, -⟩ := bench_points c spherical_form none
  refine ⟨_, _, _, r0, RM, h, fun lam m k q a hlam hm hk hq hcl ha ha' => ?_⟩
  have hQ : (![1, 0, 0] : Vec) ≠ 0 := fun h => by simpa using congrFun h 0
  have hp := pi_pos
  have hphi : k.phi = 0 := by
    obtain ⟨ph, p1, p2⟩ := kinematics_phi hk
    have p1' : getPhi benchSample.lattice benchSample.u benchSample.v ![1, 0, 0] = .ok ph := p1
    rw [getPhi_bench hQ] at p1'
    have e := Except.ok.inj p1'
    rw [p2, ← e]
    unfold deg2rad
    simp
  refine ⟨hphi, fun hcon => ?_⟩
  obtain ⟨m', hm', e1, e2, -, -, -, e6, -, e8, -⟩ := decode_bench c cs!"spherical" {} lam
  have hm2 : decode (bench c cs!"spherical" {}) lam = .ok m := hm
  rw [hm'] at hm2
  cases hm2
  obtain ⟨-, -, hF⟩ := facts bench_valid hk hq
  have hki : k.ki = 1 := kinetic_inj hF.ki.le zero_le_one (c := c.scipy) hF.initial
  have hkf : k.kf = 1 / 2 := by
    refine kinetic_inj hF.kf.le (by norm_num) (c := c.scipy) ?_
    rw [hF.final]
    change kinetic c.scipy 1 - (kinetic c.scipy 1 - kinetic c.scipy (1 / 2)) = _
    ring
  have hq1 : q = 1 := by
    have hq' : benchSample.lattice.getQ ![1, 0, 0] = .ok q := hq
    rw [getQ_bench hQ] at hq'
    have := Except.ok.inj hq'
    simpa using this.symm
  rcases (C136_triangle_partial hc bench_valid hk hq hcl ha ha' hphi e1 e2 (by rw [e6]; norm_num) (by rw [e8]; norm_num) .spherical).2.1 hcon with
    h | h
  · have := hF.final
    rw [h, hkf, sub_zero, ← hF.initial, hki, Verif.Tools.kinetic_eq] at this
    have := Verif.Tools.kinetic_one_pos c.scipy
    linarith
  · rw [hq1, hki, hkf] at h
    norm_num at h

/-- **C136** is false out of the plane, whatever the point: the vertical momentum transfer of the nominal flight path
has the opposite sign, and its size is not that of the scattering vector either unless `kf` is `q`. -/
theorem C136_vertical (hc : Agree c) (hl : Valid i.sample.lattice) (hk : kinematics c i Q W = .ok k)
    (hq : i.sample.lattice.getQ Q = .ok q) {ph : ℝ} (hph : getPhi i.sample.lattice i.sample.u i.sample.v Q = .ok ph) (hne : ph ≠ 90)
    (hi : m.thetaI = 0) (hj : m.phiI = 0) (hpm : m.lPm ≠ 0) (hsd : m.lSd ≠ 0) {f : Form} (hcos : f = .cylinder → cos k.phi ≠ 0) :
    transfer c f (nominal f m k) 2 = -k.kf * cos (deg2rad ph) ∧ transfer c f (nominal f m k) 2 ≠ q * cos (deg2rad ph) ∧
    (k.kf ≠ q → |transfer c f (nominal f m k) 2| ≠ |q * cos (deg2rad ph)|) := by
  obtain ⟨hQ, hq0, hF⟩ := facts hl hk hq
  have hkf := hF.kf
  obtain ⟨ph', p1, p2⟩ := kinematics_phi hk
  rw [hph] at p1
  cases p1
  rw [transfer_nominal hc hF hi hj hpm hsd hcos]
  change -k.kf * sin k.phi = _ ∧ -k.kf * sin k.phi ≠ _ ∧ (k.kf ≠ q → |-k.kf * sin k.phi| ≠ _)
  rw [p2, sin_pi_div_two_sub]
  have hp := pi_pos
  have hcos0 : cos (deg2rad ph) ≠ 0 := by
    obtain ⟨h1, h2⟩ := phi_range hl hQ hph
    intro h0
    have hb : deg2rad ph = π / 2 := by
      refine injOn_cos ⟨?_, ?_⟩ ⟨by positivity, by linarith⟩ (by rw [h0, cos_pi_div_two])
      · unfold deg2rad; positivity
      · unfold deg2rad
        rw [div_le_iff₀ (by norm_num)]
        nlinarith
    apply hne
    unfold deg2rad at hb
    field_simp at hb
    linarith
  refine ⟨rfl, fun h => ?_, fun hn h => ?_⟩
  · have := mul_right_cancel₀ hcos0 h
    linarith
  · rw [abs_mul, abs_mul, abs_neg, abs_of_pos hkf, abs_of_pos hq0] at h
    exact hn (mul_right_cancel₀ (abs_pos.2 hcos0).ne' h)

/-- **C136** is false: a point out of the plane. -/
theorem C136_vertical_false (hc : Agree c) : ∃ i Q W r0 RM, calcInQ c i Q W = .ok (r0, RM) ∧
    ∀ lam m k q ph, (Verif.Energy.derive c.scipy i.ei).wavelen = .num lam → decode i lam = .ok m → kinematics c i Q W = .ok k →
      i.sample.lattice.getQ Q = .ok q → getPhi i.sample.lattice i.sample.u i.sample.v Q = .ok ph →
      |transfer c .spherical (nominal .spherical m k) 2| ≠ |q * cos (deg2rad ph)| := by
  obtain ⟨-, -, r0, RM, h⟩ := bench_points c spherical_form none
  refine ⟨_, _, _, r0, RM, h, fun lam m k q ph hlam hm hk hq hph => ?_⟩
  have hQ : (![1, 0, 1] : Vec) ≠ 0 := fun h => by simpa using congrFun h 0
  obtain ⟨m', hm', e1, e2, -, -, -, e6, -, e8, -⟩ := decode_bench c cs!"spherical" {} lam
  have hm2 : decode (bench c cs!"spherical" {}) lam = .ok m := hm
  rw [hm'] at hm2
  cases hm2
  obtain ⟨-, -, hF⟩ := facts bench_valid hk hq
  have hkf : k.kf = 1 := by
    refine kinetic_inj hF.kf.le zero_le_one (c := c.scipy) ?_
    rw [hF.final, sub_zero]
    rfl
  have hq2 : q = √2 := by
    have hq' : benchSample.lattice.getQ ![1, 0, 1] = .ok q := hq
    rw [getQ_bench hQ] at hq'
    have := Except.ok.inj hq'
    rw [← this]
    simp
    norm_num
  have hp := pi_pos
  have hne : ph ≠ 90 := by
    rintro rfl
    have p1' : getPhi benchSample.lattice benchSample.u benchSample.v ![1, 0, 1] = .ok 90 := hph
    rw [getPhi_bench hQ] at p1'
    have e := Except.ok.inj p1'
    have e' : arccos ((![1, 0, 1] : Vec) 2 / √((![1, 0, 1] : Vec) 0 ^ 2 + (![1, 0, 1] : Vec) 1 ^ 2 + (![1, 0, 1] : Vec) 2 ^ 2)) = π / 2 := by
      field_simp at e
      linarith
    rw [arccos_eq_pi_div_two] at e'
    simp at e'
  refine (C136_vertical hc bench_valid hk hq hph hne e1 e2 (by rw [e6]; norm_num) (by rw [e8]; norm_num) (f := .spherical) (fun h => by cases h)).2.2 ?_
  rw [hkf, hq2]
  intro h
  have := sq_sqrt (by norm_num : (0 : ℝ) ≤ 2)
  rw [← h] at this
  norm_num at this

end

end Verif.Tof
