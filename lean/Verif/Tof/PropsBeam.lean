import Verif.Tof.Bench

/-! # Property C137: beams that are not along the axis -/

namespace Verif.Tof

open Real Matrix
open Verif.Crystal (Fail Vec Mat Lattice deg2rad Valid getPhi)
open Verif.Tools (kinetic Closes)
open Verif.Resolution (posDef_iff_spd)

section

variable {c : Consts} {i : Inst} {Q : Vec} {W : ℝ}

theorem speeds {k : Kin} {q : ℝ} (hF : Facts c i W q k) : 0 < k.vi ∧ 0 < k.vf ∧ (k.vi = k.vf ↔ W = 0) := by
  have h1 := c.scipy.m_pos
  have h2 := Verif.Energy.hbar_pos c.scipy
  have h3 := hF.ki
  have h4 := hF.kf
  refine ⟨by rw [hF.vi]; positivity, by rw [hF.vf]; positivity, fun h => ?_, fun h => ?_⟩
  · have e : k.ki = k.kf := by
      rw [hF.vi, hF.vf] at h
      have : c.scipy.hbar / c.scipy.m * 1e10 ≠ 0 := by positivity
      refine mul_left_cancel₀ this ?_
      linear_combination h
    have := hF.final
    rw [← e, hF.initial] at this
    linarith
  · have e : kinetic c.scipy k.ki = kinetic c.scipy k.kf := by rw [hF.initial, hF.final, h, sub_zero]
    have : k.ki = k.kf := le_antisymm ((kinetic_mono h3.le h4.le).1 e.le) ((kinetic_mono h4.le h3.le).1 e.ge)
    rw [hF.vi, hF.vf, this]

/-- A vector without components across the beam is along it. -/
theorem along_beam {t p x y z : ℝ} (h5 : -x * sin t + y * cos t = 0)
    (h6 : -(x * cos t + y * sin t) * sin p + z * cos p = 0) :
    ∃ s, x = s * (cos t * cos p) ∧ y = s * (sin t * cos p) ∧ z = s * sin p := by
  have e1 := sin_sq_add_cos_sq t
  have e2 := sin_sq_add_cos_sq p
  refine ⟨(x * cos t + y * sin t) * cos p + z * sin p, ?_, ?_, ?_⟩
  · linear_combination (-x) * e1 + (-(x * cos t + y * sin t) * cos t) * e2 - sin t * h5 + (-sin p * cos t) * h6
  · linear_combination (-y) * e1 + (-(x * cos t + y * sin t) * sin t) * e2 + cos t * h5 + (-sin p * sin t) * h6
  · linear_combination (-z) * e2 + cos p * h6

/-- The columns of the Jacobi matrix leave no direction free, wherever the beam comes from. -/
theorem full_rank_beam {f : Form} {m : Measures} {k : Kin} {q : ℝ} (hF : Facts c i W q k) (hci : 0 < cos m.phiI) (hcp : cos k.phi ≠ 0)
    (hpm : m.lPm ≠ 0) (hsd : m.lSd ≠ 0) (hM : m.tauM ≠ 0) (h5 : m.sThetaI ≠ 0) (h6 : m.sPhiI ≠ 0) (h7 : m.sTheta ≠ 0) (h8 : m.sPhi ≠ 0)
    (hb : W = 0 → cos (k.theta - m.thetaI) ≠ 1)
    (v : Fin 4 → ℝ) (hv : ∀ j, sigmas m j * (v ᵥ* jacobi c f m k (m.lPm / k.vi) (m.lSd / k.vf)) j = 0) : v = 0 := by
  have hm := c.mn_pos
  have hh := c.hbar_pos
  have he := c.e_pos
  obtain ⟨hvi, hvf, hW⟩ := speeds hF
  have hcp : 0 < cos k.phi := lt_of_le_of_ne (cos_nonneg_of_neg_pi_div_two_le_of_le hF.phi0 hF.phi1) hcp.symm
  have n0 : sigmas m 0 ≠ 0 := (sqrt_pos.2 (by positivity)).ne'
  have n1 : sigmas m 1 ≠ 0 := (sqrt_pos.2 (by positivity)).ne'
  have z0 := (mul_eq_zero.1 (hv 0)).resolve_left n0
  have z1 := (mul_eq_zero.1 (hv 1)).resolve_left n1
  have z5 := (mul_eq_zero.1 (hv 5)).resolve_left h5
  have z6 := (mul_eq_zero.1 (hv 6)).resolve_left h6
  have z7 := (mul_eq_zero.1 (hv 7)).resolve_left h7
  have z8 := (mul_eq_zero.1 (hv 8)).resolve_left h8
  simp only [vecMul, dotProduct, Fin.sum_univ_four, jacobi, qDerivs, eDerivs, matRttI, matRphI, mulVec, Fin.sum_univ_two,
    Matrix.of_apply, cons_val_zero, cons_val_one, cons_val, mul_zero, add_zero] at z0 z1 z5 z6 z7 z8
  have hkap : c.mn / c.hbar * 1e-10 ≠ 0 := by positivity
  have hdel : c.mn / (1e-3 * c.e) ≠ 0 := by positivity
  have w5 : -v 0 * sin m.thetaI + v 1 * cos m.thetaI = 0 := by
    have : k.vi * c.mn / c.hbar * 1e-10 * cos m.phiI ≠ 0 := by positivity
    refine mul_right_cancel₀ this ?_
    linear_combination z5
  have w6 : -(v 0 * cos m.thetaI + v 1 * sin m.thetaI) * sin m.phiI + v 2 * cos m.phiI = 0 := by
    have : k.vi * c.mn / c.hbar * 1e-10 ≠ 0 := by positivity
    refine mul_right_cancel₀ this ?_
    linear_combination z6
  obtain ⟨s, s0, s1, s2⟩ := along_beam w5 w6
  have first : matR f m k 0 0 = cos m.thetaI * cos m.phiI ∧ matR f m k 1 0 = sin m.thetaI * cos m.phiI ∧ matR f m k 2 0 = sin m.phiI := by
    cases f <;> simp [matR]
  rw [first.1, first.2.1, first.2.2, s0, s1, s2] at z0
  rw [s0, s1, s2] at z1
  have unit : (cos m.thetaI * cos m.phiI) ^ 2 + (sin m.thetaI * cos m.phiI) ^ 2 + sin m.phiI ^ 2 = 1 := by
    have e1 := sin_sq_add_cos_sq m.thetaI
    have e2 := sin_sq_add_cos_sq m.phiI
    linear_combination cos m.phiI ^ 2 * e1 + e2
  obtain ⟨D, hD⟩ : ∃ D, D = -(cos m.thetaI * cos m.phiI * matR f m k 0 1 + sin m.thetaI * cos m.phiI * matR f m k 1 1 +
    sin m.phiI * matR f m k 2 1) := ⟨_, rfl⟩
  have A : c.mn / c.hbar * 1e-10 * s * (-D) = c.mn / (1e-3 * c.e) * v 3 * k.vf := by
    have : k.vf ^ 2 / m.lSd ≠ 0 := div_ne_zero (by positivity) hsd
    refine mul_left_cancel₀ this ?_
    rw [hD]
    linear_combination (norm := skip) -z1
    field_simp
    ring
  have B : c.mn / c.hbar * 1e-10 * s = -(c.mn / (1e-3 * c.e)) * v 3 * k.vi := by
    have : k.vi ^ 2 / m.lPm ≠ 0 := div_ne_zero (by positivity) hpm
    refine mul_left_cancel₀ this ?_
    have e : k.vf / (m.lSd / k.vf) * m.lMs / m.lPm * (c.mn / c.hbar * 1e-10 * s * (-D)) =
        k.vf / (m.lSd / k.vf) * m.lMs / m.lPm * (c.mn / (1e-3 * c.e) * v 3 * k.vf) := by rw [A]
    rw [hD] at e
    have e' : k.vi ^ 2 / m.lPm * (c.mn / c.hbar * 1e-10 * s) = k.vi ^ 2 / m.lPm * (c.mn / c.hbar * 1e-10 * s) *
      ((cos m.thetaI * cos m.phiI) ^ 2 + (sin m.thetaI * cos m.phiI) ^ 2 + sin m.phiI ^ 2) := by rw [unit, mul_one]
    rw [e']
    linear_combination (norm := skip) -z0 + e
    field_simp
    ring
  have s3 : v 3 = 0 ∧ s = 0 := by
    by_cases h3 : v 3 = 0
    · refine ⟨h3, mul_left_cancel₀ hkap ?_⟩
      rw [B, h3]
      ring
    exfalso
    have h0 : s ≠ 0 := by
      intro h0
      rw [h0, mul_zero] at B
      have := mul_ne_zero (mul_ne_zero hdel h3) hvi.ne'
      exact this (by linarith)
    have hcg : k.vi * D = k.vf := by
      refine mul_left_cancel₀ (mul_ne_zero hdel h3) ?_
      rw [B] at A
      linear_combination A
    have hpos : 0 < D := pos_of_mul_pos_right (by rw [hcg]; exact hvf) hvi.le
    have one : D = 1 → cos (k.theta - m.thetaI) ≠ 1 := fun h1 => hb (hW.1 (by rw [← hcg, h1, mul_one]))
    have hs : sin (k.theta - m.thetaI) = 0 := by
      have hs : s * cos m.phiI * (k.vf * c.mn / c.hbar * 1e-10) * sin (k.theta - m.thetaI) = 0 := by
        rw [sin_sub]
        rw [s0, s1, s2] at z7
        cases f with
        | spherical =>
          simp only [matRtt, of_apply, cons_val_zero, cons_val_one, cons_val] at z7
          refine mul_right_cancel₀ hcp.ne' ?_
          linear_combination z7
        | cylinder =>
          simp only [matRtt, of_apply, cons_val_zero, cons_val_one, cons_val] at z7
          linear_combination z7
      refine (mul_eq_zero.1 hs).resolve_left ?_
      refine mul_ne_zero (mul_ne_zero h0 hci.ne') ?_
      positivity
    have hc : cos (k.theta - m.thetaI) = 1 ∨ cos (k.theta - m.thetaI) = -1 := by
      have := sin_sq_add_cos_sq (k.theta - m.thetaI)
      rw [hs] at this
      exact mul_self_eq_one_iff.1 (by linarith)
    rw [s0, s1, s2] at z8
    cases f with
    | spherical =>
      have hD : D = cos m.phiI * cos k.phi * cos (k.theta - m.thetaI) + sin m.phiI * sin k.phi := by
        rw [hD, cos_sub]
        simp only [matR, of_apply, cons_val_zero, cons_val_one, cons_val]
        ring
      have w8 : cos m.phiI * sin k.phi * cos (k.theta - m.thetaI) - sin m.phiI * cos k.phi = 0 := by
        have : s * (k.vf * c.mn / c.hbar * 1e-10) ≠ 0 := mul_ne_zero h0 (by positivity)
        refine mul_left_cancel₀ this ?_
        simp only [matRph, of_apply, cons_val_zero, cons_val_one, cons_val] at z8
        rw [cos_sub]
        linear_combination z8
      have hD1 : D ^ 2 = 1 := by
        have e1 := sin_sq_add_cos_sq m.phiI
        have e2 := sin_sq_add_cos_sq k.phi
        have e3 : cos (k.theta - m.thetaI) ^ 2 = 1 := by rcases hc with h | h <;> rw [h] <;> norm_num
        have : D ^ 2 + (cos m.phiI * sin k.phi * cos (k.theta - m.thetaI) - sin m.phiI * cos k.phi) ^ 2 = 1 := by
          rw [hD]
          linear_combination e1 + (cos m.phiI ^ 2 * cos (k.theta - m.thetaI) ^ 2 + sin m.phiI ^ 2) * e2 + cos m.phiI ^ 2 * e3
        rw [w8] at this
        linarith
      have hD1 : D = 1 := (mul_self_eq_one_iff.1 (by linarith)).resolve_right (by linarith)
      have hc := hc.resolve_left (one hD1)
      rw [hc] at hD w8
      have := mul_pos hci hcp
      have e1 := sin_sq_add_cos_sq m.phiI
      have e2 := sin_sq_add_cos_sq k.phi
      have e3 : (cos m.phiI + cos k.phi) ^ 2 + (sin m.phiI - sin k.phi) ^ 2 = 0 := by linear_combination e1 + e2 - 2 * hD1 + 2 * hD
      have e4 : 0 < (cos m.phiI + cos k.phi) ^ 2 := by positivity
      linarith [sq_nonneg (sin m.phiI - sin k.phi)]
    | cylinder =>
      have w8 : sin m.phiI = 0 := by
        have h1 : 0 < 1 + tan k.phi ^ 2 := by positivity
        have : s * (k.vf * c.mn / c.hbar * 1e-10) * (1 + tan k.phi ^ 2) ≠ 0 := mul_ne_zero (mul_ne_zero h0 (by positivity)) h1.ne'
        refine mul_left_cancel₀ this ?_
        simp only [matRph, of_apply, cons_val_zero, cons_val_one, cons_val] at z8
        linear_combination -z8
      have hc1 : cos m.phiI = 1 := by
        have := sin_sq_add_cos_sq m.phiI
        rw [w8] at this
        exact (mul_self_eq_one_iff.1 (by linarith)).resolve_right (by linarith)
      have hD : D = cos (k.theta - m.thetaI) := by
        rw [hD, cos_sub, w8, hc1]
        simp only [matR, of_apply, cons_val_zero, cons_val_one, cons_val]
        ring
      rcases hc with h | h
      · exact one (hD.trans h) h
      · rw [hD, h] at hpos
        norm_num at hpos
  ext b
  fin_cases b
  · exact s0.trans (by rw [s3.2, zero_mul]; rfl)
  · exact s1.trans (by rw [s3.2, zero_mul]; rfl)
  · exact s2.trans (by rw [s3.2, zero_mul]; rfl)
  · exact s3.1

theorem decode_beam {lam : ℝ} {m : Measures} (h : decode i lam = .ok m) : m.thetaI = deg2rad i.thetaI ∧ m.phiI = deg2rad i.phiI := by
  unfold decode at h
  obtain ⟨_, -, h⟩ := bind_eq_ok.1 h
  obtain ⟨_, -, h⟩ := bind_eq_ok.1 h
  obtain ⟨_, -, h⟩ := bind_eq_ok.1 h
  obtain ⟨_, -, h⟩ := bind_eq_ok.1 h
  obtain ⟨_, -, h⟩ := bind_eq_ok.1 h
  obtain ⟨_, -, h⟩ := bind_eq_ok.1 h
  obtain ⟨_, -, h⟩ := bind_eq_ok.1 h
  obtain ⟨_, -, h⟩ := bind_eq_ok.1 h
  obtain ⟨_, -, h⟩ := bind_eq_ok.1 h
  cases h
  exact ⟨rfl, rfl⟩

/-- The angles of the beam are only taken over. -/
theorem decode_turn {lam : ℝ} {m : Measures} (h : decode i lam = .ok m) (t p : ℝ) :
    decode { i with thetaI := t, phiI := p } lam = .ok { m with thetaI := deg2rad t, phiI := deg2rad p } := by
  unfold decode at h ⊢
  dsimp only
  obtain ⟨_, e1, h⟩ := bind_eq_ok.1 h
  obtain ⟨_, e2, h⟩ := bind_eq_ok.1 h
  obtain ⟨_, e3, h⟩ := bind_eq_ok.1 h
  obtain ⟨_, e4, h⟩ := bind_eq_ok.1 h
  obtain ⟨_, e5, h⟩ := bind_eq_ok.1 h
  obtain ⟨_, e6, h⟩ := bind_eq_ok.1 h
  obtain ⟨_, e7, h⟩ := bind_eq_ok.1 h
  obtain ⟨_, e8, h⟩ := bind_eq_ok.1 h
  obtain ⟨_, e9, h⟩ := bind_eq_ok.1 h
  cases h
  simp only [e1, e2, e3, e4, e5, e6, e7, e8, e9, ok_bind]
  rfl

/-- The scattering angle of a kinematics. -/
theorem theta_eq {k : Kin} {q : ℝ} (hF : Facts c i W q k) : k.theta = 2 * arcsin (q / (2 * k.ki)) := by
  have h := hF.ki
  have e : q / (2 * k.ki) = sin (k.theta / 2) := by
    rw [hF.bragg]
    field_simp
  rw [e, arcsin_sin (by linarith [hF.theta0, pi_pos]) (by linarith [hF.theta1])]
  ring

/-- **C137** (partial: neutrons that lose no energy or some) wherever the beam comes from, the matrix exists for every point
that is not straight above or below and whose triangle closes, unless the scattering is elastic and the angle of the beam that
of the detector.  Missing: energy gain, see `C137_gain_false`, and the beam in the direction of the detector, see
`C137_beam_false`. -/
theorem C137_exists_beam_partial {lam q ki kf : ℝ} {m : Measures} {f : Form} (hl : Valid i.sample.lattice) (hQ : Q ≠ 0)
    (hn : crossProduct i.sample.u i.sample.v ≠ 0) (hlam : (Verif.Energy.derive c.scipy i.ei).wavelen = .num lam)
    (hm : decode i lam = .ok m) (hf : formOf i.detector = .ok f) (hq : i.sample.lattice.getQ Q = .ok q)
    (hW : 0 ≤ W) (hki : 0 < ki) (hkf : 0 < kf) (hini : kinetic c.scipy ki = i.ei) (hfin : kinetic c.scipy kf = i.ei - W)
    (hcl : Closes ki kf q) (hj : 0 < cos m.phiI) (hpm : m.lPm ≠ 0) (hsd : m.lSd ≠ 0) (hM : m.tauM ≠ 0)
    (h5 : m.sThetaI ≠ 0) (h6 : m.sPhiI ≠ 0) (h7 : m.sTheta ≠ 0) (h8 : m.sPhi ≠ 0)
    (hb : W = 0 → cos (2 * arcsin (q / (2 * ki)) - m.thetaI) ≠ 1)
    (hc : ∀ ph, Verif.Crystal.getPhi i.sample.lattice i.sample.u i.sample.v Q = .ok ph → ph ≠ 0 ∧ ph ≠ 180) :
    ∃ r0 RM, calcInQ c i Q W = .ok (r0, RM) := by
  have hq0 : 0 < q := by
    obtain ⟨E, F, hE, hF⟩ := Verif.Crystal.valid_realised hl
    obtain ⟨d, -, d2, d3, d4⟩ := Verif.Crystal.C41_spacing hl hE hF hQ
    rw [hq] at d3
    rw [← Except.ok.inj d3] at d4
    have := pi_pos
    have : 0 < q * d := by rw [d4]; positivity
    exact pos_of_mul_pos_left this d2.le
  have hle : kf ≤ ki := (kinetic_mono (c := c.scipy) hkf.le hki.le).1 (by linarith)
  have hq2 : q ≤ 2 * ki := by
    obtain ⟨u, v, rfl, rfl, rfl⟩ := hcl
    linarith [norm_sub_le u v]
  obtain ⟨k, hk, rfl, rfl⟩ := kinematics_of hl hQ hn hq hW hki hkf hini hfin hq2
  obtain ⟨-, -, hF⟩ := facts hl hk hq
  obtain ⟨a, ha⟩ := (Verif.Tools.C57_error_partial hki hkf.le hq0 (g := -1) false).1 hcl
  obtain ⟨hvi, hvf, -⟩ := speeds hF
  have hcos : cos k.phi ≠ 0 := by
    obtain ⟨ph, hph, hphi⟩ := kinematics_phi hk
    obtain ⟨c1, c2⟩ := hc ph hph
    obtain ⟨c3, c4⟩ := phi_range hl hQ hph
    rw [hphi, cos_pi_div_two_sub]
    have hp := pi_pos
    refine (sin_pos_of_pos_of_lt_pi ?_ ?_).ne'
    · have : 0 < ph := lt_of_le_of_ne c3 c1.symm
      unfold deg2rad
      positivity
    · have : ph < 180 := lt_of_le_of_ne c4 c2
      unfold deg2rad
      rw [div_lt_iff₀ (by norm_num)]
      nlinarith
  have hdef := covariance_posDef (full_rank_beam (f := f) hF hj hcos hpm hsd hM h5 h6 h7 h8 (by rw [theta_eq hF]; exact hb))
  have hspd := (posDef_iff_spd _).1 (turned_posDef hdef a)
  refine calcInQ_of hlam hm hk hf hvi.ne' hvf.ne' hpm hsd (fun _ => hcos) hdef.det_pos.ne' hq ha (hspd.pos _ ?_).ne'
  by_contra hz
  push Not at hz
  refine hQ (funext fun b => ?_)
  fin_cases b
  · exact hz 0
  · exact hz 1
  · exact hz 2

/-- The momentum along the beam together with the energy that goes with it. -/
theorem free_direction {f : Form} {m : Measures} {k : Kin} (hvi : 0 < k.vi) (hv : k.vi = k.vf) (ht : m.thetaI = k.theta)
    (hj : m.phiI = 0) (hp : k.phi = 0) (hpm : m.lPm ≠ 0) (hsd : m.lSd ≠ 0) (j : Fin 9) :
    (![cos k.theta, sin k.theta, 0, -(c.mn / c.hbar * 1e-10) / (c.mn / (1e-3 * c.e) * k.vi)] ᵥ*
      jacobi c f m k (m.lPm / k.vi) (m.lSd / k.vf)) j = 0 := by
  have hm := c.mn_pos
  have hh := c.hbar_pos
  have he := c.e_pos
  have e := sin_sq_add_cos_sq k.theta
  have r : matR f m k = !![cos k.theta, -cos k.theta; sin k.theta, -sin k.theta; 0, 0] := by cases f <;> simp [matR, ht, hj, hp]
  have rt : matRtt f k = !![0, sin k.theta; 0, -cos k.theta; 0, 0] := by cases f <;> simp [matRtt, hp]
  have rp : matRph f k = !![0, 0; 0, 0; 0, -1] := by cases f <;> simp [matRph, hp]
  have ri : matRttI m = !![-sin k.theta, 0; cos k.theta, 0; 0, 0] := by simp [matRttI, ht, hj]
  have rj : matRphI m = !![0, 0; 0, 0; 1, 0] := by simp [matRphI, hj]
  have tail (x y : ℝ) : cos k.theta * ((cos k.theta * x + -cos k.theta * y) * 1e-10) +
      sin k.theta * ((sin k.theta * x + -sin k.theta * y) * 1e-10) = (x - y) * 1e-10 := by
    linear_combination (x - y) * 1e-10 * e
  have tail' (y : ℝ) : cos k.theta * ((0 + -cos k.theta * y) * 1e-10) + sin k.theta * ((0 + -sin k.theta * y) * 1e-10) = -y * 1e-10 := by
    linear_combination -y * 1e-10 * e
  fin_cases j <;>
    simp only [vecMul, dotProduct, Fin.sum_univ_four, jacobi, qDerivs, eDerivs, r, rt, rp, ri, rj, mulVec, Fin.sum_univ_two, of_apply,
      cons_val_zero, cons_val_one, cons_val, Fin.zero_eta, Fin.mk_one, Fin.reduceFinMk, zero_mul, mul_zero, add_zero, tail, tail', ← hv] <;>
    first | done | ring1 | (field_simp; ring1)

/-- **C137** is false for a beam in the direction of the detector: where the scattering is elastic, in the plane, and the angle of the
beam that of the detector, no matrix is calculated, whatever the uncertainties are. -/
theorem C137_beam_false {q ki : ℝ} (hl : Valid i.sample.lattice) (hq : i.sample.lattice.getQ Q = .ok q) (hki : 0 < ki)
    (hini : kinetic c.scipy ki = i.ei) (hph : getPhi i.sample.lattice i.sample.u i.sample.v Q = .ok 90) (hj : i.phiI = 0)
    (ht : deg2rad i.thetaI = 2 * arcsin (q / (2 * ki))) : ∃ e, calcInQ c i Q 0 = .error e := by
  cases h : calcInQ c i Q 0 with
  | error e => exact ⟨e, rfl⟩
  | ok r =>
    exfalso
    obtain ⟨m, k, f, q', a, st⟩ := steps (r0 := r.1) (RM := r.2) h
    have := st.len
    rw [hq] at this
    cases this
    obtain ⟨-, -, hF⟩ := facts hl st.kin hq
    obtain ⟨hvi, -, hW⟩ := speeds hF
    have e : k.ki = ki := by
      have e : kinetic c.scipy k.ki = kinetic c.scipy ki := hF.initial.trans hini.symm
      exact le_antisymm ((kinetic_mono hF.ki.le hki.le).1 e.le) ((kinetic_mono hki.le hF.ki.le).1 e.ge)
    obtain ⟨ph, hph', hphi⟩ := kinematics_phi st.kin
    rw [hph] at hph'
    cases hph'
    obtain ⟨lam, -, hm⟩ := st.dec
    obtain ⟨e1, e2⟩ := decode_beam hm
    have hp : k.phi = 0 := by
      rw [hphi]
      unfold deg2rad
      ring
    have z := free_direction (c := c) (f := f) hvi (hW.2 rfl) (by rw [e1, ht, theta_eq hF, e]) (by rw [e2, hj]; simp [deg2rad]) hp st.pm st.sd
    have hpd := covariance_posDef_of_det st.det
    have key := hpd.dotProduct_mulVec_pos (x := ![cos k.theta, sin k.theta, 0, -(c.mn / c.hbar * 1e-10) / (c.mn / (1e-3 * c.e) * k.vi)]) (by
      intro h0
      have h3 : -(c.mn / c.hbar * 1e-10) / (c.mn / (1e-3 * c.e) * k.vi) = 0 := congrFun h0 3
      have hm := c.mn_pos
      have hh := c.hbar_pos
      have he := c.e_pos
      have : 0 < c.mn / c.hbar * 1e-10 / (c.mn / (1e-3 * c.e) * k.vi) := by positivity
      rw [neg_div] at h3
      linarith)
    rw [star_trivial, covariance_quad] at key
    simp only [z, mul_zero] at key
    norm_num at key

end

theorem getPhi_ahead : getPhi benchSample.lattice benchSample.u benchSample.v ![1, 0, 0] = .ok 90 := by
  have hp := pi_pos.ne'
  rw [getPhi_bench fun h => by simpa using congrFun h 0]
  simp only [cons_val_zero, cons_val, zero_div, arccos_zero]
  congr 1
  field_simp
  norm_num

/-- With the beam coming in at 60 degrees there is no matrix where the detector is at 60 degrees, with it coming in at 30 degrees and from
below there is one. -/
example (c : Consts) {shape : List Char} {f : Form} (hs : ∀ d : Detector, d.shape = shape → formOf d = .ok f) :
    (∃ e, calcInQ c { bench c shape {} with thetaI := 60 } ![1, 0, 0] 0 = .error e) ∧
    ∃ r0 RM, calcInQ c { bench c shape {} with thetaI := 30, phiI := 10 } ![1, 0, 0] 0 = .ok (r0, RM) := by
  have hp := pi_pos
  have hQ : (![1, 0, 0] : Vec) ≠ 0 := fun h => by simpa using congrFun h 0
  have e : √((![1, 0, 0] : Vec) 0 ^ 2 + (![1, 0, 0] : Vec) 1 ^ 2 + (![1, 0, 0] : Vec) 2 ^ 2) = 1 := by simp
  have hq : benchSample.lattice.getQ ![1, 0, 0] = .ok 1 := by rw [getQ_bench hQ, e]
  have ha : arcsin (1 / (2 * 1)) = π / 6 := by
    rw [mul_one, ← sin_pi_div_six, arcsin_sin] <;> linarith
  refine ⟨C137_beam_false (ki := 1) bench_valid hq one_pos rfl getPhi_ahead rfl ?_, ?_⟩
  · rw [ha]
    unfold deg2rad
    ring
  obtain ⟨lam, hlam, hl0⟩ := wave_bench c shape {}
  obtain ⟨m, hm, e1, e2, e3, e4, -, e6, -, e8, e9, e10, e11, e12⟩ := decode_bench c shape {} lam
  refine C137_exists_beam_partial (ki := 1) (kf := 1) (f := f) bench_valid hQ ?_ hlam (decode_turn hm 30 10) (hs _ rfl) hq le_rfl one_pos one_pos
    rfl (sub_zero _).symm ?_ ?_ ?_ ?_ ?_ ?_ ?_ ?_ ?_ ?_ ?_
  · change crossProduct benchSample.u benchSample.v ≠ 0
    rw [cross_bench]
    exact fun h => by simpa using congrFun h 2
  · rw [Verif.Tools.closes_iff one_pos zero_le_one one_pos, abs_le]
    norm_num
  · refine cos_pos_of_mem_Ioo ⟨?_, ?_⟩ <;> simp only [deg2rad] <;> linarith
  · simp only [e6]; norm_num
  · simp only [e8]; norm_num
  · simp only [e4]; norm_num
  · simp only [e9, deg2rad, Option.getD_none]
    positivity
  · simp only [e10, deg2rad, Option.getD_none]
    positivity
  · simp only [e11, deg2rad, Option.getD_none]
    positivity
  · simp only [e12, deg2rad, Option.getD_none]
    positivity
  · intro _
    rw [ha]
    have : (2 * (π / 6) - deg2rad 30 : ℝ) = π / 6 := by
      unfold deg2rad
      ring
    simp only [this, cos_pi_div_six]
    have := sq_sqrt (by norm_num : (0 : ℝ) ≤ 3)
    nlinarith
  · intro ph hph
    have : getPhi benchSample.lattice benchSample.u benchSample.v ![1, 0, 0] = .ok ph := hph
    rw [getPhi_ahead] at this
    cases this
    norm_num

end Verif.Tof
