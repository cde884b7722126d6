import Verif.Tof.Kin

/-!
# Properties C135 and C137: the resolution matrix of a time-of-flight spectrometer is the inverse of a covariance
-/

namespace Verif.Tof

open Real Matrix
open Verif.Crystal (Fail Vec Mat Lattice deg2rad Valid)
open Verif.Resolution (M4 npInv quad_eq posDef_iff_spd)
open Verif.Tools (quad SPD getKfree getAngleKiQ kinetic Closes ClosesAt)

/-! ## Specification -/

/-- `D` holds the derivatives of the momentum and energy transfer, in the axes at the angle `a` from the incident beam,
with respect to the nine measured quantities. -/
def IsDerivative (c : Consts) (f : Form) (a : ℝ) (x : Fin 9 → ℝ) (D : Matrix (Fin 4) (Fin 9) ℝ) : Prop :=
  ∀ (d : Fin 9 → ℝ) (b : Fin 4), HasDerivAt (fun s : ℝ => inAxes a (transfer c f (x + s • d)) b) (∑ j, D b j * d j) 0

/-- The covariance of quantities that depend with the coefficients `D` on quantities with the covariance `V`. -/
def propagated (D : Matrix (Fin 4) (Fin 9) ℝ) (V : Matrix (Fin 9) (Fin 9) ℝ) : M4 :=
  Matrix.of fun a b => ∑ i, ∑ j, D a i * V i j * D b j

/-- The variances of the measured quantities, as if they were independent. -/
noncomputable def variances (m : Measures) : Fin 9 → ℝ :=
  ![m.tauP ^ 2 + m.tauM ^ 2, m.tauM ^ 2 + m.tauD ^ 2, m.sLPm ^ 2, m.sLMs ^ 2, m.sLSd ^ 2, m.sThetaI ^ 2, m.sPhiI ^ 2, m.sTheta ^ 2,
    m.sPhi ^ 2]

/-- The covariance of the measured quantities if the instants at which the neutron passes the two choppers and reaches
the detector have independent errors: the two times are differences of instants, and the instant at the second chopper
is in both. -/
noncomputable def instants (m : Measures) : Matrix (Fin 9) (Fin 9) ℝ :=
  Matrix.of fun i j => if i = j then variances m i else if (i = 0 ∧ j = 1) ∨ (i = 1 ∧ j = 0) then -m.tauM ^ 2 else 0

/-! ## C135 -/

theorem sigmas_sq (m : Measures) (j : Fin 9) : sigmas m j ^ 2 = variances m j := by
  fin_cases j
  · exact sq_sqrt (by positivity)
  · exact sq_sqrt (by positivity)
  all_goals rfl

theorem covariance_propagated (J : Matrix (Fin 4) (Fin 9) ℝ) (m : Measures) :
    covariance J (sigmas m) = propagated J (diagonal (variances m)) := by
  have e : (fun j => sigmas m j ^ 2) = variances m := funext (sigmas_sq m)
  ext a b
  unfold covariance propagated
  rw [e, Matrix.mul_assoc, Matrix.mul_apply]
  simp only [Matrix.of_apply, Matrix.mul_apply, transpose_apply, Finset.mul_sum]
  exact Finset.sum_congr rfl fun i _ => Finset.sum_congr rfl fun j _ => by ring

theorem propagated_turn (J : Matrix (Fin 4) (Fin 9) ℝ) (V : Matrix (Fin 9) (Fin 9) ℝ) (R : M4) :
    propagated (R * J) V = R * propagated J V * Rᵀ := by
  have e (D : Matrix (Fin 4) (Fin 9) ℝ) : propagated D V = D * V * Dᵀ := by
    ext a b
    unfold propagated
    rw [Matrix.mul_apply]
    simp only [Matrix.of_apply, Matrix.mul_apply, transpose_apply, Finset.sum_mul]
    exact Finset.sum_comm
  rw [e, e, transpose_mul]
  simp only [Matrix.mul_assoc]

theorem inAxes_eq (a : ℝ) (t : Fin 4 → ℝ) : inAxes a t = (rotation a)ᵀ *ᵥ t := by
  ext b
  fin_cases b <;> simp [inAxes, rotation, mulVec, dotProduct, Fin.sum_univ_four] <;> ring

theorem turned_derivative {c : Consts} {f : Form} {x : Fin 9 → ℝ} {J : Matrix (Fin 4) (Fin 9) ℝ} (a : ℝ)
    (h : ∀ (d : Fin 9 → ℝ) (b : Fin 4), HasDerivAt (fun s : ℝ => transfer c f (x + s • d) b) (∑ j, J b j * d j) 0) :
    IsDerivative c f a x ((rotation a)ᵀ * J) := by
  intro d b
  simp only [inAxes_eq, mulVec, dotProduct]
  have := HasDerivAt.fun_sum (u := Finset.univ) fun (e : Fin 4) _ => (h d e).const_mul ((rotation a)ᵀ b e)
  refine this.congr_deriv ?_
  simp only [Matrix.mul_apply, Finset.mul_sum, Finset.sum_mul]
  rw [Finset.sum_comm]
  exact Finset.sum_congr rfl fun i _ => Finset.sum_congr rfl fun j _ => by ring

theorem inverse_turned {C : M4} (h : C.det ≠ 0) (a : ℝ) :
    ((rotation a)ᵀ * C⁻¹ * rotation a) * ((rotation a)ᵀ * C * rotation a) = 1 := by
  calc _ = (rotation a)ᵀ * C⁻¹ * (rotation a * (rotation a)ᵀ) * C * rotation a := by simp only [Matrix.mul_assoc]
    _ = (rotation a)ᵀ * (C⁻¹ * C) * rotation a := by rw [rotation_orth', Matrix.mul_one]; simp only [Matrix.mul_assoc]
    _ = 1 := by rw [nonsing_inv_mul _ (isUnit_iff_ne_zero.2 h), Matrix.mul_one, rotation_orth]

section
variable {c : Consts} {i : Inst} {Q : Vec} {W r0 : ℝ} {RM : M4}

theorem matrix_is {m : Measures} {k : Kin} {f : Form} {q a : ℝ} (hl : Valid i.sample.lattice) (h : Steps c i Q W m k f q a r0 RM)
    (hD : ∀ (d : Fin 9 → ℝ) (b : Fin 4), HasDerivAt (fun s : ℝ => transfer c f (nominal f m k + s • d) b)
      (∑ j, jacobi c f m k (m.lPm / k.vi) (m.lSd / k.vf) b j * d j) 0) :
    ClosesAt k.ki k.kf q a ∧ a ≤ 0 ∧ |a| ≤ π ∧ ∃ D, IsDerivative c f a (nominal f m k) D ∧
      RM * propagated D (diagonal (variances m)) = 1 := by
  obtain ⟨-, hq0, hF⟩ := facts hl h.kin h.len
  obtain ⟨h1, -, h2, -, h3⟩ := Verif.Tools.C57_angle_partial hF.ki hF.kf.le hq0 (by norm_num : (-1 : ℝ) ≠ 0) h.angle
  refine ⟨h1, h3 (by norm_num), h2, _, turned_derivative a hD, ?_⟩
  rw [propagated_turn, ← covariance_propagated, transpose_transpose, h.rm]
  exact inverse_turned h.det a

/-- **C135** (partial: the errors of the two times are taken as independent, see `C135_instants_false`) for a spherical
detector the matrix is the inverse of the covariance that the errors of the measured quantities cause in the momentum
and energy transfer, along and across the direction at which the scattering triangle closes. -/
theorem C135_sphere_partial (hl : Valid i.sample.lattice) (hs : i.detector.shape = cs!"spherical")
    (h : calcInQ c i Q W = .ok (r0, RM)) :
    ∃ lam m k q a D, (Verif.Energy.derive c.scipy i.ei).wavelen = .num lam ∧ decode i lam = .ok m ∧
      kinematics c i Q W = .ok k ∧ i.sample.lattice.getQ Q = .ok q ∧ ClosesAt k.ki k.kf q a ∧ a ≤ 0 ∧ |a| ≤ π ∧
      IsDerivative c .spherical a (nominal .spherical m k) D ∧ RM * propagated D (diagonal (variances m)) = 1 := by
  obtain ⟨m, k, f, q, a, st⟩ := steps h
  have hf : f = .spherical := by
    have := st.form
    unfold formOf at this
    rw [if_pos hs] at this
    cases this
    rfl
  subst hf
  obtain ⟨lam, l1, l2⟩ := st.dec
  obtain ⟨h1, h2, h3, D, h4, h5⟩ := matrix_is hl st (sphere_deriv c st.vi st.vf (div_ne_zero st.pm st.vi) (div_ne_zero st.sd st.vf)
    (mul_div_cancel₀ _ st.vi).symm (mul_div_cancel₀ _ st.vf).symm)
  exact ⟨lam, m, k, q, a, D, l1, l2, st.kin, st.len, h1, h2, h3, h4, h5⟩

/-- **C135** (partial: as above, and only in the horizontal plane, see `C135_cylinder_false`) the same for a cylindrical
detector. -/
theorem C135_cylinder_partial (hl : Valid i.sample.lattice) (hs : i.detector.shape = cs!"cylindrical")
    (h : calcInQ c i Q W = .ok (r0, RM)) :
    ∃ lam m k q a, (Verif.Energy.derive c.scipy i.ei).wavelen = .num lam ∧ decode i lam = .ok m ∧
      kinematics c i Q W = .ok k ∧ i.sample.lattice.getQ Q = .ok q ∧ ClosesAt k.ki k.kf q a ∧ a ≤ 0 ∧ |a| ≤ π ∧
      (k.phi = 0 → ∃ D, IsDerivative c .cylinder a (nominal .cylinder m k) D ∧
        RM * propagated D (diagonal (variances m)) = 1) := by
  obtain ⟨m, k, f, q, a, st⟩ := steps h
  have hf : f = .cylinder := by
    have := st.form
    unfold formOf at this
    rw [hs, if_neg (by decide), if_pos rfl] at this
    cases this
    rfl
  subst hf
  obtain ⟨lam, l1, l2⟩ := st.dec
  obtain ⟨-, hq0, hF⟩ := facts hl st.kin st.len
  obtain ⟨h1, -, h2, -, h3⟩ := Verif.Tools.C57_angle_partial hF.ki hF.kf.le hq0 (by norm_num : (-1 : ℝ) ≠ 0) st.angle
  refine ⟨lam, m, k, q, a, l1, l2, st.kin, st.len, h1, h3 (by norm_num), h2, fun hphi => ?_⟩
  exact (matrix_is hl st (cylinder_deriv c st.vi st.vf (div_ne_zero st.pm st.vi) (div_ne_zero st.sd st.vf)
    (mul_div_cancel₀ _ st.vi).symm (mul_div_cancel₀ _ st.vf).symm hphi)).2.2.2

/-! ## C137 -/

/-- **C137** whenever there is a result, the matrix is symmetric and positive definite and the factor positive. -/
theorem C137_spd (hl : Valid i.sample.lattice) (h : calcInQ c i Q W = .ok (r0, RM)) : SPD RM ∧ 0 < r0 := by
  obtain ⟨m, k, f, q, a, st⟩ := steps h
  have hp : RM.PosDef := by
    rw [st.rm]
    exact turned_posDef (covariance_posDef_of_det st.det) a
  have hs := (posDef_iff_spd _).1 hp
  refine ⟨hs, ?_⟩
  obtain ⟨hQ, -⟩ := facts hl st.kin st.len
  have : 0 < quad RM ![Q 0, Q 1, Q 2, W] := hs.pos _ (by
    by_contra hn
    push Not at hn
    refine hQ (funext fun b => ?_)
    fin_cases b
    · exact hn 0
    · exact hn 1
    · exact hn 2)
  rw [st.r0]
  have := log_pos (by norm_num : (1 : ℝ) < 2)
  positivity

/-- The columns of the Jacobi matrix leave no direction free. -/
theorem full_rank {f : Form} {m : Measures} {k : Kin} {q : ℝ} (hF : Facts c i W q k) (hi : m.thetaI = 0) (hj : m.phiI = 0)
    (hpm : m.lPm ≠ 0) (hsd : m.lSd ≠ 0) (hM : m.tauM ≠ 0) (h5 : m.sThetaI ≠ 0) (h6 : m.sPhiI ≠ 0) (h7 : m.sTheta ≠ 0)
    (v : Fin 4 → ℝ) (hv : ∀ j, sigmas m j * (v ᵥ* jacobi c f m k (m.lPm / k.vi) (m.lSd / k.vf)) j = 0) : v = 0 := by
  have hm := c.mn_pos
  have hh := c.hbar_pos
  have he := c.e_pos
  have hvi : 0 < k.vi := by
    rw [hF.vi]
    have := c.scipy.m_pos
    have := Verif.Energy.hbar_pos c.scipy
    have := hF.ki
    positivity
  have hvf : 0 < k.vf := by
    rw [hF.vf]
    have := c.scipy.m_pos
    have := Verif.Energy.hbar_pos c.scipy
    have := hF.kf
    positivity
  have n0 : sigmas m 0 ≠ 0 := (sqrt_pos.2 (by positivity)).ne'
  have n1 : sigmas m 1 ≠ 0 := (sqrt_pos.2 (by positivity)).ne'
  have z0 := (mul_eq_zero.1 (hv 0)).resolve_left n0
  have z1 := (mul_eq_zero.1 (hv 1)).resolve_left n1
  have z5 := (mul_eq_zero.1 (hv 5)).resolve_left h5
  have z6 := (mul_eq_zero.1 (hv 6)).resolve_left h6
  have z7 := (mul_eq_zero.1 (hv 7)).resolve_left h7
  simp only [vecMul, dotProduct, Fin.sum_univ_four, jacobi, qDerivs, eDerivs, matRttI, matRphI, hi, hj, mulVec, Fin.sum_univ_two,
    Matrix.of_apply, cons_val_zero, cons_val_one, cons_val, cos_zero, sin_zero] at z0 z1 z5 z6 z7
  have e2 : v 2 = 0 := by
    have : k.vi * c.mn / c.hbar * 1e-10 ≠ 0 := by positivity
    refine mul_right_cancel₀ this ?_
    linear_combination z6
  have e1 : v 1 = 0 := by
    have : k.vi * c.mn / c.hbar * 1e-10 ≠ 0 := by positivity
    refine mul_right_cancel₀ this ?_
    linear_combination z5
  have hs2 : 0 < sin (k.theta / 2) := sin_pos_of_pos_of_lt_pi (by linarith [hF.theta0]) (by linarith [hF.theta1, hF.theta0])
  have hcp : 0 ≤ cos k.phi := cos_nonneg_of_neg_pi_div_two_le_of_le hF.phi0 hF.phi1
  rw [e1, e2] at z0 z1 z7
  obtain ⟨g, hg, r00, r01, t01⟩ : ∃ g, 0 ≤ g ∧ matR f m k 0 0 = 1 ∧ matR f m k 0 1 = -cos k.theta * g ∧
      matRtt f k 0 1 = sin k.theta * g ∧ matRtt f k 0 0 = 0 := by
    cases f with
    | spherical => exact ⟨cos k.phi, hcp, by simp [matR, hi, hj], by simp [matR], by simp [matRtt], by simp [matRtt]⟩
    | cylinder => exact ⟨1, zero_le_one, by simp [matR, hi, hj], by simp [matR], by simp [matRtt], by simp [matRtt]⟩
  rw [r00, r01] at z0
  rw [r00, r01] at z1
  rw [t01.1, t01.2] at z7
  have A : c.mn / c.hbar * 1e-10 * v 0 * (-cos k.theta * g) = c.mn / (1e-3 * c.e) * v 3 * k.vf := by
    have : k.vf ^ 2 / m.lSd ≠ 0 := div_ne_zero (by positivity) hsd
    refine mul_left_cancel₀ this ?_
    simp only [zero_mul, mul_zero, zero_add, add_zero] at z1
    linear_combination (norm := skip) -z1
    field_simp
    ring
  have B : c.mn / c.hbar * 1e-10 * v 0 = -(c.mn / (1e-3 * c.e)) * v 3 * k.vi := by
    have : k.vi ^ 2 / m.lPm ≠ 0 := div_ne_zero (by positivity) hpm
    refine mul_left_cancel₀ this ?_
    have e : k.vf / (m.lSd / k.vf) * m.lMs / m.lPm * (c.mn / c.hbar * 1e-10 * v 0 * (-cos k.theta * g)) =
        k.vf / (m.lSd / k.vf) * m.lMs / m.lPm * (c.mn / (1e-3 * c.e) * v 3 * k.vf) := by rw [A]
    simp only [zero_mul, add_zero, one_mul] at z0
    linear_combination (norm := skip) -z0 + e
    field_simp
    ring
  have C : v 0 * (sin k.theta * g) = 0 := by
    have : k.vf * c.mn / c.hbar * 1e-10 ≠ 0 := by positivity
    refine mul_right_cancel₀ this ?_
    linear_combination z7
  have e3 : v 3 = 0 ∧ v 0 = 0 := by
    have hkap : c.mn / c.hbar * 1e-10 ≠ 0 := by positivity
    have hdel : c.mn / (1e-3 * c.e) ≠ 0 := by positivity
    by_cases h3 : v 3 = 0
    · refine ⟨h3, mul_left_cancel₀ hkap ?_⟩
      rw [B, h3]
      ring
    · exfalso
      have h0 : v 0 ≠ 0 := by
        intro h0
        rw [h0, mul_zero] at B
        have := mul_ne_zero (mul_ne_zero hdel h3) hvi.ne'
        exact this (by linarith)
      have hsg := (mul_eq_zero.1 C).resolve_left h0
      have hcg : k.vi * (cos k.theta * g) = k.vf := by
        refine mul_left_cancel₀ (mul_ne_zero hdel h3) ?_
        rw [B] at A
        linear_combination A
      have hpos : 0 < cos k.theta * g := pos_of_mul_pos_right (by rw [hcg]; exact hvf) hvi.le
      have hsq : (cos k.theta * g) ^ 2 = g ^ 2 := by
        have : (cos k.theta * g) ^ 2 = g ^ 2 * (sin k.theta ^ 2 + cos k.theta ^ 2) - (sin k.theta * g) ^ 2 := by ring
        rw [this, hsg, sin_sq_add_cos_sq]
        ring
      have hc : cos k.theta * g = g := (sq_eq_sq₀ hpos.le hg).1 hsq
      have hg0 : g ≠ 0 := by
        rintro rfl
        simp at hpos
      have hc1 : cos k.theta = 1 := mul_right_cancel₀ hg0 (by rw [hc, one_mul])
      have : cos (2 * (k.theta / 2)) = 1 - 2 * sin (k.theta / 2) ^ 2 := by rw [cos_two_mul, cos_sq']; ring
      rw [mul_div_cancel₀ _ two_ne_zero, hc1] at this
      have := pow_pos hs2 2
      linarith
  ext b
  fin_cases b
  · exact e3.2
  · exact e1
  · exact e2
  · exact e3.1

/-- **C137** (partial: neutrons that lose no energy or some, beam along the axis) the matrix exists for every point whose
triangle closes.  Missing: energy gain, see `C137_gain_false`. -/
theorem C137_exists_partial {lam q ki kf : ℝ} {m : Measures} {f : Form} (hl : Valid i.sample.lattice) (hQ : Q ≠ 0)
    (hn : crossProduct i.sample.u i.sample.v ≠ 0) (hlam : (Verif.Energy.derive c.scipy i.ei).wavelen = .num lam)
    (hm : decode i lam = .ok m) (hf : formOf i.detector = .ok f) (hq : i.sample.lattice.getQ Q = .ok q)
    (hW : 0 ≤ W) (hki : 0 < ki) (hkf : 0 < kf) (hini : kinetic c.scipy ki = i.ei) (hfin : kinetic c.scipy kf = i.ei - W)
    (hcl : Closes ki kf q) (hi : m.thetaI = 0) (hj : m.phiI = 0) (hpm : m.lPm ≠ 0) (hsd : m.lSd ≠ 0) (hM : m.tauM ≠ 0)
    (h5 : m.sThetaI ≠ 0) (h6 : m.sPhiI ≠ 0) (h7 : m.sTheta ≠ 0)
    (hc : f = .cylinder → ∀ ph, Verif.Crystal.getPhi i.sample.lattice i.sample.u i.sample.v Q = .ok ph → ph ≠ 0 ∧ ph ≠ 180) :
    ∃ r0 RM, calcInQ c i Q W = .ok (r0, RM) := by
  have hq0 : 0 < q := by
    obtain ⟨E, F, hE, hF⟩ := Verif.Crystal.valid_realised hl
    obtain ⟨d, -, d2, d3, d4⟩ := Verif.Crystal.C41_spacing hl hE hF hQ
    rw [hq] at d3
    rw [← Except.ok.inj d3] at d4
    have := pi_pos
    have : 0 < q * d := by rw [d4]; positivity
    exact pos_of_mul_pos_left this d2.le
  have hle : kf ≤ ki := (kinetic_mono (c := c.scipy) hkf.le hki.le).1 (by linarith)
  have hq2 : q ≤ 2 * ki := by
    obtain ⟨u, v, rfl, rfl, rfl⟩ := hcl
    linarith [norm_sub_le u v]
  obtain ⟨k, hk, rfl, rfl⟩ := kinematics_of hl hQ hn hq hW hki hkf hini hfin hq2
  obtain ⟨-, -, hF⟩ := facts hl hk hq
  obtain ⟨a, ha⟩ := (Verif.Tools.C57_error_partial hki hkf.le hq0 (g := -1) false).1 hcl
  have hvi : 0 < k.vi := by
    rw [hF.vi]
    have := c.scipy.m_pos
    have := Verif.Energy.hbar_pos c.scipy
    positivity
  have hvf : 0 < k.vf := by
    rw [hF.vf]
    have := c.scipy.m_pos
    have := Verif.Energy.hbar_pos c.scipy
    positivity
  have hdef := covariance_posDef (full_rank (f := f) hF hi hj hpm hsd hM h5 h6 h7)
  have hspd := (posDef_iff_spd _).1 (turned_posDef hdef a)
  have hcos : f = .cylinder → cos k.phi ≠ 0 := by
    intro hfc
    obtain ⟨ph, hph, hphi⟩ := kinematics_phi hk
    obtain ⟨c1, c2⟩ := hc hfc ph hph
    obtain ⟨c3, c4⟩ := phi_range hl hQ hph
    rw [hphi, cos_pi_div_two_sub]
    have hp := pi_pos
    refine (sin_pos_of_pos_of_lt_pi ?_ ?_).ne'
    · have : 0 < ph := lt_of_le_of_ne c3 c1.symm
      unfold deg2rad
      positivity
    · have : ph < 180 := lt_of_le_of_ne c4 c2
      unfold deg2rad
      rw [div_lt_iff₀ (by norm_num)]
      nlinarith
  refine calcInQ_of hlam hm hk hf hvi.ne' hvf.ne' hpm hsd hcos hdef.det_pos.ne' hq ha (hspd.pos _ ?_).ne'
  by_contra hz
  push Not at hz
  refine hQ (funext fun b => ?_)
  fin_cases b
  · exact hz 0
  · exact hz 1
  · exact hz 2

/-- **C137** is false for neutrons that gain energy: no matrix is calculated for any of them, though the points can be
reached. -/
theorem C137_gain_false (hW : W < 0) : ∃ e, calcInQ c i Q W = .error e := by
  cases h : calcInQ c i Q W with
  | error e => exact ⟨e, rfl⟩
  | ok r =>
    exfalso
    obtain ⟨m, k, f, q, a, st⟩ := steps (r0 := r.1) (RM := r.2) h
    have hk := st.kin
    unfold kinematics at hk
    dsimp only at hk
    obtain ⟨ki, h1, hk⟩ := bind_eq_ok.1 hk
    obtain ⟨kf', h2, hk⟩ := bind_eq_ok.1 hk
    obtain ⟨kf, h3, hk⟩ := bind_eq_ok.1 hk
    have h2' := lift_ok h2
    rw [(Verif.Tools.C58_gain c.scipy hW ki true).1] at h2'
    cases h2'
    cases h3

end

end Verif.Tof
