import Verif.Tof.Bench

/-!
# Properties C135 (where it fails) and C136: correlated times, cylinders, the scattering triangle
-/

namespace Verif.Tof

open Real Matrix
open Verif.Crystal (Fail Vec Mat Lattice deg2rad Valid getPhi)
open Verif.Resolution (M4)
open Verif.Tools (quad SPD kinetic Closes ClosesAt)

/-! ## C135: correlated times -/

theorem sum_single (u : Fin 9 → ℝ) (j : Fin 9) : ∑ l, u l * (Pi.single j 1 : Fin 9 → ℝ) l = u j := by
  rw [Finset.sum_eq_single j (fun b _ hb => by rw [Pi.single_eq_of_ne hb, mul_zero]) (by simp), Pi.single_eq_same, mul_one]

theorem derivative_entry {c : Consts} {f : Form} {a : ℝ} {x : Fin 9 → ℝ} {D : Matrix (Fin 4) (Fin 9) ℝ}
    (h : IsDerivative c f a x D) (b : Fin 4) (j : Fin 9) :
    HasDerivAt (fun s : ℝ => inAxes a (transfer c f (x + s • Pi.single j 1)) b) (D b j) 0 := by
  have := h (Pi.single j 1) b
  rwa [sum_single] at this

theorem energy_entry {c : Consts} {f : Form} {a : ℝ} {x : Fin 9 → ℝ} {D J : Matrix (Fin 4) (Fin 9) ℝ}
    (h : IsDerivative c f a x D)
    (hJ : ∀ (d : Fin 9 → ℝ) (b : Fin 4), HasDerivAt (fun s : ℝ => transfer c f (x + s • d) b) (∑ j, J b j * d j) 0) (j : Fin 9) :
    D 3 j = J 3 j := by
  have h1 := derivative_entry h 3 j
  have h2 := hJ (Pi.single j 1) 3
  have e : (fun s : ℝ => inAxes a (transfer c f (x + s • Pi.single j 1)) 3) = fun s => transfer c f (x + s • Pi.single j 1) 3 := by
    funext s
    simp [inAxes]
  rw [e] at h1
  rw [sum_single] at h2
  exact h1.unique h2

theorem instants_eq (m : Measures) (D : Matrix (Fin 4) (Fin 9) ℝ) (b : Fin 4) :
    propagated D (instants m) b b = propagated D (diagonal (variances m)) b b - 2 * m.tauM ^ 2 * (D b 0 * D b 1) := by
  have e : instants m = diagonal (variances m) + Matrix.of fun i j =>
      if (i = 0 ∧ j = 1) ∨ (i = 1 ∧ j = 0) then -m.tauM ^ 2 else 0 := by
    ext i j
    simp only [instants, Matrix.of_apply, Matrix.add_apply, diagonal_apply]
    by_cases h : i = j
    · subst h
      rw [if_pos rfl, if_pos rfl, if_neg, add_zero]
      rintro (⟨h1, h2⟩ | ⟨h1, h2⟩) <;> rw [h1] at h2 <;> exact absurd h2 (by decide)
    · rw [if_neg h, if_neg h, zero_add]
  have hs : ∑ i, ∑ j, D b i * (if (i = 0 ∧ j = 1) ∨ (i = 1 ∧ j = 0) then -m.tauM ^ 2 else 0) * D b j =
      -(2 * m.tauM ^ 2 * (D b 0 * D b 1)) := by
    simp only [sum9]
    simp
    ring
  unfold propagated
  rw [e]
  simp only [Matrix.of_apply, Matrix.add_apply, mul_add, add_mul, Finset.sum_add_distrib] at hs ⊢
  rw [hs]
  ring

section
variable {c : Consts} {i : Inst} {Q : Vec} {W r0 : ℝ} {RM : M4}

/-- **C135** is false if the instants at the choppers and the detector have independent errors: the energy width that
belongs to the matrix is smaller than the width that these errors cause, whatever the point. -/
theorem C135_instants (hl : Valid i.sample.lattice) (hs : i.detector.shape = cs!"spherical")
    (h : calcInQ c i Q W = .ok (r0, RM)) {lam a : ℝ} {m : Measures} {k : Kin} {D : Matrix (Fin 4) (Fin 9) ℝ}
    (hlam : (Verif.Energy.derive c.scipy i.ei).wavelen = .num lam) (hm : decode i lam = .ok m) (hk : kinematics c i Q W = .ok k)
    (hD : IsDerivative c .spherical a (nominal .spherical m k) D) (h1 : 0 < m.lPm) (h2 : 0 ≤ m.lMs) (h3 : 0 < m.lSd) (h4 : m.tauM ≠ 0) :
    RM⁻¹ 3 3 < propagated D (instants m) 3 3 ∧ RM * propagated D (instants m) ≠ 1 := by
  obtain ⟨m', k', f, q, b, st⟩ := steps h
  have hf : f = .spherical := by
    have := st.form
    rw [spherical_form _ hs] at this
    cases this
    rfl
  subst hf
  obtain ⟨lam', l1, l2⟩ := st.dec
  rw [hlam] at l1
  cases l1
  rw [hm] at l2
  cases l2
  have hk' := st.kin
  rw [hk] at hk'
  cases hk'
  obtain ⟨-, -, hF⟩ := facts hl st.kin st.len
  have hJ := sphere_deriv c st.vi st.vf (div_ne_zero st.pm st.vi) (div_ne_zero st.sd st.vf)
    (mul_div_cancel₀ m.lPm st.vi).symm (mul_div_cancel₀ m.lSd st.vf).symm
  have d0 := energy_entry hD hJ 0
  have d1 := energy_entry hD hJ 1
  have hvi : 0 < k.vi := by
    rw [hF.vi]
    have := c.scipy.m_pos
    have := Verif.Energy.hbar_pos c.scipy
    have := hF.ki
    positivity
  have hvf : 0 < k.vf := by
    rw [hF.vf]
    have := c.scipy.m_pos
    have := Verif.Energy.hbar_pos c.scipy
    have := hF.kf
    positivity
  have hmn := c.mn_pos
  have he := c.e_pos
  have n0 : D 3 0 < 0 := by
    rw [d0]
    simp only [jacobi, eDerivs, cons_val_zero, cons_val]
    have : 0 < m.lPm ^ 2 / (m.lPm / k.vi) ^ 3 + m.lSd ^ 2 / (m.lSd / k.vf) ^ 3 * m.lMs / m.lPm := by positivity
    refine div_neg_of_neg_of_pos ?_ (by positivity)
    nlinarith
  have n1 : 0 < D 3 1 := by
    rw [d1]
    simp only [jacobi, eDerivs, cons_val_one, cons_val_zero, cons_val]
    positivity
  obtain ⟨-, -, -, D', hD', hR⟩ := matrix_is hl st hJ
  have hDD (j : Fin 9) : D' 3 j = D 3 j := by rw [energy_entry hD' hJ j, energy_entry hD hJ j]
  have hinv : RM⁻¹ = propagated D' (diagonal (variances m)) := inv_eq_right_inv hR
  have h33 : RM⁻¹ 3 3 < propagated D (instants m) 3 3 := by
    rw [hinv, instants_eq]
    have e : propagated D' (diagonal (variances m)) 3 3 = propagated D (diagonal (variances m)) 3 3 := by
      simp only [propagated, Matrix.of_apply, hDD]
    rw [e]
    have := mul_neg_of_neg_of_pos n0 n1
    have := mul_pos (pow_pos (abs_pos.2 h4) 2) (neg_pos.2 this)
    rw [sq_abs] at this
    linarith
  refine ⟨h33, fun hcon => ?_⟩
  rw [inv_eq_right_inv hcon] at h33
  exact lt_irrefl _ h33

/-- **C135** is false: a spectrometer and a point for which the matrix is not the inverse of the covariance that
independent errors of the instants cause. -/
theorem C135_instants_false (c : Consts) : ∃ i Q W r0 RM, Valid i.sample.lattice ∧ calcInQ c i Q W = .ok (r0, RM) ∧
    ∀ lam m k a D, (Verif.Energy.derive c.scipy i.ei).wavelen = .num lam → decode i lam = .ok m → kinematics c i Q W = .ok k →
      IsDerivative c .spherical a (nominal .spherical m k) D → RM * propagated D (instants m) ≠ 1 := by
  obtain ⟨⟨r0, RM, h⟩, -⟩ := bench_points c spherical_form none
  refine ⟨_, _, _, r0, RM, bench_valid, h, fun lam m k a D hlam hm hk hD => ?_⟩
  obtain ⟨m', hm', -, -, -, e4, -, e6, e7, e8, -⟩ := decode_bench c cs!"spherical" {} lam
  have hm2 : decode (bench c cs!"spherical" {}) lam = .ok m := hm
  rw [hm'] at hm2
  cases hm2
  exact (C135_instants bench_valid rfl h hlam hm hk hD (by rw [e6]; norm_num) (by rw [e7]; norm_num) (by rw [e8]; norm_num)
    (by rw [e4]; norm_num)).2

end

/-! ## C135: cylinders -/

/-- The energy transfer depends on the elevation at which a cylinder is hit. -/
theorem cylinder_slope (c : Consts) (m : Measures) (k : Kin) (hvi : k.vi ≠ 0) (hvf : k.vf ≠ 0) (hpm : m.lPm ≠ 0) (hsd : m.lSd ≠ 0)
    (hcos : cos k.phi ≠ 0) :
    HasDerivAt (fun s : ℝ => transfer c .cylinder (nominal .cylinder m k + s • Pi.single 8 1) 3)
      (-(c.mn * k.vf ^ 2 * tan k.phi / (1e-3 * c.e))) 0 := by
  have hs : (fun s : ℝ => transfer c .cylinder (nominal .cylinder m k + s • Pi.single 8 1) 3) =
      fun s => c.mn / 2 * (k.vi ^ 2 - (k.vf * cos k.phi) ^ 2 * (1 + tan (k.phi + s) ^ 2)) / (1e-3 * c.e) := by
    funext s
    set x := nominal .cylinder m k + s • (Pi.single 8 1 : Fin 9 → ℝ) with hx
    have hj (j : Fin 9) (h : j ≠ 8) : x j = nominal .cylinder m k j := by
      rw [hx, Pi.add_apply, Pi.smul_apply, Pi.single_eq_of_ne h, smul_zero, add_zero]
    have x0 : x 0 = m.lPm / k.vi := by rw [hj 0 (by decide)]; simp [nominal]
    have x1 : x 1 = m.lMs / k.vi + m.lSd / cos k.phi / k.vf := by rw [hj 1 (by decide)]; simp [nominal, path]
    have x2 : x 2 = m.lPm := by rw [hj 2 (by decide)]; simp [nominal]
    have x3 : x 3 = m.lMs := by rw [hj 3 (by decide)]; simp [nominal]
    have x4 : x 4 = m.lSd := by rw [hj 4 (by decide)]; simp [nominal]
    have x8 : x 8 = k.phi + s := by
      rw [hx, Pi.add_apply, Pi.smul_apply, Pi.single_eq_same, smul_eq_mul, mul_one]
      simp [nominal]
    have e1 : speedIn x = k.vi := by rw [speedIn, x0, x2]; field_simp
    have e2 : timeOut x = m.lSd / cos k.phi / k.vf := by rw [timeOut, e1, x1, x3]; ring
    have e3 : x 4 / timeOut x = k.vf * cos k.phi := by rw [e2, x4]; field_simp
    have e4 : velocityOut .cylinder x ⬝ᵥ velocityOut .cylinder x = (x 4 / timeOut x) ^ 2 * (1 + tan (x 8) ^ 2) := by
      simp only [velocityOut, pixel, dotProduct, Fin.sum_univ_three, Pi.smul_apply, smul_eq_mul, cons_val_zero, cons_val_one,
        cons_val]
      have := sin_sq_add_cos_sq (x 7)
      linear_combination ((timeOut x)⁻¹ * x 4) ^ 2 * this
    change energyLoss c .cylinder x = _
    rw [energyLoss, e1, e4, e3, x8]
  rw [hs]
  have ht : HasDerivAt (fun s : ℝ => tan (k.phi + s)) (1 / cos k.phi ^ 2) 0 := by
    have h1 : HasDerivAt tan (1 / cos (k.phi + 0) ^ 2) (k.phi + 0) := hasDerivAt_tan (by rwa [add_zero])
    have := h1.comp (0 : ℝ) ((hasDerivAt_id (0 : ℝ)).const_add k.phi)
    rw [add_zero] at this
    simpa [Function.comp_def] using this
  have := (((((ht.pow 2).const_add 1).const_mul ((k.vf * cos k.phi) ^ 2)).const_sub (k.vi ^ 2)).const_mul (c.mn / 2)).div_const (1e-3 * c.e)
  refine this.congr_deriv ?_
  rw [add_zero]
  have := c.e_pos.ne'
  field_simp
  ring

theorem covariance_33 (c : Consts) (f : Form) (m : Measures) (k : Kin) (ti tf s : ℝ) :
    covariance (jacobi c f { m with sPhi := s } k ti tf) (sigmas { m with sPhi := s }) 3 3 =
      covariance (jacobi c f m k ti tf) (sigmas m) 3 3 := by
  have e (m : Measures) : covariance (jacobi c f m k ti tf) (sigmas m) 3 3 = ∑ j, eDerivs c m ti tf j ^ 2 * sigmas m j ^ 2 := by
    rw [covariance_propagated]
    simp only [propagated, Matrix.of_apply, diagonal_apply]
    refine Finset.sum_congr rfl fun j _ => ?_
    rw [Finset.sum_eq_single j (fun b _ hb => by rw [if_neg hb.symm]; ring) (by simp), if_pos rfl, sigmas_sq]
    simp only [jacobi, cons_val]
    ring
  rw [e, e]
  simp only [sum9]
  simp [eDerivs, sigmas]

/-- **C135** is false for a cylindrical detector out of the horizontal plane: the width in energy that comes from the
vertical angle is missing. -/
theorem C135_cylinder_false (c : Consts) : ∃ i Q W r0 RM, Valid i.sample.lattice ∧ i.detector.shape = cs!"cylindrical" ∧
    calcInQ c i Q W = .ok (r0, RM) ∧
    ∀ lam m k a D, (Verif.Energy.derive c.scipy i.ei).wavelen = .num lam → decode i lam = .ok m → kinematics c i Q W = .ok k →
      IsDerivative c .cylinder a (nominal .cylinder m k) D → RM * propagated D (diagonal (variances m)) ≠ 1 := by
  obtain ⟨-, -, r0, RM, h⟩ := bench_points c cylindrical_form none
  obtain ⟨m, k, f, q, b, st⟩ := steps h
  have hf : f = .cylinder := by
    have := st.form
    rw [cylindrical_form _ rfl] at this
    cases this
    rfl
  subst hf
  have hQ : (![1, 0, 1] : Vec) ≠ 0 := fun h => by simpa using congrFun h 0
  have hphi : tan k.phi ≠ 0 := by
    obtain ⟨ph, p1, p2⟩ := kinematics_phi st.kin
    have p1' : getPhi benchSample.lattice benchSample.u benchSample.v ![1, 0, 1] = .ok ph := p1
    rw [getPhi_bench hQ] at p1'
    have e := Except.ok.inj p1'
    have hp := pi_pos.ne'
    have : deg2rad ph = arccos (1 / √2) := by
      rw [← e]
      unfold deg2rad
      simp
      field_simp
      norm_num
    have hs : sin k.phi = 1 / √2 := by
      have h2 := sq_sqrt (by norm_num : (0 : ℝ) ≤ 2)
      have h3 : (0 : ℝ) < √2 := by positivity
      rw [p2, sin_pi_div_two_sub, this, cos_arccos]
      · have : (0 : ℝ) < 1 / √2 := by positivity
        linarith
      · rw [div_le_one h3]
        nlinarith
    have hc := st.tan rfl
    rw [tan_eq_sin_div_cos, hs]
    positivity
  obtain ⟨B, hB⟩ : ∃ B, B = -(c.mn * k.vf ^ 2 * tan k.phi / (1e-3 * c.e)) := ⟨_, rfl⟩
  have hB0 : 0 < B ^ 2 := by
    have h1 := c.mn_pos
    have h2 := c.e_pos
    have h3 := st.vf
    have : B ≠ 0 := by
      rw [hB]
      exact neg_ne_zero.2 (div_ne_zero (mul_ne_zero (mul_ne_zero h1.ne' (pow_ne_zero 2 h3)) hphi) (by positivity))
    positivity
  obtain ⟨C, hC⟩ : ∃ C, C = covariance (jacobi c .cylinder m k (m.lPm / k.vi) (m.lSd / k.vf)) (sigmas m) 3 3 := ⟨_, rfl⟩
  have hp := pi_pos
  obtain ⟨o, ho⟩ : ∃ o : ℝ, C < B ^ 2 * deg2rad o ^ 2 := by
    refine ⟨√((|C| + 1) / B ^ 2) * 180 / π, ?_⟩
    have : deg2rad (√((|C| + 1) / B ^ 2) * 180 / π) = √((|C| + 1) / B ^ 2) := by
      unfold deg2rad
      field_simp
    rw [this, sq_sqrt (by positivity), mul_div_cancel₀ _ hB0.ne']
    linarith [le_abs_self C]
  obtain ⟨-, -, r1, RM1, h1⟩ := bench_points c cylindrical_form (some o)
  refine ⟨_, _, _, r1, RM1, bench_valid, rfl, h1, fun lam m1 k1 a D hlam hm1 hk1 hD hcon => ?_⟩
  obtain ⟨m2, k2, f2, q2, b2, st2⟩ := steps h1
  have hf : f2 = .cylinder := by
    have := st2.form
    rw [cylindrical_form _ rfl] at this
    cases this
    rfl
  subst hf
  obtain ⟨lam', l1, l2⟩ := st2.dec
  rw [hlam] at l1
  cases l1
  rw [hm1] at l2
  cases l2
  have hk2 := st2.kin
  rw [hk1] at hk2
  cases hk2
  have hk0 : kinematics c (bench c cs!"cylindrical" { sPhi := none }) ![1, 0, 1] 0 = .ok k1 := hk1
  rw [st.kin] at hk0
  cases hk0
  obtain ⟨lam'', l3, l4⟩ := st.dec
  have l3' : (Verif.Energy.derive c.scipy (bench c cs!"cylindrical" { sPhi := some o }).ei).wavelen = .num lam'' := l3
  rw [hlam] at l3'
  cases l3'
  have hmm : m1 = { m with sPhi := deg2rad o } := by
    unfold decode at l4
    obtain ⟨x1, y1, l4⟩ := bind_eq_ok.1 l4
    obtain ⟨x2, y2, l4⟩ := bind_eq_ok.1 l4
    obtain ⟨x3, y3, l4⟩ := bind_eq_ok.1 l4
    obtain ⟨x4, y4, l4⟩ := bind_eq_ok.1 l4
    obtain ⟨x5, y5, l4⟩ := bind_eq_ok.1 l4
    obtain ⟨x6, y6, l4⟩ := bind_eq_ok.1 l4
    obtain ⟨x7, y7, l4⟩ := bind_eq_ok.1 l4
    obtain ⟨x8, y8, l4⟩ := bind_eq_ok.1 l4
    obtain ⟨x9, y9, l4⟩ := bind_eq_ok.1 l4
    cases l4
    unfold decode at hm1
    simp only [bench] at hm1 y1 y4 y6 y8 y9
    cases y1
    simp only [bench, ok_bind] at hm1 y2 y3 y5 y6 y7
    rw [y2] at hm1
    simp only [ok_bind] at hm1
    rw [y3] at hm1
    cases y4
    cases y5
    simp only [ok_bind, y6, y7, y8, y9] at hm1
    cases hm1
    rfl
  have hc := st.tan rfl
  have hslope := cylinder_slope c m1 k st2.vi st2.vf st2.pm st2.sd hc
  have e : (fun s : ℝ => inAxes a (transfer c .cylinder (nominal .cylinder m1 k + s • Pi.single 8 1)) 3) =
      fun s => transfer c .cylinder (nominal .cylinder m1 k + s • Pi.single 8 1) 3 := by
    funext s
    simp [inAxes]
  have hent := derivative_entry hD 3 8
  rw [e] at hent
  have hD8 : D 3 8 = B := by rw [hB]; exact hent.unique hslope
  have h33 : propagated D (diagonal (variances m1)) 3 3 = C := by
    have hinv := inv_eq_right_inv hcon
    have hR : RM1⁻¹ = (rotation b2)ᵀ * covariance (jacobi c .cylinder m1 k (m1.lPm / k.vi) (m1.lSd / k.vf)) (sigmas m1) * rotation b2 := by
      refine inv_eq_right_inv ?_
      rw [st2.rm]
      exact inverse_turned st2.det b2
    rw [← hinv, hR, hC, hmm, ← covariance_33 c .cylinder m k _ _ (deg2rad o)]
    simp [Matrix.mul_apply, rotation, Fin.sum_univ_four]
  have hge : B ^ 2 * deg2rad o ^ 2 ≤ propagated D (diagonal (variances m1)) 3 3 := by
    simp only [propagated, Matrix.of_apply, diagonal_apply]
    have e (i : Fin 9) : ∑ j, D 3 i * (if i = j then variances m1 i else 0) * D 3 j = D 3 i ^ 2 * sigmas m1 i ^ 2 := by
      rw [Finset.sum_eq_single i (fun b _ hb => by rw [if_neg hb.symm]; ring) (by simp), if_pos rfl, sigmas_sq]
      ring
    simp only [e]
    have := Finset.single_le_sum (f := fun i => D 3 i ^ 2 * sigmas m1 i ^ 2) (s := Finset.univ) (fun i _ => by positivity) (Finset.mem_univ 8)
    refine le_trans (le_of_eq ?_) this
    simp only [hD8, hmm]
    simp [sigmas]
  linarith

end Verif.Tof
