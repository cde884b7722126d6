import Verif.Tof.PropsSize
import Verif.Resolution.PropsWavelengthCrystal

/-!
# Property C216: the time-of-flight resolution for faster neutrons
-/

namespace Verif.Tof

open Real Matrix
open Verif.Crystal (Fail Vec Mat npDiv deg2rad getPhi Valid Realises Dual len vecOf)
open Verif.Resolution (M4 npInv fasterAxes onAxes smallerCell)
open Verif.Tools (Arg quad kinetic getAngleKiQ)

/-! ## Specification -/

/-- A chopper turning `t` times as fast; a time that is set is `t` times as short. -/
noncomputable def Disc.quicker (t : ℝ) (d : Disc) : Disc := { d with speed := t * d.speed, tauOverride := d.tauOverride.map (t⁻¹ * ·) }

/-- Times that are set are `t` times as short. -/
noncomputable def Overrides.quicker (t : ℝ) (o : Overrides) : Overrides :=
  { o with tauP := o.tauP.map (t⁻¹ * ·), tauM := o.tauM.map (t⁻¹ * ·), tauD := o.tauD.map (t⁻¹ * ·) }

/-- The instrument for neutrons `t` times as fast, with a crystal whose cell is `t` times as small: times are `t` times as short, distances and angles are the same. -/
noncomputable def Inst.faster (t : ℝ) (i : Inst) : Inst :=
  { i with ei := t ^ 2 * i.ei, choppers := i.choppers.map (Disc.quicker t), over := i.over.quicker t,
           sample := { i.sample with lattice := smallerCell t i.sample.lattice },
           detector := { i.detector with tau := t⁻¹ * i.detector.tau } }

/-! ## Lemmas -/

/-- Times in SI units, `t` times as short. -/
noncomputable def Measures.quicker (t : ℝ) (m : Measures) : Measures := { m with tauP := t⁻¹ * m.tauP, tauM := t⁻¹ * m.tauM, tauD := t⁻¹ * m.tauD }

/-- Wavevectors and speeds, `t` times as large. -/
noncomputable def Kin.quicker (t : ℝ) (k : Kin) : Kin := { k with ki := t * k.ki, kf := t * k.kf, vi := t * k.vi, vf := t * k.vf }

variable {t : ℝ}

theorem tau_quicker (ht : 0 < t) (d : Disc) : (d.quicker t).toChopper.tau = d.toChopper.tau.map (t⁻¹ * ·) := by
  rw [← tau_larger (inv_pos.2 ht)]
  unfold Disc.quicker Disc.larger
  dsimp only
  rw [div_inv_eq_mul, mul_comm]

theorem decode_faster (ht : 0 < t) (i : Inst) (h1 : i.over.sThetaI.isSome) (h2 : i.over.sPhiI.isSome) (lam lam' : ℝ) :
    decode (i.faster t) lam' = (decode i lam).map (Measures.quicker t) := by
  obtain ⟨ei, ch, sa, de, gu, thI, phI, ov⟩ := i
  obtain ⟨a, ha⟩ := Option.isSome_iff_exists.1 h1
  obtain ⟨b, hb⟩ := Option.isSome_iff_exists.1 h2
  dsimp only at ha hb
  unfold decode Inst.faster
  dsimp only
  rcases ch with _ | ⟨p, _ | ⟨m, ch⟩⟩
  · rfl
  · rfl
  rw [List.map_cons, List.map_cons]
  dsimp only
  simp only [ok_bind]
  rw [tau_quicker ht, tau_quicker ht]
  cases p.toChopper.tau with
  | error e => rfl
  | ok tp =>
  cases m.toChopper.tau with
  | error e => rfl
  | ok tm =>
  obtain ⟨la, u, v, mo, vmo, dist⟩ := sa
  cases dist with
  | none => rfl
  | some dist =>
  rcases gu with _ | ⟨g, _ | ⟨h, gu⟩⟩
  · rfl
  · rfl
  simp only [Except.map, ok_bind]
  cases hd : npDiv de.radius (cos (deg2rad (mo.getD 60 / 60))) with
  | error e => rfl
  | ok sl =>
  cases h.sigmaTheta with
  | error e => rfl
  | ok st =>
  cases npMax de.height with
  | error e => rfl
  | ok top =>
  simp only [lift, ok_bind]
  cases npDiv top de.vpixels with
  | error e => rfl
  | ok pix =>
  refine congrArg Except.ok ?_
  simp only [Measures.quicker, Overrides.quicker, Disc.quicker, getD_larger, mul_div_assoc, ha, hb, Option.getD_some]

/-- By what the uncertainties are smaller. -/
noncomputable def quickerSigmas (t : ℝ) : Fin 9 → ℝ := ![t⁻¹, t⁻¹, 1, 1, 1, 1, 1, 1, 1]

theorem sigmas_quicker (ht : 0 < t) (m : Measures) (j : Fin 9) : sigmas (m.quicker t) j = quickerSigmas t j * sigmas m j := by
  have r (x y : ℝ) : √((t⁻¹ * x) ^ 2 + (t⁻¹ * y) ^ 2) = t⁻¹ * √(x ^ 2 + y ^ 2) := by
    rw [mul_pow, mul_pow, ← mul_add, sqrt_mul (by positivity), sqrt_sq (by positivity)]
  fin_cases j
  · exact r _ _
  · exact r _ _
  all_goals exact (one_mul _).symm

theorem eDerivs_quicker (ht : 0 < t) (c : Consts) (m : Measures) (ti tf : ℝ) (j : Fin 9) :
    quickerSigmas t j * eDerivs c (m.quicker t) (t⁻¹ * ti) (t⁻¹ * tf) j = t ^ 2 * eDerivs c m ti tf j := by
  have h := ht.ne'
  have i2 (x y : ℝ) : x / (t⁻¹ * y) ^ 2 = t ^ 2 * (x / y ^ 2) := by rw [mul_pow, inv_pow, div_mul_eq_div_div, div_inv_eq_mul]; ring
  have i3 (x y : ℝ) : x / (t⁻¹ * y) ^ 3 = t ^ 3 * (x / y ^ 3) := by rw [mul_pow, inv_pow, div_mul_eq_div_div, div_inv_eq_mul]; ring
  have k1 : t⁻¹ * t ^ 3 = t ^ 2 := by field_simp
  have k2 : t ^ 3 * t⁻¹ = t ^ 2 := by field_simp
  fin_cases j
  · show t⁻¹ * (-c.mn * (m.lPm ^ 2 / (t⁻¹ * ti) ^ 3 + m.lSd ^ 2 / (t⁻¹ * tf) ^ 3 * m.lMs / m.lPm) / (1e-3 * c.e)) = t ^ 2 * (-c.mn * _ / _)
    rw [i3, i3, ← k1]
    ring
  · show t⁻¹ * (c.mn * (m.lSd ^ 2 / (t⁻¹ * tf) ^ 3) / (1e-3 * c.e)) = t ^ 2 * (c.mn * _ / _)
    rw [i3, ← k1]
    ring
  · show 1 * (c.mn * (m.lPm / (t⁻¹ * ti) ^ 2 + m.lSd ^ 2 / (t⁻¹ * tf) ^ 3 * (t⁻¹ * ti) / m.lPm ^ 2 * m.lMs) / (1e-3 * c.e)) = t ^ 2 * (c.mn * _ / _)
    rw [i3, i2, show t ^ 3 * (m.lSd ^ 2 / tf ^ 3) * (t⁻¹ * ti) = t ^ 3 * t⁻¹ * (m.lSd ^ 2 / tf ^ 3 * ti) by ring, k2]
    ring
  · show 1 * (-c.mn * (m.lSd ^ 2 / (t⁻¹ * tf) ^ 3 * (t⁻¹ * ti) / m.lPm) / (1e-3 * c.e)) = t ^ 2 * (-c.mn * _ / _)
    rw [i3, show t ^ 3 * (m.lSd ^ 2 / tf ^ 3) * (t⁻¹ * ti) = t ^ 3 * t⁻¹ * (m.lSd ^ 2 / tf ^ 3 * ti) by ring, k2]
    ring
  · show 1 * (-c.mn * (m.lSd / (t⁻¹ * tf) ^ 2) / (1e-3 * c.e)) = t ^ 2 * (-c.mn * _ / _)
    rw [i2]
    ring
  all_goals exact (mul_zero _).trans (mul_zero _).symm

theorem matR_quicker (f : Form) (m : Measures) (k : Kin) : matR f (m.quicker t) (k.quicker t) = matR f m k := rfl

theorem matRttI_quicker (m : Measures) : matRttI (m.quicker t) = matRttI m := rfl

theorem matRphI_quicker (m : Measures) : matRphI (m.quicker t) = matRphI m := rfl

theorem matRtt_quicker (f : Form) (k : Kin) : matRtt f (k.quicker t) = matRtt f k := rfl

theorem matRph_quicker (f : Form) (k : Kin) : matRph f (k.quicker t) = matRph f k := rfl

theorem lPm_quicker (m : Measures) : (m.quicker t).lPm = m.lPm := rfl

theorem lMs_quicker (m : Measures) : (m.quicker t).lMs = m.lMs := rfl

theorem vi_quicker (k : Kin) : (k.quicker t).vi = t * k.vi := rfl

theorem vf_quicker (k : Kin) : (k.quicker t).vf = t * k.vf := rfl

theorem qDerivs_quicker (ht : 0 < t) (c : Consts) (f : Form) (m : Measures) (k : Kin) (ti tf : ℝ) (j : Fin 9) (a : Fin 3) :
    quickerSigmas t j * qDerivs c f (m.quicker t) (k.quicker t) (t⁻¹ * ti) (t⁻¹ * tf) j a = t * qDerivs c f m k ti tf j a := by
  have h := ht.ne'
  unfold qDerivs
  rw [matR_quicker, matRttI_quicker, matRphI_quicker, matRtt_quicker, matRph_quicker, lMs_quicker, lPm_quicker, vi_quicker, vf_quicker]
  have hv : (![t * k.vi * c.mn / c.hbar, t * k.vf * c.mn / c.hbar] : Fin 2 → ℝ) = t • ![k.vi * c.mn / c.hbar, k.vf * c.mn / c.hbar] := by
    simp only [smul_cons, smul_eq_mul, smul_empty, mul_div_assoc, mul_assoc]
  have lin (r : Matrix (Fin 3) (Fin 2) ℝ) : 1 * (r *ᵥ ![t * k.vi * c.mn / c.hbar, t * k.vf * c.mn / c.hbar]) a =
      t * (r *ᵥ ![k.vi * c.mn / c.hbar, k.vf * c.mn / c.hbar]) a := by
    rw [hv, mulVec_smul, one_mul]
    rfl
  have two (r : Matrix (Fin 3) (Fin 2) ℝ) (w x y x' y' : ℝ) (hx : w * x' = t * x) (hy : w * y' = t * y) :
      w * (r *ᵥ ![x', y']) a = t * (r *ᵥ ![x, y]) a := by
    simp only [Matrix.mulVec, dotProduct, Fin.sum_univ_two, cons_val_zero, cons_val_one]
    linear_combination r a 0 * hx + r a 1 * hy
  have i1 (x y : ℝ) : x / (t⁻¹ * y) = t * (x / y) := by rw [div_mul_eq_div_div, div_inv_eq_mul]; ring
  have k1 (x : ℝ) : t⁻¹ * (t * x) = x := inv_mul_cancel_left₀ h x
  fin_cases j
  · refine two _ t⁻¹ _ _ _ _ ?_ ?_
    · rw [i1, k1]
      ring
    · rw [i1, mul_assoc t, mul_div_assoc t, k1]
      ring
  · refine two _ t⁻¹ _ _ _ _ ((mul_zero _).trans (mul_zero _).symm) ?_
    rw [i1, k1]
    ring
  · refine two _ 1 _ _ _ _ ?_ ?_
    · rw [i1]
      ring
    · rw [i1, mul_assoc t k.vi, show t * (-c.mn / c.hbar * (t * k.vf) / tf) * m.lMs = t * (t * (-c.mn / c.hbar * k.vf / tf * m.lMs)) by ring,
        mul_div_mul_left _ _ h]
      ring
  · refine two _ 1 _ _ _ _ ((mul_zero _).trans (mul_zero _).symm) ?_
    rw [i1, show t * (c.mn / c.hbar * (t * k.vf) / tf) = t * (t * (c.mn / c.hbar * k.vf / tf)) by ring, mul_div_mul_left _ _ h]
    ring
  · refine two _ 1 _ _ _ _ ((mul_zero _).trans (mul_zero _).symm) ?_
    rw [i1]
    ring
  · exact lin _
  · exact lin _
  · exact lin _
  · exact lin _

theorem covariance_quicker (ht : 0 < t) (c : Consts) (f : Form) (m : Measures) (k : Kin) (ti tf : ℝ) :
    covariance (jacobi c f (m.quicker t) (k.quicker t) (t⁻¹ * ti) (t⁻¹ * tf)) (sigmas (m.quicker t)) =
      diagonal (fasterAxes t) * covariance (jacobi c f m k ti tf) (sigmas m) * diagonal (fasterAxes t) := by
  have hj (a : Fin 4) (j : Fin 9) : quickerSigmas t j * jacobi c f (m.quicker t) (k.quicker t) (t⁻¹ * ti) (t⁻¹ * tf) a j =
      fasterAxes t a * jacobi c f m k ti tf a j := by
    unfold jacobi
    fin_cases a
    · exact ((mul_assoc _ _ _).symm.trans (congrArg (· * _) (qDerivs_quicker ht c f m k ti tf j 0))).trans (mul_assoc _ _ _)
    · exact ((mul_assoc _ _ _).symm.trans (congrArg (· * _) (qDerivs_quicker ht c f m k ti tf j 1))).trans (mul_assoc _ _ _)
    · exact ((mul_assoc _ _ _).symm.trans (congrArg (· * _) (qDerivs_quicker ht c f m k ti tf j 2))).trans (mul_assoc _ _ _)
    · exact eDerivs_quicker ht c m ti tf j
  unfold covariance
  ext a b
  rw [mul_diagonal, diagonal_mul, Matrix.mul_apply, Matrix.mul_apply, Finset.mul_sum, Finset.sum_mul]
  refine Finset.sum_congr rfl fun j _ => ?_
  rw [mul_diagonal, mul_diagonal, transpose_apply, transpose_apply, sigmas_quicker ht]
  linear_combination (sigmas m j ^ 2 * (quickerSigmas t j * jacobi c f (m.quicker t) (k.quicker t) (t⁻¹ * ti) (t⁻¹ * tf) b j)) * hj a j +
    (sigmas m j ^ 2 * (fasterAxes t a * jacobi c f m k ti tf a j)) * hj b j

/-! ## The crystal -/

theorem getQ_smaller (ht : 0 < t) {l : Verif.Crystal.Lattice} (h : Valid l) {Q : Vec} (hQ : Q ≠ 0) {q : ℝ} (hq : l.getQ Q = .ok q) :
    (smallerCell t l).getQ Q = .ok (t * q) := by
  obtain ⟨E, F, hE, hF⟩ := Verif.Crystal.valid_realised h
  obtain ⟨_, _, _, e1, _⟩ := Verif.Crystal.C41_spacing h hE hF hQ
  obtain ⟨_, _, _, e2, _⟩ := Verif.Crystal.C41_spacing (Verif.Resolution.smallerCell_valid ht h) (Verif.Resolution.smallerCell_real hE)
    (Verif.Resolution.smallerCell_dual ht hF) hQ
  rw [hq] at e1
  rw [e2, Except.ok.inj e1, Verif.Resolution.vecOf_times, Verif.Resolution.len_times ht]

theorem getPhi_smaller (ht : 0 < t) {l : Verif.Crystal.Lattice} (h : Valid l) {u v Q : Vec} (hQ : Q ≠ 0) (hn : crossProduct u v ≠ 0) :
    getPhi (smallerCell t l) u v Q = getPhi l u v Q := by
  obtain ⟨E, F, hE, hF⟩ := Verif.Crystal.valid_realised h
  unfold getPhi
  rw [Verif.Crystal.C42_angle h hE hF hQ hn, Verif.Crystal.C42_angle (Verif.Resolution.smallerCell_valid ht h) (Verif.Resolution.smallerCell_real hE)
    (Verif.Resolution.smallerCell_dual ht hF) hQ hn, Verif.Resolution.vecOf_times, Verif.Resolution.vecOf_times]
  unfold Verif.Crystal.angleDeg
  rw [Verif.Resolution.len_times ht, Verif.Resolution.len_times ht, smul_dotProduct, dotProduct_smul, smul_eq_mul, smul_eq_mul,
    mul_mul_mul_comm, ← mul_assoc, mul_div_mul_left _ _ (by positivity)]

theorem kinetic_times (c : Verif.Energy.Consts) (k : ℝ) : kinetic c (t * k) = t ^ 2 * kinetic c k := by
  rw [Verif.Tools.kinetic_eq, Verif.Tools.kinetic_eq c k]
  ring

theorem kinematics_faster (ht : 0 < t) {c : Consts} {i : Inst} {Q : Vec} {W q : ℝ} {k : Kin} (hl : Valid i.sample.lattice)
    (hk : kinematics c i Q W = .ok k) (hq : i.sample.lattice.getQ Q = .ok q) : kinematics c (i.faster t) Q (t ^ 2 * W) = .ok (k.quicker t) := by
  obtain ⟨hQ, hq0, hF⟩ := facts hl hk hq
  obtain ⟨ph, hph, ephi⟩ := kinematics_phi hk
  have hn : crossProduct i.sample.u i.sample.v ≠ 0 := by
    intro h0
    unfold getPhi at hph
    rw [h0] at hph
    unfold Verif.Crystal.Lattice.getAngleBetweenPlanes at hph
    obtain ⟨gs, -, hx⟩ := bind_eq_ok.1 hph
    obtain ⟨s1, -, hx⟩ := bind_eq_ok.1 hx
    obtain ⟨s2, g2, hx⟩ := bind_eq_ok.1 hx
    have : s2 = 0 := by
      simp [Verif.Crystal.npSqrt] at g2
      exact g2.symm
    rw [this] at hx
    obtain ⟨s3, -, hx⟩ := bind_eq_ok.1 hx
    obtain ⟨s4, g4, hx⟩ := bind_eq_ok.1 hx
    exact (npDiv_eq g4).1 rfl
  have hl' := Verif.Resolution.smallerCell_valid ht hl
  have hq' := getQ_smaller ht hl hQ hq
  have hs : q ≤ 2 * k.ki := by
    rw [hF.bragg]
    have := hF.ki
    nlinarith [sin_le_one (k.theta / 2)]
  obtain ⟨k', hk', e1, e2⟩ := kinematics_of (c := c) (i := i.faster t) (W := t ^ 2 * W) (q := t * q) (ki := t * k.ki) (kf := t * k.kf) hl' hQ hn hq'
    (mul_nonneg (by positivity) hF.loss) (mul_pos ht hF.ki) (mul_pos ht hF.kf) ((kinetic_times _ _).trans (congrArg _ hF.initial))
    ((kinetic_times _ _).trans ((congrArg _ hF.final).trans (mul_sub _ _ _))) (by nlinarith)
  obtain ⟨-, -, hF'⟩ := facts (i := i.faster t) hl' hk' hq'
  obtain ⟨ph', hph', ephi'⟩ := kinematics_phi hk'
  have e3 : k'.phi = k.phi := by
    rw [ephi, ephi']
    have := (getPhi_smaller ht hl hQ hn).symm.trans hph'
    rw [hph] at this
    rw [Except.ok.inj this]
  have e4 : k'.theta = k.theta := by
    have hb := hF'.bragg
    rw [e1, hF.bragg] at hb
    have hsin : sin (k'.theta / 2) = sin (k.theta / 2) := by
      have := hF.ki
      have h2 : 2 * (t * k.ki) ≠ 0 := by positivity
      refine mul_left_cancel₀ h2 ?_
      linarith
    have := injOn_sin ⟨by linarith [hF'.theta0, pi_pos], by linarith [hF'.theta1]⟩ ⟨by linarith [hF.theta0, pi_pos], by linarith [hF.theta1]⟩ hsin
    linarith
  have e5 : k'.vi = t * k.vi := by
    rw [hF'.vi, hF.vi, e1]
    ring
  have e6 : k'.vf = t * k.vf := by
    rw [hF'.vf, hF.vf, e2]
    ring
  rw [hk']
  obtain ⟨a1, a2, a3, a4, a5, a6⟩ := k'
  unfold Kin.quicker
  dsimp only at e1 e2 e3 e4 e5 e6
  rw [e1, e2, e3, e4, e5, e6]

theorem getAngle_times (ht : 0 < t) (ki kf q g : ℝ) (b : Bool) : getAngleKiQ (t * ki) (t * kf) (t * q) g b = getAngleKiQ ki kf q g b := by
  unfold getAngleKiQ
  rw [show (t * ki) ^ 2 - (t * kf) ^ 2 + (t * q) ^ 2 = t ^ 2 * (ki ^ 2 - kf ^ 2 + q ^ 2) by ring,
    show 2 * (t * ki) * (t * q) = t ^ 2 * (2 * ki * q) by ring, Verif.Resolution.npDiv_both (pow_ne_zero 2 ht.ne')]
  simp only [mul_eq_zero, ht.ne', false_or]

theorem rotation_axes (a : ℝ) : rotation a * diagonal (fun i => (fasterAxes t i)⁻¹) = diagonal (fun i => (fasterAxes t i)⁻¹) * rotation a := by
  ext x y
  rw [mul_diagonal, diagonal_mul]
  fin_cases x <;> fin_cases y <;> simp [rotation, fasterAxes, mul_comm]

/-! ## C216 -/

/-- C216, one direction. -/
theorem faster_ok (ht : 0 < t) {c : Consts} {i : Inst} {Q : Vec} {W r0 : ℝ} {RM : M4} (hl : Valid i.sample.lattice) (h1 : i.over.sThetaI.isSome)
    (h2 : i.over.sPhiI.isSome) (h : calcInQ c i Q W = .ok (r0, RM)) : ∃ r0', calcInQ c (i.faster t) Q (t ^ 2 * W) = .ok (r0', onAxes t RM) := by
  obtain ⟨m, k, f, q, a, st⟩ := steps h
  obtain ⟨lam, -, hm⟩ := st.dec
  obtain ⟨hQ, hq0, hF⟩ := facts hl st.kin st.len
  have hk := kinematics_faster ht hl st.kin st.len
  have hq := getQ_smaller ht hl hQ st.len
  have ha := (getAngle_times ht k.ki k.kf q (-1) false).trans st.angle
  have hei : 0 < (i.faster t).ei := mul_pos (by positivity) hF.ei
  obtain ⟨lam', _, _, hlam, -⟩ := Verif.Energy.derive_consistent c.scipy hei
  have hm' : decode (i.faster t) lam' = .ok (m.quicker t) := by
    rw [decode_faster ht i h1 h2 lam lam', hm]
    rfl
  have et (x v : ℝ) : x / (t * v) = t⁻¹ * (x / v) := by
    rw [div_mul_eq_div_div, div_right_comm, div_eq_inv_mul]
  have hc : covariance (jacobi c f (m.quicker t) (k.quicker t) ((m.quicker t).lPm / (k.quicker t).vi) ((m.quicker t).lSd / (k.quicker t).vf)) (sigmas (m.quicker t)) =
      diagonal (fasterAxes t) * covariance (jacobi c f m k (m.lPm / k.vi) (m.lSd / k.vf)) (sigmas m) * diagonal (fasterAxes t) := by
    rw [← covariance_quicker ht, ← et, ← et]
    rfl
  have hne := Verif.Resolution.fasterAxes_ne ht
  have hdet : (covariance (jacobi c f (m.quicker t) (k.quicker t) ((m.quicker t).lPm / (k.quicker t).vi) ((m.quicker t).lSd / (k.quicker t).vf))
      (sigmas (m.quicker t))).det ≠ 0 := by
    rw [hc, det_mul, det_mul, det_diagonal]
    have := Finset.prod_ne_zero_iff.2 fun j (_ : j ∈ Finset.univ) => hne j
    exact mul_ne_zero (mul_ne_zero this st.det) this
  have hspd := (Verif.Resolution.posDef_iff_spd _).1 (turned_posDef (covariance_posDef_of_det hdet) a)
  obtain ⟨r0', RM', hr⟩ := calcInQ_of (i := i.faster t) hlam hm' hk st.form (mul_ne_zero ht.ne' st.vi) (mul_ne_zero ht.ne' st.vf) st.pm st.sd st.tan hdet hq ha
    (hspd.pos ![Q 0, Q 1, Q 2, t ^ 2 * W] (by
      by_contra hn
      push Not at hn
      refine hQ (funext fun b => ?_)
      fin_cases b
      · exact hn 0
      · exact hn 1
      · exact hn 2)).ne'
  refine ⟨r0', ?_⟩
  rw [hr]
  obtain ⟨m', k', f', q', a', st'⟩ := steps hr
  obtain ⟨lam2, hl2, hm2⟩ := st'.dec
  rw [hlam] at hl2
  obtain rfl : lam' = lam2 := by simpa using hl2
  rw [hm'] at hm2
  obtain rfl := Except.ok.inj hm2
  have hk2 := st'.kin
  rw [hk] at hk2
  obtain rfl := Except.ok.inj hk2
  have hf2 := st'.form
  obtain rfl := Except.ok.inj (st.form.symm.trans hf2)
  obtain rfl := Except.ok.inj (hq.symm.trans st'.len)
  obtain rfl := Except.ok.inj (ha.symm.trans st'.angle)
  rw [st'.rm, st.rm, hc]
  have hi : (diagonal (fasterAxes t))⁻¹ = diagonal fun i => (fasterAxes t i)⁻¹ := by
    refine inv_eq_right_inv ?_
    rw [diagonal_mul_diagonal, ← diagonal_one]
    congr 1
    funext i
    exact mul_inv_cancel₀ (hne i)
  have ht' : (rotation a)ᵀ * diagonal (fun i => (fasterAxes t i)⁻¹) = diagonal (fun i => (fasterAxes t i)⁻¹) * (rotation a)ᵀ := by
    have := congrArg transpose (rotation_axes (t := t) a)
    rw [transpose_mul, transpose_mul, diagonal_transpose] at this
    exact this.symm
  rw [Matrix.mul_inv_rev, Matrix.mul_inv_rev, hi]
  unfold onAxes
  simp only [Matrix.mul_assoc]
  rw [← rotation_axes]
  simp only [← Matrix.mul_assoc]
  rw [ht']

theorem faster_back (ht : 0 < t) (i : Inst) : (i.faster t).faster t⁻¹ = i := by
  have k1 (x : ℝ) : t⁻¹ * (t * x) = x := inv_mul_cancel_left₀ ht.ne' x
  have k2 (x : ℝ) : t * (t⁻¹ * x) = x := mul_inv_cancel_left₀ ht.ne' x
  have k3 (x : ℝ) : t⁻¹ ^ 2 * (t ^ 2 * x) = x := by rw [inv_pow]; exact inv_mul_cancel_left₀ (by positivity) x
  have ko (o : Option ℝ) : (o.map (t⁻¹ * ·)).map (t * ·) = o := by
    cases o with
    | none => rfl
    | some x => exact congrArg some (k2 x)
  obtain ⟨ei, ch, ⟨⟨a, b, cc, al, be, ga⟩, u, v, mo, vmo, dist⟩, ⟨sh, he, ra, hp, vp, ta, ori⟩, gu, thI, phI, ⟨o1, o2, o3, o4, o5, o6, o7, o8, o9, o10, o11, o12, o13⟩⟩ := i
  have kc : (ch.map (Disc.quicker t)).map (Disc.quicker t⁻¹) = ch := by
    rw [List.map_map]
    refine (List.map_congr_left fun d _ => ?_).trans (List.map_id ch)
    obtain ⟨⟨sp, w, kind, acc, cr, rad, dep, ov⟩, dist⟩ := d
    simp only [Function.comp_apply, Disc.quicker, inv_inv, k1, ko, id]
  simp only [Inst.faster, Overrides.quicker, smallerCell, inv_inv, k2, k3, ko, kc]

/-- C216.  Let the neutrons be `t` times as fast, all times `t` times as short and the cell of the crystal `t` times as small, the divergence of the beam being
given.  Then `calc_resolution_in_Q_coords` has a result at the same Miller indices and `t ^ 2` times the energy transfer just when the first instrument has, and
the matrix is that of a resolution `t` times as wide in the wavevector and `t ^ 2` times as wide in the energy. -/
theorem C216_faster (ht : 0 < t) {c : Consts} {i : Inst} {Q : Vec} {W : ℝ} (hl : Valid i.sample.lattice) (h1 : i.over.sThetaI.isSome)
    (h2 : i.over.sPhiI.isSome) (RM : M4) : (∃ r0, calcInQ c i Q W = .ok (r0, RM)) ↔
      ∃ r0, calcInQ c (i.faster t) Q (t ^ 2 * W) = .ok (r0, Matrix.of fun x y => RM x y / (fasterAxes t x * fasterAxes t y)) := by
  have ho : (Matrix.of fun x y => RM x y / (fasterAxes t x * fasterAxes t y)) = onAxes t RM := by
    ext x y
    exact (Verif.Resolution.onAxes_apply t RM x y).symm
  rw [ho]
  constructor
  · rintro ⟨r0, h⟩
    exact faster_ok ht hl h1 h2 h
  · rintro ⟨r0, h⟩
    obtain ⟨r1, h'⟩ := faster_ok (i := i.faster t) (inv_pos.2 ht) (Verif.Resolution.smallerCell_valid ht hl) h1 h2 h
    rw [faster_back ht, inv_pow, inv_mul_cancel_left₀ (by positivity)] at h'
    refine ⟨r1, h'.trans ?_⟩
    congr 2
    ext x y
    rw [Verif.Resolution.onAxes_apply, Verif.Resolution.onAxes_apply]
    have e (x : Fin 4) : fasterAxes t⁻¹ x = (fasterAxes t x)⁻¹ := by
      fin_cases x <;> simp [fasterAxes]
    have n1 := Verif.Resolution.fasterAxes_ne ht x
    have n2 := Verif.Resolution.fasterAxes_ne ht y
    rw [e, e]
    field_simp

/-- The hypotheses of C216 are met by the example with a given divergence of the beam, which has a result at an elastic point. -/
example (c : Consts) : ∃ i : Inst, Valid i.sample.lattice ∧ i.over.sThetaI.isSome ∧ i.over.sPhiI.isSome ∧ ∃ r0 RM, calcInQ c i ![1, 0, 0] 0 = .ok (r0, RM) := by
  have hp := pi_pos
  have hQ : (![1, 0, 0] : Vec) ≠ 0 := fun h => by simpa using congrFun h 0
  refine ⟨bench c cs!"spherical" { sThetaI := some 1, sPhiI := some 1 }, bench_valid, rfl, rfl, ?_⟩
  obtain ⟨lam, hlam, hl0⟩ := wave_bench c cs!"spherical" { sThetaI := some 1, sPhiI := some 1 }
  obtain ⟨m, hm, e1, e2, e3, e4, -, e6, -, e8, e9, e10, e11, -⟩ := decode_bench c cs!"spherical" { sThetaI := some 1, sPhiI := some 1 } lam
  have hq : benchSample.lattice.getQ ![1, 0, 0] = .ok 1 := by
    rw [getQ_bench hQ]
    simp
  refine C137_exists_partial (m := m) (f := .spherical) (ki := 1) (kf := 1) bench_valid hQ ?_ hlam hm (spherical_form _ rfl) hq le_rfl one_pos one_pos rfl (sub_zero _).symm ?_ e1 e2
    ?_ ?_ ?_ ?_ ?_ ?_ (fun h => by cases h)
  · change crossProduct benchSample.u benchSample.v ≠ 0
    rw [cross_bench]
    exact fun h => by simpa using congrFun h 2
  · rw [Verif.Tools.closes_iff one_pos zero_le_one one_pos, abs_le]
    norm_num
  · rw [e6]; norm_num
  · rw [e8]; norm_num
  · rw [e4]; norm_num
  all_goals
    first | rw [e9] | rw [e10] | rw [e11]
    unfold deg2rad
    simp only [Option.getD_none, Option.getD_some]
    positivity

end Verif.Tof
