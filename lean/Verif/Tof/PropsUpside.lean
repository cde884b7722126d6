import Verif.Tof.PropsSize
import Verif.Resolution.PropsWavelengthCrystal

/-!
# Property C217: the time-of-flight resolution at the opposite point
-/

namespace Verif.Tof

open Real Matrix
open Verif.Crystal (Fail Vec Mat npDiv deg2rad getPhi Valid Realises Dual len vecOf)
open Verif.Resolution (M4 npInv)
open Verif.Tools (Arg quad kinetic getAngleKiQ)

/-! ## Specification -/

/-- The instrument with the incident beam inclined to the other side of the plane. -/
def Inst.upside (i : Inst) : Inst := { i with phiI := -i.phiI }

/-- The vertical component of the wavevector has the other sign. -/
def upsideAxes : Fin 4 → ℝ := ![1, 1, -1, 1]

/-- A matrix with respect to such axes. -/
def upsideMatrix (R : M4) : M4 := Matrix.of fun x y => upsideAxes x * upsideAxes y * R x y

/-! ## Lemmas -/

/-- The angles of the inclined beam. -/
def Measures.upside (m : Measures) : Measures := { m with phiI := -m.phiI }

/-- The angle of the scattered neutrons to the plane, on the other side. -/
def Kin.upside (k : Kin) : Kin := { k with phi := -k.phi }

/-- The columns of the Jacobian that change sign: the rates of the two angles to the plane. -/
def upsideColumns : Fin 9 → ℝ := ![1, 1, 1, 1, 1, 1, -1, 1, -1]

theorem upside_decode (i : Inst) (lam : ℝ) : decode i.upside lam = (decode i lam).map Measures.upside := by
  obtain ⟨ei, ch, sa, de, gu, thI, phI, ov⟩ := i
  have e : deg2rad (-phI) = -deg2rad phI := by unfold deg2rad; ring
  unfold decode Inst.upside
  dsimp only
  rcases ch with _ | ⟨p, _ | ⟨m, ch⟩⟩
  · rfl
  · rfl
  simp only [ok_bind]
  cases p.toChopper.tau with
  | error e => rfl
  | ok tp =>
  cases m.toChopper.tau with
  | error e => rfl
  | ok tm =>
  obtain ⟨la, u, v, mo, vmo, dist⟩ := sa
  cases dist with
  | none => rfl
  | some dist =>
  rcases gu with _ | ⟨g, _ | ⟨h, gu⟩⟩
  · rfl
  · rfl
  simp only [ok_bind]
  cases hd : npDiv de.radius (cos (deg2rad (mo.getD 60 / 60))) with
  | error e => rfl
  | ok sl =>
  cases h.sigmaTheta with
  | error e => rfl
  | ok st =>
  cases npMax de.height with
  | error e => rfl
  | ok top =>
  simp only [lift, ok_bind]
  cases npDiv top de.vpixels with
  | error e => rfl
  | ok pix =>
  refine congrArg Except.ok ?_
  simp only [Measures.upside, e]

theorem upside_R (f : Form) (m : Measures) (k : Kin) (v : Fin 2 → ℝ) (a : Fin 3) :
    (matR f m.upside k.upside *ᵥ v) a = upsideAxes a.castSucc * (matR f m k *ᵥ v) a := by
  cases f <;> fin_cases a <;> simp [matR, Measures.upside, Kin.upside, upsideAxes, Matrix.mulVec, dotProduct, Fin.sum_univ_two, Fin.castSucc] <;> ring

theorem upside_RttI (m : Measures) (v : Fin 2 → ℝ) (a : Fin 3) : (matRttI m.upside *ᵥ v) a = upsideAxes a.castSucc * (matRttI m *ᵥ v) a := by
  fin_cases a <;> simp [matRttI, Measures.upside, upsideAxes, Matrix.mulVec, dotProduct, Fin.sum_univ_two, Fin.castSucc]

theorem upside_RphI (m : Measures) (v : Fin 2 → ℝ) (a : Fin 3) : (matRphI m.upside *ᵥ v) a = -1 * (upsideAxes a.castSucc * (matRphI m *ᵥ v) a) := by
  fin_cases a <;> simp [matRphI, Measures.upside, upsideAxes, Matrix.mulVec, dotProduct, Fin.sum_univ_two, Fin.castSucc]

theorem upside_Rtt (f : Form) (k : Kin) (v : Fin 2 → ℝ) (a : Fin 3) : (matRtt f k.upside *ᵥ v) a = upsideAxes a.castSucc * (matRtt f k *ᵥ v) a := by
  cases f <;> fin_cases a <;> simp [matRtt, Kin.upside, upsideAxes, Matrix.mulVec, dotProduct, Fin.sum_univ_two, Fin.castSucc]

theorem upside_Rph (f : Form) (k : Kin) (v : Fin 2 → ℝ) (a : Fin 3) : (matRph f k.upside *ᵥ v) a = -1 * (upsideAxes a.castSucc * (matRph f k *ᵥ v) a) := by
  cases f <;> fin_cases a <;> simp [matRph, Kin.upside, upsideAxes, Matrix.mulVec, dotProduct, Fin.sum_univ_two, Fin.castSucc]

theorem upside_qDerivs (c : Consts) (f : Form) (m : Measures) (k : Kin) (ti tf : ℝ) (j : Fin 9) (a : Fin 3) :
    qDerivs c f m.upside k.upside ti tf j a = upsideColumns j * (upsideAxes a.castSucc * qDerivs c f m k ti tf j a) := by
  unfold qDerivs
  fin_cases j
  · exact (upside_R f m k _ a).trans (one_mul _).symm
  · exact (upside_R f m k _ a).trans (one_mul _).symm
  · exact (upside_R f m k _ a).trans (one_mul _).symm
  · exact (upside_R f m k _ a).trans (one_mul _).symm
  · exact (upside_R f m k _ a).trans (one_mul _).symm
  · exact (upside_RttI m _ a).trans (one_mul _).symm
  · exact upside_RphI m _ a
  · exact (upside_Rtt f k _ a).trans (one_mul _).symm
  · exact upside_Rph f k _ a

theorem upside_eDerivs (c : Consts) (m : Measures) (ti tf : ℝ) (j : Fin 9) : eDerivs c m.upside ti tf j = upsideColumns j * (1 * eDerivs c m ti tf j) := by
  have e : eDerivs c m.upside ti tf = eDerivs c m ti tf := rfl
  rw [e]
  fin_cases j
  · exact ((one_mul _).trans (one_mul _)).symm
  · exact ((one_mul _).trans (one_mul _)).symm
  · exact ((one_mul _).trans (one_mul _)).symm
  · exact ((one_mul _).trans (one_mul _)).symm
  · exact ((one_mul _).trans (one_mul _)).symm
  · exact ((one_mul _).trans (one_mul _)).symm
  · exact (show (-1 : ℝ) * (1 * 0) = 0 by ring).symm
  · exact ((one_mul _).trans (one_mul _)).symm
  · exact (show (-1 : ℝ) * (1 * 0) = 0 by ring).symm

theorem upside_covariance (c : Consts) (f : Form) (m : Measures) (k : Kin) (ti tf : ℝ) :
    covariance (jacobi c f m.upside k.upside ti tf) (sigmas m.upside) =
      diagonal upsideAxes * covariance (jacobi c f m k ti tf) (sigmas m) * diagonal upsideAxes := by
  have hj (a : Fin 4) (j : Fin 9) : jacobi c f m.upside k.upside ti tf a j = upsideColumns j * (upsideAxes a * jacobi c f m k ti tf a j) := by
    have r (x y z w : ℝ) (h : x = y * (z * w)) : x * 1e-10 = y * (z * (w * 1e-10)) := by rw [h]; ring
    unfold jacobi
    fin_cases a
    · exact r _ _ _ _ (upside_qDerivs c f m k ti tf j 0)
    · exact r _ _ _ _ (upside_qDerivs c f m k ti tf j 1)
    · exact r _ _ _ _ (upside_qDerivs c f m k ti tf j 2)
    · exact upside_eDerivs c m ti tf j
  have hs : sigmas m.upside = sigmas m := rfl
  have hu (j : Fin 9) : upsideColumns j * upsideColumns j = 1 := by fin_cases j <;> simp [upsideColumns]
  rw [hs]
  unfold covariance
  ext a b
  rw [mul_diagonal, diagonal_mul, Matrix.mul_apply, Matrix.mul_apply, Finset.mul_sum, Finset.sum_mul]
  refine Finset.sum_congr rfl fun j _ => ?_
  rw [mul_diagonal, mul_diagonal, transpose_apply, transpose_apply, hj, hj]
  linear_combination (sigmas m j ^ 2 * (upsideAxes a * jacobi c f m k ti tf a j) * (upsideAxes b * jacobi c f m k ti tf b j)) * hu j

/-! ## The crystal -/

theorem getQ_neg {l : Verif.Crystal.Lattice} (h : Valid l) {Q : Vec} (hQ : Q ≠ 0) : l.getQ (-Q) = l.getQ Q := by
  obtain ⟨E, F, hE, hF⟩ := Verif.Crystal.valid_realised h
  obtain ⟨_, _, _, e1, _⟩ := Verif.Crystal.C41_spacing h hE hF hQ
  obtain ⟨_, _, _, e2, _⟩ := Verif.Crystal.C41_spacing h hE hF (neg_ne_zero.2 hQ)
  rw [e1, e2, ← neg_one_smul ℝ Q, Verif.Crystal.vecOf_smul, neg_one_smul]
  unfold len
  rw [neg_dotProduct_neg]

theorem getPhi_neg {l : Verif.Crystal.Lattice} (h : Valid l) {u v Q : Vec} (hQ : Q ≠ 0) (hn : crossProduct u v ≠ 0) {ph : ℝ} (hp : getPhi l u v Q = .ok ph) :
    getPhi l u v (-Q) = .ok (180 - ph) := by
  obtain ⟨φ, e1, -, e2⟩ := Verif.Crystal.C42_scaling h hQ hn (n := -1)
  unfold getPhi at hp ⊢
  rw [e1] at hp
  rw [← Except.ok.inj hp, ← neg_one_smul ℝ Q]
  exact e2 (by norm_num)

/-- The orientation vectors are independent if there is an angle to their plane. -/
theorem plane_of_phi {l : Verif.Crystal.Lattice} {u v Q : Vec} {ph : ℝ} (hph : getPhi l u v Q = .ok ph) : crossProduct u v ≠ 0 := by
  intro h0
  unfold getPhi at hph
  rw [h0] at hph
  unfold Verif.Crystal.Lattice.getAngleBetweenPlanes at hph
  obtain ⟨gs, -, hx⟩ := bind_eq_ok.1 hph
  obtain ⟨s1, -, hx⟩ := bind_eq_ok.1 hx
  obtain ⟨s2, g2, hx⟩ := bind_eq_ok.1 hx
  have : s2 = 0 := by
    simp [Verif.Crystal.npSqrt] at g2
    exact g2.symm
  rw [this] at hx
  obtain ⟨s3, -, hx⟩ := bind_eq_ok.1 hx
  obtain ⟨s4, g4, hx⟩ := bind_eq_ok.1 hx
  exact (npDiv_eq g4).1 rfl

theorem upside_kinematics {c : Consts} {i : Inst} {Q : Vec} {W q : ℝ} {k : Kin} (hl : Valid i.sample.lattice)
    (hk : kinematics c i Q W = .ok k) (hq : i.sample.lattice.getQ Q = .ok q) : kinematics c i.upside (-Q) W = .ok k.upside := by
  obtain ⟨hQ, hq0, hF⟩ := facts hl hk hq
  obtain ⟨ph, hph, ephi⟩ := kinematics_phi hk
  have hn := plane_of_phi hph
  have hq' : i.upside.sample.lattice.getQ (-Q) = .ok q := (getQ_neg hl hQ).trans hq
  have hs : q ≤ 2 * k.ki := by
    rw [hF.bragg]
    have := hF.ki
    nlinarith [sin_le_one (k.theta / 2)]
  obtain ⟨k', hk', e1, e2⟩ := kinematics_of (c := c) (i := i.upside) (W := W) hl (neg_ne_zero.2 hQ) hn hq' hF.loss hF.ki hF.kf hF.initial hF.final hs
  obtain ⟨-, -, hF'⟩ := facts (i := i.upside) hl hk' hq'
  obtain ⟨ph', hph', ephi'⟩ := kinematics_phi hk'
  have e3 : k'.phi = -k.phi := by
    have := (getPhi_neg hl hQ hn hph).symm.trans hph'
    rw [ephi, ephi', ← Except.ok.inj this]
    unfold deg2rad
    ring
  have e4 : k'.theta = k.theta := by
    have hb := hF'.bragg
    rw [e1, hF.bragg] at hb
    have hsin : sin (k'.theta / 2) = sin (k.theta / 2) := by
      have := hF.ki
      have h2 : 2 * k.ki ≠ 0 := by positivity
      exact (mul_left_cancel₀ h2 hb).symm
    have := injOn_sin ⟨by linarith [hF'.theta0, pi_pos], by linarith [hF'.theta1]⟩ ⟨by linarith [hF.theta0, pi_pos], by linarith [hF.theta1]⟩ hsin
    linarith
  have e5 : k'.vi = k.vi := by rw [hF'.vi, hF.vi, e1]
  have e6 : k'.vf = k.vf := by rw [hF'.vf, hF.vf, e2]
  rw [hk']
  obtain ⟨a1, a2, a3, a4, a5, a6⟩ := k'
  unfold Kin.upside
  dsimp only at e1 e2 e3 e4 e5 e6
  rw [e1, e2, e3, e4, e5, e6]

theorem upside_rotation (a : ℝ) : rotation a * diagonal upsideAxes = diagonal upsideAxes * rotation a := by
  ext x y
  rw [mul_diagonal, diagonal_mul]
  fin_cases x <;> fin_cases y <;> simp [rotation, upsideAxes]

theorem upside_square : diagonal upsideAxes * diagonal upsideAxes = (1 : M4) := by
  rw [diagonal_mul_diagonal, ← diagonal_one]
  congr 1
  funext x
  fin_cases x <;> simp [upsideAxes]

theorem upsideMatrix_eq (R : M4) : upsideMatrix R = diagonal upsideAxes * R * diagonal upsideAxes := by
  ext x y
  rw [mul_diagonal, diagonal_mul]
  show upsideAxes x * upsideAxes y * R x y = _
  ring

/-! ## C217 -/

/-- C217, one direction. -/
theorem upside_ok {c : Consts} {i : Inst} {Q : Vec} {W r0 : ℝ} {RM : M4} (hl : Valid i.sample.lattice) (h : calcInQ c i Q W = .ok (r0, RM)) :
    ∃ r0', calcInQ c i.upside (-Q) W = .ok (r0', upsideMatrix RM) := by
  obtain ⟨m, k, f, q, a, st⟩ := steps h
  obtain ⟨lam, hlam, hm⟩ := st.dec
  obtain ⟨hQ, hq0, hF⟩ := facts hl st.kin st.len
  have hk := upside_kinematics hl st.kin st.len
  have hq : i.upside.sample.lattice.getQ (-Q) = .ok q := (getQ_neg hl hQ).trans st.len
  have hm' : decode i.upside lam = .ok m.upside := by
    rw [upside_decode, hm]
    rfl
  have hc : covariance (jacobi c f m.upside k.upside (m.upside.lPm / k.upside.vi) (m.upside.lSd / k.upside.vf)) (sigmas m.upside) =
      diagonal upsideAxes * covariance (jacobi c f m k (m.lPm / k.vi) (m.lSd / k.vf)) (sigmas m) * diagonal upsideAxes :=
    upside_covariance c f m k _ _
  have hd : (diagonal upsideAxes : M4).det ≠ 0 := fun h0 => by
    have := congrArg det upside_square
    rw [det_mul, h0, det_one] at this
    norm_num at this
  have hdet : (covariance (jacobi c f m.upside k.upside (m.upside.lPm / k.upside.vi) (m.upside.lSd / k.upside.vf)) (sigmas m.upside)).det ≠ 0 := by
    rw [hc, det_mul, det_mul]
    exact mul_ne_zero (mul_ne_zero hd st.det) hd
  have htan : f = .cylinder → cos k.upside.phi ≠ 0 := fun hf => by
    rw [show k.upside.phi = -k.phi from rfl, cos_neg]
    exact st.tan hf
  have hspd := (Verif.Resolution.posDef_iff_spd _).1 (turned_posDef (covariance_posDef_of_det hdet) a)
  obtain ⟨r0', RM', hr⟩ := calcInQ_of (i := i.upside) (Q := -Q) hlam hm' hk st.form st.vi st.vf st.pm st.sd htan hdet hq st.angle
    (hspd.pos ![(-Q) 0, (-Q) 1, (-Q) 2, W] (by
      by_contra hn
      push Not at hn
      refine hQ (funext fun b => ?_)
      fin_cases b
      · exact neg_eq_zero.1 (hn 0)
      · exact neg_eq_zero.1 (hn 1)
      · exact neg_eq_zero.1 (hn 2))).ne'
  refine ⟨r0', ?_⟩
  rw [hr]
  obtain ⟨m', k', f', q', a', st'⟩ := steps hr
  obtain ⟨lam2, hl2, hm2⟩ := st'.dec
  rw [show i.upside.ei = i.ei from rfl, hlam] at hl2
  obtain rfl : lam = lam2 := by simpa using hl2
  rw [hm'] at hm2
  obtain rfl := Except.ok.inj hm2
  have hk2 := st'.kin
  rw [hk] at hk2
  obtain rfl := Except.ok.inj hk2
  have hf2 := st'.form
  obtain rfl := Except.ok.inj (st.form.symm.trans hf2)
  obtain rfl := Except.ok.inj (hq.symm.trans st'.len)
  obtain rfl := Except.ok.inj (st.angle.symm.trans st'.angle)
  rw [st'.rm, st.rm, hc, upsideMatrix_eq]
  have hi : (diagonal upsideAxes : M4)⁻¹ = diagonal upsideAxes := inv_eq_right_inv upside_square
  have ht' : (rotation a)ᵀ * diagonal upsideAxes = diagonal upsideAxes * (rotation a)ᵀ := by
    have := congrArg transpose (upside_rotation a)
    rw [transpose_mul, transpose_mul, diagonal_transpose] at this
    exact this.symm
  rw [Matrix.mul_inv_rev, Matrix.mul_inv_rev, hi]
  simp only [Matrix.mul_assoc]
  rw [← upside_rotation]
  simp only [← Matrix.mul_assoc]
  rw [ht']

/-- C217.  At the opposite point, with the incident beam inclined to the other side of the plane, `calc_resolution_in_Q_coords` has a result just when it has one
at the first point, and the matrix is the mirror image with respect to the plane. -/
theorem C217_opposite {c : Consts} {i : Inst} {Q : Vec} {W : ℝ} (hl : Valid i.sample.lattice) (RM : M4) :
    (∃ r0, calcInQ c i Q W = .ok (r0, RM)) ↔ ∃ r0, calcInQ c i.upside (-Q) W = .ok (r0, upsideMatrix RM) := by
  constructor
  · rintro ⟨r0, h⟩
    exact upside_ok hl h
  · rintro ⟨r0, h⟩
    obtain ⟨r1, h'⟩ := upside_ok (i := i.upside) hl h
    have e1 : i.upside.upside = i := by
      obtain ⟨ei, ch, sa, de, gu, thI, phI, ov⟩ := i
      simp [Inst.upside]
    have e2 : upsideMatrix (upsideMatrix RM) = RM := by
      have hu (x : Fin 4) : upsideAxes x * upsideAxes x = 1 := by fin_cases x <;> simp [upsideAxes]
      ext x y
      show upsideAxes x * upsideAxes y * (upsideAxes x * upsideAxes y * RM x y) = RM x y
      linear_combination (upsideAxes y * upsideAxes y * RM x y) * hu x + RM x y * hu y
    rw [e1, e2, neg_neg] at h'
    exact ⟨r1, h'⟩

/-- C217 for an instrument whose beam lies in the plane, the usual one: only the point changes. -/
theorem C217_level {c : Consts} {i : Inst} {Q : Vec} {W : ℝ} (hl : Valid i.sample.lattice) (h0 : i.phiI = 0) (RM : M4) :
    (∃ r0, calcInQ c i Q W = .ok (r0, RM)) ↔ ∃ r0, calcInQ c i (-Q) W = .ok (r0, upsideMatrix RM) := by
  have e : i.upside = i := by
    obtain ⟨ei, ch, sa, de, gu, thI, phI, ov⟩ := i
    simp only [Inst.upside]
    dsimp only at h0
    rw [h0, neg_zero]
  have := C217_opposite (c := c) (Q := Q) (W := W) hl RM
  rwa [e] at this

/-- The case of C217 is met above the plane, where the two points differ. -/
example (c : Consts) : ∃ r0 RM, calcInQ c (bench c cs!"spherical" {}) ![-1, 0, -1] 0 = .ok (r0, upsideMatrix RM) ∧
    ∃ r0, calcInQ c (bench c cs!"spherical" {}) ![1, 0, 1] 0 = .ok (r0, RM) := by
  obtain ⟨-, -, r0, RM, h⟩ := bench_points c spherical_form none
  obtain ⟨r1, h1⟩ := (C217_level (Q := ![1, 0, 1]) bench_valid rfl RM).1 ⟨r0, h⟩
  refine ⟨r1, RM, ?_, r0, h⟩
  rw [← h1]
  congr 1
  ext x
  fin_cases x <;> simp

end Verif.Tof
