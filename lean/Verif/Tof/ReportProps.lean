import Verif.Tof.Report
import Verif.Tof.PropsCrystal
import Verif.Tof.PropsMore
import Verif.Resolution.ReportProps

/-! # Property C184: the text about a time-of-flight calculation -/

namespace Verif.Tof

open Real Matrix
open Verif.Crystal (Fail Vec Mat Lattice deg2rad Valid getPhi ubmatrix npSqrt npDiv)
open Verif.Resolution (M4)
open Verif.Tools (quad SPD Arg getAngleKiQ arctan2)

/-! ## Uncertainties that are s times as large -/

/-- The same measures with all uncertainties multiplied by `s`. -/
def Measures.widen (m : Measures) (s : ℝ) : Measures :=
  { m with tauP := s * m.tauP, tauM := s * m.tauM, tauD := s * m.tauD, sLPm := s * m.sLPm, sLMs := s * m.sLMs, sLSd := s * m.sLSd,
           sThetaI := s * m.sThetaI, sPhiI := s * m.sPhiI, sTheta := s * m.sTheta, sPhi := s * m.sPhi }

theorem sigmas_widen (m : Measures) {s : ℝ} (hs : 0 < s) (j : Fin 9) : sigmas (m.widen s) j = s * sigmas m j := by
  have e (x y : ℝ) : √((s * x) ^ 2 + (s * y) ^ 2) = s * √(x ^ 2 + y ^ 2) := by
    rw [show (s * x) ^ 2 + (s * y) ^ 2 = s ^ 2 * (x ^ 2 + y ^ 2) by ring, sqrt_mul (sq_nonneg s), sqrt_sq hs.le]
  fin_cases j
  · exact e _ _
  · exact e _ _
  all_goals rfl

theorem covariance_widen (J : Matrix (Fin 4) (Fin 9) ℝ) (m : Measures) {s : ℝ} (hs : 0 < s) :
    covariance J (sigmas (m.widen s)) = s ^ 2 • covariance J (sigmas m) := by
  unfold covariance
  have e : diagonal (fun j => sigmas (m.widen s) j ^ 2) = s ^ 2 • diagonal (fun j => sigmas m j ^ 2) := by
    rw [← diagonal_smul]
    congr 1
    funext j
    rw [sigmas_widen m hs, Pi.smul_apply, smul_eq_mul]
    ring
  rw [e, Matrix.mul_smul, Matrix.smul_mul]

theorem quad_smul (t : ℝ) (M : M4) (x : Fin 4 → ℝ) : quad (t • M) x = t * quad M x := by
  simp [quad, Fin.sum_univ_four]
  ring

/-- **C139** uncertainties that are all `s` times as large give a resolution matrix divided by the square of `s` and a prefactor multiplied
by it. -/
theorem C139_scale {c : Consts} {i i' : Inst} {Q : Vec} {W r0 lam s : ℝ} {RM : M4} {m : Measures} (hl : Valid i.sample.lattice) (hs : 0 < s)
    (hk : kinematics c i Q W = kinematics c i' Q W) (hei : i.ei = i'.ei) (hq : i.sample.lattice.getQ Q = i'.sample.lattice.getQ Q)
    (hd : i.detector.shape = i'.detector.shape) (hlam : (Verif.Energy.derive c.scipy i.ei).wavelen = .num lam) (hm : decode i lam = .ok m)
    (hm' : decode i' lam = .ok (m.widen s)) (h : calcInQ c i Q W = .ok (r0, RM)) :
    calcInQ c i' Q W = .ok (s ^ 2 * r0, (s ^ 2)⁻¹ • RM) := by
  obtain ⟨n, k, f, q, a, st⟩ := steps h
  obtain ⟨l1, l2, l3⟩ := st.dec
  rw [hlam] at l2
  cases l2
  obtain rfl : m = n := Except.ok.inj (hm.symm.trans l3)
  have hs2 : s ^ 2 ≠ 0 := by positivity
  have hJ : jacobi c f (m.widen s) k ((m.widen s).lPm / k.vi) ((m.widen s).lSd / k.vf) = jacobi c f m k (m.lPm / k.vi) (m.lSd / k.vf) := rfl
  have hC := covariance_widen (jacobi c f m k (m.lPm / k.vi) (m.lSd / k.vf)) m hs
  have hinv : (covariance (jacobi c f m k (m.lPm / k.vi) (m.lSd / k.vf)) (sigmas (m.widen s)))⁻¹ =
      (s ^ 2)⁻¹ • (covariance (jacobi c f m k (m.lPm / k.vi) (m.lSd / k.vf)) (sigmas m))⁻¹ := by
    rw [hC]
    refine Matrix.inv_eq_right_inv ?_
    rw [Matrix.smul_mul, Matrix.mul_smul, mul_nonsing_inv _ (isUnit_iff_ne_zero.2 st.det), smul_smul, mul_inv_cancel₀ hs2, one_smul]
  have hrm : (rotation a)ᵀ * (covariance (jacobi c f m k (m.lPm / k.vi) (m.lSd / k.vf)) (sigmas (m.widen s)))⁻¹ * rotation a = (s ^ 2)⁻¹ • RM := by
    rw [hinv, Matrix.mul_smul, Matrix.smul_mul, ← st.rm]
  have hf : formOf i'.detector = .ok f := by
    rw [← st.form]
    unfold formOf
    rw [hd]
  have hdet : (covariance (jacobi c f m k (m.lPm / k.vi) (m.lSd / k.vf)) (sigmas (m.widen s))).det ≠ 0 := by
    rw [hC, det_smul]
    exact mul_ne_zero (pow_ne_zero _ hs2) st.det
  obtain ⟨r0', RM', h'⟩ := calcInQ_of (i := i') (by rw [← hei]; exact hlam) hm' (hk.symm.trans st.kin) hf st.vi st.vf st.pm st.sd st.tan
    hdet (hq.symm.trans st.len) st.angle (by
      rw [hJ, hrm, quad_smul]
      exact mul_ne_zero (inv_ne_zero hs2) st.fwhm)
  obtain ⟨m2, k2, f2, q2, a2, st'⟩ := steps h'
  obtain ⟨lam', hlam', hm2⟩ := st'.dec
  rw [← hei, hlam] at hlam'
  cases hlam'
  have e1 : m.widen s = m2 := Except.ok.inj (hm'.symm.trans hm2)
  have e2 : k = k2 := Except.ok.inj ((hk.symm.trans st.kin).symm.trans st'.kin)
  have e3 : f = f2 := Except.ok.inj (hf.symm.trans st'.form)
  have e4 : q = q2 := Except.ok.inj ((hq.symm.trans st.len).symm.trans st'.len)
  subst e1 e2 e3 e4
  have e5 : a = a2 := Except.ok.inj (st.angle.symm.trans st'.angle)
  subst e5
  have eRM : RM' = (s ^ 2)⁻¹ • RM := by rw [st'.rm, hJ, hrm]
  rw [h', st'.r0, st.r0, eRM, quad_smul]
  have hz := st.fwhm
  congr 2
  field_simp

/-- An instrument with given uncertainties. -/
noncomputable def withWidths (i : Inst) (m : Measures) : Inst :=
  { i with over := {
      tauP := some (m.tauP * 10 ^ 6), tauM := some (m.tauM * 10 ^ 6), tauD := some (m.tauD * 10 ^ 6),
      lPm := some (m.lPm * 10 ^ 2), lMs := some (m.lMs * 10 ^ 2), lSd := some (m.lSd * 10 ^ 2),
      sLPm := some (m.sLPm * 10 ^ 2), sLMs := some (m.sLMs * 10 ^ 2), sLSd := some (m.sLSd * 10 ^ 2),
      sThetaI := some (m.sThetaI * 180 / π), sPhiI := some (m.sPhiI * 180 / π), sTheta := some (m.sTheta * 180 / π),
      sPhi := some (m.sPhi * 180 / π) } }

theorem decode_withWidths {i : Inst} {lam : ℝ} {m : Measures} (h : decode i lam = .ok m) (n : Measures) (ht : n.thetaI = m.thetaI) (hp : n.phiI = m.phiI) :
    decode (withWidths i n) lam = .ok n := by
  have hpi := pi_pos.ne'
  have e6 (x : ℝ) : x * 10 ^ 6 / 10 ^ 6 = x := by ring
  have e2 (x : ℝ) : x * 10 ^ 2 / 10 ^ 2 = x := by ring
  have ed (x : ℝ) : deg2rad (x * 180 / π) = x := by unfold deg2rad; field_simp
  unfold decode withWidths at *
  dsimp only at h ⊢
  obtain ⟨pm, h1, h⟩ := bind_eq_ok.1 h
  rw [h1, ok_bind]
  obtain ⟨tp, h2, h⟩ := bind_eq_ok.1 h
  rw [h2, ok_bind]
  obtain ⟨tm, h3, h⟩ := bind_eq_ok.1 h
  rw [h3, ok_bind]
  obtain ⟨d, h4, h⟩ := bind_eq_ok.1 h
  rw [h4, ok_bind]
  obtain ⟨gh, h5, h⟩ := bind_eq_ok.1 h
  rw [h5, ok_bind]
  obtain ⟨sl, h6, h⟩ := bind_eq_ok.1 h
  rw [h6, ok_bind]
  obtain ⟨st, h7, h⟩ := bind_eq_ok.1 h
  rw [h7, ok_bind]
  obtain ⟨tp, h8, h⟩ := bind_eq_ok.1 h
  rw [h8, ok_bind]
  obtain ⟨px, h9, h⟩ := bind_eq_ok.1 h
  rw [h9, ok_bind]
  cases h
  change Except.ok _ = Except.ok _
  dsimp only at ht hp
  rcases n with ⟨n1, n2, n3, n4, n5, n6, n7, n8, n9, n10, n11, n12, n13, n14, n15⟩
  dsimp only at ht hp ⊢
  simp only [Option.getD_some, e6, e2, ed, ht, hp]

/-! ## A calculation whose small entries are left alone -/

theorem entry_kept {x : ℝ} (h : x = 0 ∨ 1e-12 ≤ |x|) : chopEntry x = x := by
  unfold chopEntry
  rcases h with rfl | h
  · split_ifs <;> rfl
  · rw [if_neg (not_lt.2 h)]

theorem crystalFrame_smul (t : ℝ) (UB : Mat) (Q : Vec) (M : M4) : crystalFrame UB Q (t • M) = t • crystalFrame UB Q M := by
  unfold crystalFrame
  dsimp only
  rw [Matrix.mul_smul, Matrix.smul_mul]

/-- For small uncertainties no entry is small. -/
theorem exists_small (M : M4) : ∃ s : ℝ, 0 < s ∧ ∀ a b, chopEntry (((s ^ 2)⁻¹ • M) a b) = ((s ^ 2)⁻¹ • M) a b := by
  obtain ⟨e, he, hM⟩ : ∃ e : ℝ, 0 < e ∧ ∀ p : Fin 4 × Fin 4, M p.1 p.2 = 0 ∨ e ≤ |M p.1 p.2| := by
    have : ∀ S : Finset (Fin 4 × Fin 4), ∃ e : ℝ, 0 < e ∧ ∀ p ∈ S, M p.1 p.2 = 0 ∨ e ≤ |M p.1 p.2| := by
      intro S
      induction S using Finset.induction_on with
      | empty => exact ⟨1, one_pos, by simp⟩
      | insert p S _ ih =>
        obtain ⟨e, h0, h1⟩ := ih
        by_cases hz : M p.1 p.2 = 0
        · refine ⟨e, h0, fun x hx => ?_⟩
          rcases Finset.mem_insert.1 hx with rfl | hx
          · exact .inl hz
          · exact h1 x hx
        · refine ⟨min e |M p.1 p.2|, lt_min h0 (abs_pos.2 hz), fun x hx => ?_⟩
          rcases Finset.mem_insert.1 hx with rfl | hx
          · exact .inr (min_le_right _ _)
          · exact (h1 x hx).imp_right (min_le_left _ _).trans
    obtain ⟨e, h0, h1⟩ := this Finset.univ
    exact ⟨e, h0, fun p => h1 p (Finset.mem_univ _)⟩
  refine ⟨√(min 1 e), sqrt_pos.2 (lt_min one_pos he), fun a b => entry_kept ?_⟩
  rw [sq_sqrt (lt_min one_pos he).le, Matrix.smul_apply, smul_eq_mul]
  rcases hM (a, b) with h | h
  · exact .inl (by simp only at h; rw [h, mul_zero])
  · right
    have hp : 0 < min 1 e := lt_min one_pos he
    rw [abs_mul, abs_of_pos (inv_pos.2 hp), ← div_eq_inv_mul, le_div_iff₀ hp]
    have : min 1 e ≤ e := min_le_right _ _
    simp only at h
    nlinarith

theorem frame_spd {UB : Mat} (hU : UB.det ≠ 0) (Q : Vec) {M : M4} (h : SPD M) : SPD (crystalFrame UB Q M) := by
  rw [← Verif.Resolution.posDef_iff_spd] at h ⊢
  unfold crystalFrame
  dsimp only
  set A := rotation (-(-arctan2 ((UB *ᵥ Q) 1) ((UB *ᵥ Q) 0))) * extend UB with hA
  have hdet : A.det ≠ 0 := by
    rw [hA, det_mul]
    refine mul_ne_zero ?_ ?_
    · intro hz
      have := congrArg det (rotation_orth (-(-arctan2 ((UB *ᵥ Q) 1) ((UB *ᵥ Q) 0))))
      rw [det_mul, hz, mul_zero, det_one] at this
      exact zero_ne_one this
    · have : (extend UB).det = UB.det := by
        simp [extend, det_succ_row_zero, Fin.sum_univ_succ, Fin.succAbove]
      rwa [this]
  have := h.mul_mul_conjTranspose_same (B := A) (fun x y hxy => by
    have hi := isUnit_iff_ne_zero.2 hdet
    have := congrArg (fun z => z ᵥ* A⁻¹) hxy
    simpa [vecMul_vecMul, mul_nonsing_inv _ hi] using this)
  rwa [conjTranspose_eq_transpose_of_trivial] at this

/-- Every instrument, with uncertainties that are small enough, has results in which no entry is taken for zero. -/
theorem clear_case {c : Consts} {i : Inst} {Q : Vec} {W r0 : ℝ} {RM : M4} (hl : Valid i.sample.lattice) (h : calcInQ c i Q W = .ok (r0, RM))
    {UB : Mat} (hub : ubmatrix i.sample.lattice i.sample.u i.sample.v = .ok UB) (hU : UB.det ≠ 0) :
    ∃ m r, pointAt c (withWidths i m) (Q, W) = .ok r ∧ SPD r.rms := by
  obtain ⟨hS, -⟩ := C137_spd hl h
  obtain ⟨m, k, f, q, a, st⟩ := steps h
  obtain ⟨lam, hlam, hm⟩ := st.dec
  obtain ⟨s, hs, hk⟩ := exists_small (crystalFrame UB Q RM)
  have h' := C139_scale (i' := withWidths i (m.widen s)) hl hs rfl rfl rfl rfl hlam hm (decode_withWidths hm _ rfl rfl) h
  have hub' : ubmatrix (withWidths i (m.widen s)).sample.lattice (withWidths i (m.widen s)).sample.u (withWidths i (m.widen s)).sample.v = .ok UB := hub
  refine ⟨m.widen s, _, by
    unfold pointAt
    rw [h', ok_bind]
    dsimp only
    rw [hub', lift, ok_bind]
    rfl, ?_⟩
  dsimp only
  have e : (crystalFrame UB Q ((s ^ 2)⁻¹ • RM)).map chopEntry = crystalFrame UB Q ((s ^ 2)⁻¹ • RM) := by
    ext a b
    rw [map_apply, crystalFrame_smul, hk]
  rw [e]
  refine frame_spd hU Q ⟨fun a b => ?_, fun x hx => ?_⟩
  · rw [Matrix.smul_apply, Matrix.smul_apply, hS.symm]
  · rw [quad_smul]
    exact mul_pos (by positivity) (hS.pos x hx)

end Verif.Tof

namespace Verif.Tof.Report

open Real Matrix
open Verif.Crystal (Fail Vec Mat Lattice deg2rad rad2deg Valid getPhi ubmatrix npSqrt npDiv)
open Verif.Resolution (M4)
open Verif.Resolution.Report (AxisWidth VanadiumWidth volumeOf det_pos' volumeOf_pos)
open Verif.Tools (quad SPD Arg IsFWHM C91_double)

/-! ## Specification -/

/-- The numbers shown, in microseconds, centimetres and degrees, are those of the calculation, in seconds, metres and radian. -/
structure Agrees (s : Shown) (m : Measures) (k : Kin) : Prop where
  tauP : m.tauP = s.tauP * 1e-6
  tauM : m.tauM = s.tauM * 1e-6
  tauD : m.tauD = s.tauD * 1e-6
  lPm : m.lPm = s.lPm * 1e-2
  lMs : m.lMs = s.lMs * 1e-2
  lSd : m.lSd = s.lSd * 1e-2
  sLPm : m.sLPm = s.sLPm * 1e-2
  sLMs : m.sLMs = s.sLMs * 1e-2
  sLSd : m.sLSd = s.sLSd * 1e-2
  thetaI : m.thetaI = s.thetaI * (π / 180)
  phiI : m.phiI = s.phiI * (π / 180)
  sThetaI : m.sThetaI = s.sThetaI * (π / 180)
  sPhiI : m.sPhiI = s.sPhiI * (π / 180)
  twoTheta : k.theta = s.twoTheta * (π / 180)
  phi : k.phi = s.phi * (π / 180)
  sTheta : m.sTheta = s.sTheta * (π / 180)
  sPhi : m.sPhi = s.sPhi * (π / 180)

/-! ## Theorems -/

theorem shown_agrees {c : Consts} {i : Inst} {Q : Vec} {W lam : ℝ} {m : Measures} {k : Kin}
    (hlam : (Verif.Energy.derive c.scipy i.ei).wavelen = .num lam) (hm : decode i lam = .ok m) (hk : kinematics c i Q W = .ok k) :
    ∃ s, shown c i Q = .ok s ∧ Agrees s m k := by
  have ed (x : ℝ) : deg2rad x = x * (π / 180) := by unfold deg2rad; ring
  have er (x : ℝ) : x = rad2deg x * (π / 180) := by unfold rad2deg; field_simp
  unfold decode at hm
  obtain ⟨⟨p, q⟩, h1, hm⟩ := bind_eq_ok.1 hm
  obtain ⟨tp, h2, hm⟩ := bind_eq_ok.1 hm
  obtain ⟨tm, h3, hm⟩ := bind_eq_ok.1 hm
  obtain ⟨d, h4, hm⟩ := bind_eq_ok.1 hm
  obtain ⟨⟨g, g'⟩, h5, hm⟩ := bind_eq_ok.1 hm
  obtain ⟨sl, h6, hm⟩ := bind_eq_ok.1 hm
  obtain ⟨st, h7, hm⟩ := bind_eq_ok.1 hm
  obtain ⟨top, h8, hm⟩ := bind_eq_ok.1 hm
  obtain ⟨px, h9, hm⟩ := bind_eq_ok.1 hm
  cases hm
  unfold kinematics at hk
  dsimp only at hk
  obtain ⟨ki, -, hk⟩ := bind_eq_ok.1 hk
  obtain ⟨kf', -, hk⟩ := bind_eq_ok.1 hk
  obtain ⟨kf, -, hk⟩ := bind_eq_ok.1 hk
  obtain ⟨vi, -, hk⟩ := bind_eq_ok.1 hk
  obtain ⟨vf, -, hk⟩ := bind_eq_ok.1 hk
  obtain ⟨lam', k1, hk⟩ := bind_eq_ok.1 hk
  rw [hlam] at k1
  cases k1
  obtain ⟨tt, k2, hk⟩ := bind_eq_ok.1 hk
  obtain ⟨ph, k3, hk⟩ := bind_eq_ok.1 hk
  cases hk
  have hc : ∃ r, i.choppers = p :: q :: r := by
    split at h1
    · next p' q' r e => cases h1; exact ⟨r, e⟩
    · cases h1
  obtain ⟨r, hc⟩ := hc
  have hg : ∃ r, i.guides = g :: g' :: r := by
    split at h5
    · next p' q' r e => cases h5; exact ⟨r, e⟩
    · cases h5
  obtain ⟨r', hg⟩ := hg
  have hd : i.sample.distance = some d := by
    split at h4
    · next e => cases h4; exact e
    · cases h4
  have w0 : width i.choppers 0 = .ok tp := by rw [hc]; exact h2
  have w1 : width i.choppers 1 = .ok tm := by rw [hc]; exact h3
  unfold shown
  rw [hlam, w0, w1, hd, hc, hg]
  simp only [number, ok_bind, k2, k3, h6, h8, h9, List.getElem?_cons_zero, List.getElem?_cons_succ, h7]
  refine ⟨_, rfl, ?_⟩
  constructor <;> dsimp only <;> first | exact ed _ | exact er _ | (norm_num; ring)

/-- What is in the text, for any stored results. -/
theorem text_ok {c : Consts} {i : Inst} {h k l : ℝ} {s : Shown} (hs : shown c i ![h, k, l] = .ok s) {r : Res} (hS : SPD r.rms) (rs : List Res) :
    ∃ t, describe c true i (some (r :: rs)) (.scalar h) (.scalar k) (.scalar l) = .ok t ∧ t.inst = s ∧
      (∀ a b, t.matrix a b * 10000 = r.rms a b) ∧ t.prefactor = r.r0 ∧ t.volume / 2 = volumeOf r.rms ∧
      AxisWidth r.rms 0 (t.dQ1 / 2) ∧ AxisWidth r.rms 1 (t.dQ2 / 2) ∧ AxisWidth r.rms 2 (t.dQz / 2) ∧
      AxisWidth r.rms 3 (t.dE / 2) ∧ VanadiumWidth r.rms (t.vanadium / 2) ∧
      t.lattice = i.sample.lattice ∧ t.u = i.sample.u ∧ t.v = i.sample.v := by
  obtain ⟨w, e, h1, h2, -⟩ := C91_double hS
  have hd := det_pos' hS
  have hz : √r.rms.det ≠ 0 := (sqrt_pos.2 hd).ne'
  unfold describe
  dsimp only
  rw [npSqrt, if_pos hd.le, lift, ok_bind, npDiv, if_neg hz, lift, ok_bind, e, lift, ok_bind, if_neg (by simp), hs]
  refine ⟨_, rfl, rfl, ?_, rfl, ?_, h1 0, h1 1, h1 2, h1 3, h2, rfl, rfl, rfl⟩
  · intro a b
    dsimp only
    rw [hS.symm b a]
    norm_num
  · dsimp only
    unfold volumeOf
    rw [Verif.Convolution.integral_quad hS]
    ring

/-- C184 (partial).  After a calculation for one point given by numbers, on an object made by `Instrument`, the text can be written; it shows
the elements of the matrix in units of 10^4, the prefactor, the crystal, and the times, lengths and angles with which the resolution was
calculated.  The volume and the widths are twice what they are said to be (`C184_volume_false`, `C184_widths_false`).  Missing: several
points (`C184_several_false`); objects of the class itself (`C184_class_false`); the unit of the widths (`C184_unit_false`). -/
theorem C184_text_partial {c : Consts} {i : Inst} {h k l W : ℝ} {r : Res} (hr : pointAt c i (![h, k, l], W) = .ok r) (hS : SPD r.rms) :
    ∃ r0 RM lam m kin t, calcInQ c i ![h, k, l] W = .ok (r0, RM) ∧ (Verif.Energy.derive c.scipy i.ei).wavelen = .num lam ∧ decode i lam = .ok m ∧
      kinematics c i ![h, k, l] W = .ok kin ∧
      describe c true i (some [r]) (.scalar h) (.scalar k) (.scalar l) = .ok t ∧ Agrees t.inst m kin ∧
      (∀ a b, t.matrix a b * 10000 = r.rms a b) ∧ t.prefactor = r.r0 ∧ t.volume / 2 = volumeOf r.rms ∧
      AxisWidth r.rms 0 (t.dQ1 / 2) ∧ AxisWidth r.rms 1 (t.dQ2 / 2) ∧ AxisWidth r.rms 2 (t.dQz / 2) ∧
      AxisWidth r.rms 3 (t.dE / 2) ∧ VanadiumWidth r.rms (t.vanadium / 2) ∧
      t.lattice = i.sample.lattice ∧ t.u = i.sample.u ∧ t.v = i.sample.v := by
  have h0 := hr
  unfold pointAt at h0
  obtain ⟨⟨r0, RM⟩, h1, -⟩ := bind_eq_ok.1 h0
  obtain ⟨m, kin, f, q, a, st⟩ := steps h1
  obtain ⟨lam, hlam, hm⟩ := st.dec
  obtain ⟨s, hs, ha⟩ := shown_agrees hlam hm st.kin
  obtain ⟨t, g1, rfl, g⟩ := text_ok hs hS []
  exact ⟨r0, RM, lam, m, kin, t, h1, hlam, hm, st.kin, g1, ha, g⟩

/-- What a text that was written came from. -/
theorem text_from {c : Consts} {i : Inst} {r : Res} {rs : List Res} (hS : SPD r.rms) {H K L : Arg ℝ} {b : Bool} {t : Text}
    (ht : describe c b i (some (r :: rs)) H K L = .ok t) : b = true ∧ ∃ h k l s, H = .scalar h ∧ K = .scalar k ∧ L = .scalar l ∧
      shown c i ![h, k, l] = .ok s := by
  obtain ⟨w, e, -⟩ := C91_double hS
  have hd := det_pos' hS
  have hz : √r.rms.det ≠ 0 := (sqrt_pos.2 hd).ne'
  unfold describe at ht
  dsimp only at ht
  rw [npSqrt, if_pos hd.le, lift, ok_bind, npDiv, if_neg hz, lift, ok_bind, e, lift, ok_bind] at ht
  cases b with
  | false =>
    rw [if_pos (by simp)] at ht
    cases ht
  | true =>
    rw [if_neg (by simp)] at ht
    refine ⟨rfl, ?_⟩
    match H, K, L, ht with
    | .scalar h, .scalar k, .scalar l, ht =>
      obtain ⟨s, hs, -⟩ := bind_eq_ok.1 ht
      exact ⟨h, k, l, s, rfl, rfl, rfl, hs⟩

/-- C184 fails.  The volume in the text is not that of the resolution function. -/
theorem C184_volume_false {c : Consts} {i : Inst} {r : Res} {rs : List Res} (hS : SPD r.rms) {H K L : Arg ℝ} {t : Text}
    (ht : describe c true i (some (r :: rs)) H K L = .ok t) : t.volume ≠ volumeOf r.rms := by
  obtain ⟨-, h, k, l, s, rfl, rfl, rfl, hs⟩ := text_from hS ht
  obtain ⟨t', g1, -, -, -, g2, -⟩ := text_ok hs hS rs
  cases ht.symm.trans g1
  have := volumeOf_pos hS
  intro hv
  linarith

/-- C184 fails.  The widths in the text, said to be full widths at half maximum, are not. -/
theorem C184_widths_false {c : Consts} {i : Inst} {r : Res} {rs : List Res} (hS : SPD r.rms) {H K L : Arg ℝ} {t : Text}
    (ht : describe c true i (some (r :: rs)) H K L = .ok t) : ¬ AxisWidth r.rms 0 t.dQ1 ∧ ¬ AxisWidth r.rms 1 t.dQ2 ∧
      ¬ AxisWidth r.rms 2 t.dQz ∧ ¬ AxisWidth r.rms 3 t.dE ∧ ¬ VanadiumWidth r.rms t.vanadium := by
  obtain ⟨-, h, k, l, s, rfl, rfl, rfl, hs⟩ := text_from hS ht
  obtain ⟨t', g1, -, -, -, -, w0, w1, w2, w3, w4, -⟩ := text_ok hs hS rs
  cases ht.symm.trans g1
  have no {f : ℝ → ℝ} {x : ℝ} (hx : IsFWHM f (x / 2)) : ¬ IsFWHM f x := by
    intro hc
    have := hc.unique hx
    have := hc.1
    linarith
  exact ⟨no w0, no w1, no w2, no w3, no w4⟩

/-- C184 fails.  After a calculation for points of which an index was given as a list there is no text. -/
theorem C184_several_false {c : Consts} {i : Inst} {r : Res} {rs : List Res} (hS : SPD r.rms) {H K L : Arg ℝ} {xs : List ℝ}
    (hl : H = .list xs ∨ K = .list xs ∨ L = .list xs) (b : Bool) (t : Text) : describe c b i (some (r :: rs)) H K L ≠ .ok t := by
  intro ht
  obtain ⟨-, h, k, l, s, rfl, rfl, rfl, hs⟩ := text_from hS ht
  simp at hl

/-- C184 fails.  An object made as a `TimeOfFlightInstrument`, not as an `Instrument`, has no text. -/
theorem C184_class_false {c : Consts} {i : Inst} {r : Res} {rs : List Res} (hS : SPD r.rms) (H K L : Arg ℝ) (t : Text) :
    describe c false i (some (r :: rs)) H K L ≠ .ok t := by
  intro ht
  have := (text_from hS ht).1
  cases this

/-- C184 fails.  The widths that are said to be in inverse Ångström are in reciprocal lattice units: for a cubic crystal half of the
vertical one, times 2π/a, is the width of the resolution function in inverse Ångström; without that factor it is not, unless a = 2π. -/
theorem C184_unit_false {c : Consts} {i : Inst} {h k l W a : ℝ} {r : Res} (ha : 0 < a) (hl : i.sample.lattice = ⟨a, a, a, 90, 90, 90⟩)
    (hu : i.sample.u = ![1, 0, 0]) (hv : i.sample.v = ![0, 1, 0]) (hr : pointAt c i (![h, k, l], W) = .ok r) (hS : SPD r.rms) {rs : List Res}
    {t : Text} (ht : describe c true i (some (r :: rs)) (.scalar h) (.scalar k) (.scalar l) = .ok t) :
    ∃ r0 RM, calcInQ c i ![h, k, l] W = .ok (r0, RM) ∧ AxisWidth RM 2 (t.dQz / 2 * (2 * π / a)) ∧
      (a ≠ 2 * π → ¬ AxisWidth RM 2 (t.dQz / 2)) := by
  obtain ⟨-, h', k', l', s, e1, e2, e3, hs⟩ := text_from hS ht
  cases e1; cases e2; cases e3
  obtain ⟨t', g1, -, -, -, -, -, -, w2, -⟩ := text_ok hs hS rs
  cases ht.symm.trans g1
  unfold pointAt at hr
  obtain ⟨⟨r0, RM⟩, h1, hr⟩ := bind_eq_ok.1 hr
  obtain ⟨UB, h2, hr⟩ := bind_eq_ok.1 hr
  have h3 : ubmatrix i.sample.lattice i.sample.u i.sample.v = .ok UB := lift_ok h2
  rw [hl, hu, hv, ub_ortho ha ha ha] at h3
  have h3 := Except.ok.inj h3
  cases hr
  have hp := pi_pos
  obtain ⟨u, hu'⟩ : ∃ u, u = 2 * π / a := ⟨_, rfl⟩
  have hu0 : 0 < u := by rw [hu']; positivity
  rw [← hu'] at h3 ⊢
  dsimp only at hS w2
  have e22 : crystalFrame UB ![h, k, l] RM 2 2 = u ^ 2 * RM 2 2 := by
    unfold crystalFrame
    rw [← h3]
    simp [rotation, extend, mul_apply, vecMul, dotProduct, Fin.sum_univ_four]
    ring
  have hd := hS.diag 2
  rw [map_apply, e22] at hd
  have hk : chopEntry (u ^ 2 * RM 2 2) = u ^ 2 * RM 2 2 := by
    unfold chopEntry at hd ⊢
    split_ifs at hd ⊢ with hh
    · exact absurd hd (lt_irrefl _)
    · rfl
  have hw : AxisWidth RM 2 (t.dQz / 2 * u) := by
    unfold AxisWidth at w2 ⊢
    obtain ⟨p1, p2, p3⟩ := w2
    have q1 (M : M4) (x : ℝ) : quad M (Pi.single 2 x) = M 2 2 * x ^ 2 := Verif.Tools.quad_axis M 2 x
    simp only [q1, map_apply, e22, hk] at p2 p3
    refine ⟨by positivity, fun x => ?_, fun x => ?_⟩
    · have := p2 (x / u)
      simp only [q1]
      rwa [show u ^ 2 * RM 2 2 * (x / u) ^ 2 = RM 2 2 * x ^ 2 by field_simp, show u ^ 2 * RM 2 2 * (0 : ℝ) ^ 2 = RM 2 2 * 0 ^ 2 by ring] at this
    · have := p3 (x / u)
      simp only [q1]
      rw [show u ^ 2 * RM 2 2 * (x / u) ^ 2 = RM 2 2 * x ^ 2 by field_simp, show u ^ 2 * RM 2 2 * (0 : ℝ) ^ 2 = RM 2 2 * 0 ^ 2 by ring,
        abs_div, abs_of_pos hu0, div_le_iff₀ hu0] at this
      rw [this]
      constructor <;> intro hx <;> linarith
  refine ⟨r0, RM, h1, hw, fun hne hc => ?_⟩
  have e := hc.unique hw
  have hpos := hc.1
  have : u = 1 := by
    have : t.dQz / 2 * (u - 1) = 0 := by linarith
    rcases mul_eq_zero.1 this with h | h
    · exact absurd h hpos.ne'
    · linarith
  rw [hu', div_eq_one_iff_eq ha.ne'] at this
  exact hne this.symm

/-! ## A concrete case -/

/-- An instrument with a cubic crystal of edge 4π and elastic scattering at (2, 0, 0): there is a text. -/
example (c : Consts) : ∃ (i : Inst) (r : Res) (t : Text), i.sample.lattice = ⟨4 * π, 4 * π, 4 * π, 90, 90, 90⟩ ∧ i.sample.u = ![1, 0, 0] ∧
    i.sample.v = ![0, 1, 0] ∧ pointAt c i (![2, 0, 0], 0) = .ok r ∧ SPD r.rms ∧
    describe c true i (some [r]) (.scalar 2) (.scalar 0) (.scalar 0) = .ok t := by
  have hp : 0 < 4 * π := by linarith [pi_pos]
  have hp' := pi_pos.ne'
  have hQ : (![2, 0, 0] : Vec) ≠ 0 := fun h => by simpa using congrFun h 0
  obtain ⟨r0, RM, h⟩ := benchWith_ok c (valid_ortho hp hp hp) hQ (q := 1) (by
    rw [getQ_ortho hp hp hp hQ]
    congr 1
    rw [sqrt_eq_one]
    simp
    field_simp
    norm_num) closes_one
  have hub : ubmatrix (benchWith c ⟨4 * π, 4 * π, 4 * π, 90, 90, 90⟩).sample.lattice (benchWith c ⟨4 * π, 4 * π, 4 * π, 90, 90, 90⟩).sample.u
      (benchWith c ⟨4 * π, 4 * π, 4 * π, 90, 90, 90⟩).sample.v = .ok _ := ub_ortho hp hp hp
  obtain ⟨m, r, h1, h2⟩ := clear_case (i := benchWith c ⟨4 * π, 4 * π, 4 * π, 90, 90, 90⟩) (valid_ortho hp hp hp) h hub (by
    rw [det_fin_three]
    simp)
  obtain ⟨-, -, -, -, -, t, -, -, -, -, ht, -⟩ := C184_text_partial h1 h2
  exact ⟨_, r, t, rfl, rfl, rfl, h1, h2, ht⟩

end Verif.Tof.Report
