import Verif.Tof.Lemmas

/-! # Helper lemmas: wavevectors, speeds and angles of the time-of-flight calculation -/

namespace Verif.Tof

open Real Matrix
open Verif.Crystal (Fail Vec Mat Lattice npSqrt npArcsin npDiv deg2rad ubmatrix getPhi Valid C41_spacing C41_bragg C41_unreachable
  C41_origin C42_zero C42_range valid_realised Realises Dual len vecOf)
open Verif.Resolution (M4 npInv)
open Verif.Tools (quad SPD getKfree getAngleKiQ kinetic)
open Verif.Energy (Num)

/-- What is true of the wavevectors, speeds and angles for a scattering vector of length `q`. -/
structure Facts (c : Consts) (i : Inst) (W q : ℝ) (k : Kin) : Prop where
  ei : 0 < i.ei
  loss : 0 ≤ W
  ki : 0 < k.ki
  kf : 0 < k.kf
  initial : kinetic c.scipy k.ki = i.ei
  final : kinetic c.scipy k.kf = i.ei - W
  vi : k.vi = c.scipy.hbar * (k.ki * 1e10) / c.scipy.m
  vf : k.vf = c.scipy.hbar * (k.kf * 1e10) / c.scipy.m
  theta0 : 0 < k.theta
  theta1 : k.theta ≤ π
  bragg : q = 2 * k.ki * sin (k.theta / 2)
  phi0 : -(π / 2) ≤ k.phi
  phi1 : k.phi ≤ π / 2

theorem speed_eq (c : Verif.Energy.Consts) {e v kk : ℝ} (hv : 0 < v) (hk : 0 < kk) (h1 : e / c.J = c.m * v ^ 2 / 2)
    (h2 : e / c.J = (c.hbar * (kk * 1e10)) ^ 2 / (2 * c.m)) : v = c.hbar * (kk * 1e10) / c.m := by
  have hm := c.m_pos
  have hh := Verif.Energy.hbar_pos c
  have : v ^ 2 = (c.hbar * (kk * 1e10) / c.m) ^ 2 := by
    rw [h1] at h2
    field_simp at h2 ⊢
    linarith
  exact (sq_eq_sq₀ hv.le (by positivity)).1 this

theorem kinetic_mono {c : Verif.Energy.Consts} {x y : ℝ} (hx : 0 ≤ x) (hy : 0 ≤ y) : kinetic c x ≤ kinetic c y ↔ x ≤ y := by
  rw [Verif.Tools.kinetic_eq, Verif.Tools.kinetic_eq c y, mul_le_mul_iff_right₀ (Verif.Tools.kinetic_one_pos c)]
  exact sq_le_sq₀ hx hy

theorem kinetic_inj {c : Verif.Energy.Consts} {x y : ℝ} (hx : 0 ≤ x) (hy : 0 ≤ y) (h : kinetic c x = kinetic c y) : x = y :=
  le_antisymm ((kinetic_mono hx hy).1 h.le) ((kinetic_mono hy hx).1 h.ge)

/-- Only positive energies have a wavelength. -/
theorem pos_of_wavelen {c : Verif.Energy.Consts} {e lam : ℝ} (h : (Verif.Energy.derive c e).wavelen = .num lam) : 0 < e := by
  by_contra hn
  rcases (not_lt.1 hn).eq_or_lt with rfl | hneg
  · simp [Verif.Energy.derive] at h
  · have hneg' : ¬ 0 ≤ c.h ^ 2 / (2 * c.m * e / c.J) := by
      rw [not_le]
      have := c.h_pos
      have := c.m_pos
      have := c.J_pos
      refine div_neg_of_pos_of_neg (by positivity) (div_neg_of_neg_of_pos ?_ c.J_pos)
      exact mul_neg_of_pos_of_neg (by positivity) hneg
    simp [Verif.Energy.derive, hneg.ne, Verif.Energy.wavelenOf, Verif.Energy.npSqrt, hneg', Verif.Energy.Num.scale] at h

theorem create_wavevector (c : Verif.Energy.Consts) {kf : ℝ} (h : kf ≠ 0) :
    Verif.Energy.create c { wavevector := some kf } = .ok (Verif.Energy.derive c (kinetic c kf)) := by
  have e : c.h ^ 2 / (2 * c.m * ((2 * π / kf) / 10 ^ 10) ^ 2) * c.J = kinetic c kf := by
    have hp := pi_pos.ne'
    have hm := c.m_pos.ne'
    unfold kinetic Verif.Energy.Consts.hbar
    field_simp
    norm_num
    ring
  unfold Verif.Energy.create Verif.Energy.update Verif.Energy.energyOf
  simp only [h, if_false, ok_bind]
  rw [e]
  rfl

theorem phi_range {l : Lattice} (hl : Valid l) {u v Q : Vec} (hQ : Q ≠ 0) {ph : ℝ} (h : getPhi l u v Q = .ok ph) :
    0 ≤ ph ∧ ph ≤ 180 := by
  unfold getPhi at h
  by_cases hn : crossProduct u v = 0
  · exfalso
    rw [hn] at h
    unfold Lattice.getAngleBetweenPlanes at h
    obtain ⟨gs, -, hx⟩ := bind_eq_ok.1 h
    obtain ⟨s1, -, hx⟩ := bind_eq_ok.1 hx
    obtain ⟨s2, g2, hx⟩ := bind_eq_ok.1 hx
    have : s2 = 0 := by
      simp [npSqrt] at g2
      exact g2.symm
    rw [this] at hx
    obtain ⟨s3, -, hx⟩ := bind_eq_ok.1 hx
    obtain ⟨s4, g4, hx⟩ := bind_eq_ok.1 hx
    exact (npDiv_eq g4).1 rfl
  · obtain ⟨φ, f1, f2, f3, -⟩ := C42_range hl hQ hn
    rw [f1] at h
    cases h
    exact ⟨f2, f3⟩

theorem wave_eq (c : Verif.Energy.Consts) {lam ki e : ℝ} (p1 : 0 < lam) (p2 : 0 < ki)
    (e4 : e = c.h ^ 2 / (2 * c.m * (lam * 1e-10) ^ 2)) (e6 : e = (c.hbar * (ki * 1e10)) ^ 2 / (2 * c.m)) : lam * ki = 2 * π := by
  have : c.h ^ 2 / (2 * c.m * (lam * 1e-10) ^ 2) = (c.hbar * (ki * 1e10)) ^ 2 / (2 * c.m) := by
    rw [← e4, ← e6]
  have h0 := c.h_pos
  have hm := c.m_pos
  have hp := pi_pos
  have e : (lam * ki) ^ 2 = (2 * π) ^ 2 := by
    unfold Verif.Energy.Consts.hbar at this
    field_simp at this
    norm_num at this
    linarith
  exact (sq_eq_sq₀ (by positivity) (by positivity)).1 e

theorem bragg_eq {l : Lattice} (hl : Valid l) {Q : Vec} (hQ : Q ≠ 0) {q lam ki tt : ℝ} (hq : l.getQ Q = .ok q)
    (p1 : 0 < lam) (hlam : lam * ki = 2 * π) (h7 : l.getTwoTheta Q lam = .ok tt) :
    0 < q ∧ 0 < deg2rad tt ∧ deg2rad tt ≤ π ∧ q = 2 * ki * sin (deg2rad tt / 2) := by
  obtain ⟨E, F, hE, hF⟩ := valid_realised hl
  obtain ⟨d, d1, d2, d3, d4⟩ := C41_spacing hl hE hF hQ
  rw [hq] at d3
  have hqe : q = len (vecOf F Q) := Except.ok.inj d3
  rw [← hqe] at d4
  have hp := pi_pos
  have hq0 : 0 < q := by
    have : 0 < q * d := by rw [d4]; positivity
    exact pos_of_mul_pos_left this d2.le
  have hle : lam ≤ 2 * d := by
    by_contra hn
    rw [C41_unreachable hl hQ d1 (not_le.1 hn)] at h7
    cases h7
  obtain ⟨t, t1, t2, t3, t4⟩ := C41_bragg hl hQ d1 p1.le hle
  rw [h7] at t1
  cases t1
  have hth : deg2rad tt / 2 = tt / 2 * π / 180 := by unfold deg2rad; ring
  have hbr : q = 2 * ki * sin (deg2rad tt / 2) := by
    rw [hth]
    have h1 : q * d = ki * lam := by rw [d4, ← hlam]; ring
    have : q * d = (2 * ki * sin (tt / 2 * π / 180)) * d := by rw [h1, t4]; ring
    exact mul_right_cancel₀ d2.ne' this
  have htt0 : tt ≠ 0 := by
    rintro rfl
    unfold deg2rad at hbr
    simp at hbr
    exact hq0.ne' hbr
  have htt : 0 < tt := lt_of_le_of_ne t2 htt0.symm
  refine ⟨hq0, ?_, ?_, hbr⟩
  · unfold deg2rad
    positivity
  · unfold deg2rad
    rw [div_le_iff₀ (by norm_num)]
    nlinarith

theorem facts {c : Consts} {i : Inst} {Q : Vec} {W q : ℝ} {k : Kin} (hl : Valid i.sample.lattice)
    (hk : kinematics c i Q W = .ok k) (hq : i.sample.lattice.getQ Q = .ok q) : Q ≠ 0 ∧ 0 < q ∧ Facts c i W q k := by
  unfold kinematics at hk
  dsimp only at hk
  obtain ⟨ki, h1, hk⟩ := bind_eq_ok.1 hk
  obtain ⟨kf', h2, hk⟩ := bind_eq_ok.1 hk
  obtain ⟨kf, h3, hk⟩ := bind_eq_ok.1 hk
  obtain ⟨vi, h4, hk⟩ := bind_eq_ok.1 hk
  obtain ⟨vf, h5, hk⟩ := bind_eq_ok.1 hk
  obtain ⟨lam, h6, hk⟩ := bind_eq_ok.1 hk
  obtain ⟨tt, h7, hk⟩ := bind_eq_ok.1 hk
  obtain ⟨ph, h8, hk⟩ := bind_eq_ok.1 hk
  cases hk
  replace h1 := number_ok h1
  replace h2 := lift_ok h2
  cases number_ok h3
  replace h4 := number_ok h4
  replace h6 := number_ok h6
  replace h7 := lift_ok h7
  replace h8 := lift_ok h8
  have hei := pos_of_wavelen h6
  obtain ⟨lam', kk, v, e1, e2, e3, -, p1, p2, p3, -, -, e4, e5, e6, -⟩ := Verif.Energy.derive_consistent c.scipy hei
  rw [h6] at e1
  rw [h1] at e2
  rw [h4] at e3
  cases e1
  cases e2
  cases e3
  have en : (Verif.Energy.derive c.scipy i.ei).en = i.ei := rfl
  rw [en] at e4 e5 e6
  have hJ := c.scipy.J_pos
  have hm := c.scipy.m_pos
  have hh := Verif.Energy.hbar_pos c.scipy
  have hini : kinetic c.scipy ki = i.ei := by
    unfold kinetic
    rw [← e6]
    field_simp
  have hW : 0 ≤ W := by
    by_contra hn
    rw [(Verif.Tools.C58_gain c.scipy (not_le.1 hn) ki true).1] at h2
    cases h2
  obtain ⟨kf'', e7, hkf0, htr⟩ := (Verif.Tools.C58_loss_partial c.scipy hW true).1 _ h2
  cases e7
  have hfin : kinetic c.scipy kf = i.ei - W := by
    simp only [Verif.Tools.transfer, if_true] at htr
    linarith
  have hkf : kf ≠ 0 := by
    rintro rfl
    simp [Verif.Energy.create, Verif.Energy.update, Verif.Energy.energyOf] at h5
    cases h5
  have hkf' : 0 < kf := lt_of_le_of_ne hkf0 hkf.symm
  rw [create_wavevector c.scipy hkf] at h5
  replace h5 := number_ok h5
  have hkp : 0 < kinetic c.scipy kf := by
    rw [Verif.Tools.kinetic_eq]
    have := Verif.Tools.kinetic_one_pos c.scipy
    positivity
  obtain ⟨_, kk, v, -, e8, e9, -, -, p4, p5, -, -, -, e10, e11, -⟩ := Verif.Energy.derive_consistent c.scipy hkp
  rw [h5] at e9
  cases e9
  have en : (Verif.Energy.derive c.scipy (kinetic c.scipy kf)).en = kinetic c.scipy kf := rfl
  rw [en] at e10 e11
  have hkk : kk = kf := by
    refine kinetic_inj p4.le hkf0 (c := c.scipy) ?_
    rw [div_eq_iff hJ.ne'] at e11
    rw [e11]
    rfl
  rw [hkk] at e11
  have hQ : Q ≠ 0 := by
    rintro rfl
    obtain ⟨e, he⟩ := C42_zero hl (crossProduct i.sample.u i.sample.v)
    unfold getPhi at h8
    rw [he] at h8
    cases h8
  have hp := pi_pos
  obtain ⟨hq0, t1, t2, hbr⟩ := bragg_eq hl hQ hq p1 (wave_eq c.scipy p1 p2 e4 e6) h7
  obtain ⟨f2, f3⟩ := phi_range hl hQ h8
  refine ⟨hQ, hq0, hei, hW, p2, hkf', hini, hfin, speed_eq _ p3 p2 e5 e6, speed_eq _ p5 hkf' e10 e11, t1, t2, hbr, ?_, ?_⟩
  · change -(π / 2) ≤ π / 2 - deg2rad ph
    unfold deg2rad
    have : ph * π / 180 ≤ π := by rw [div_le_iff₀ (by norm_num)]; nlinarith
    linarith
  · change π / 2 - deg2rad ph ≤ π / 2
    unfold deg2rad
    have : 0 ≤ ph * π / 180 := by positivity
    linarith

theorem kinematics_phi {c : Consts} {i : Inst} {Q : Vec} {W : ℝ} {k : Kin} (hk : kinematics c i Q W = .ok k) :
    ∃ ph, getPhi i.sample.lattice i.sample.u i.sample.v Q = .ok ph ∧ k.phi = π / 2 - deg2rad ph := by
  unfold kinematics at hk
  dsimp only at hk
  obtain ⟨_, _, hk⟩ := bind_eq_ok.1 hk
  obtain ⟨_, _, hk⟩ := bind_eq_ok.1 hk
  obtain ⟨_, _, hk⟩ := bind_eq_ok.1 hk
  obtain ⟨_, _, hk⟩ := bind_eq_ok.1 hk
  obtain ⟨_, _, hk⟩ := bind_eq_ok.1 hk
  obtain ⟨_, _, hk⟩ := bind_eq_ok.1 hk
  obtain ⟨_, _, hk⟩ := bind_eq_ok.1 hk
  obtain ⟨ph, hph, hk⟩ := bind_eq_ok.1 hk
  cases hk
  exact ⟨ph, lift_ok hph, rfl⟩

/-- Conversely, angles exist if the triangle of the wavevectors does. -/
theorem kinematics_of {c : Consts} {i : Inst} {Q : Vec} {W q ki kf : ℝ} (hl : Valid i.sample.lattice) (hQ : Q ≠ 0)
    (hn : crossProduct i.sample.u i.sample.v ≠ 0) (hq : i.sample.lattice.getQ Q = .ok q) (hW : 0 ≤ W) (hki : 0 < ki) (hkf : 0 < kf)
    (hini : kinetic c.scipy ki = i.ei) (hfin : kinetic c.scipy kf = i.ei - W) (hle : q ≤ 2 * ki) :
    ∃ k, kinematics c i Q W = .ok k ∧ k.ki = ki ∧ k.kf = kf := by
  have hei : 0 < i.ei := by
    rw [← hini, Verif.Tools.kinetic_eq]
    have := Verif.Tools.kinetic_one_pos c.scipy
    positivity
  have hJ := c.scipy.J_pos
  have hp := pi_pos
  obtain ⟨lam, kk, v, e1, e2, e3, -, p1, p2, p3, -, -, e4, e5, e6, -⟩ := Verif.Energy.derive_consistent c.scipy hei
  have hkk : kk = ki := by
    refine kinetic_inj p2.le hki.le (c := c.scipy) ?_
    rw [div_eq_iff hJ.ne'] at e6
    rw [hini, show i.ei = (Verif.Energy.derive c.scipy i.ei).en from rfl, e6]
    rfl
  subst hkk
  have e7 : getKfree c.scipy W kk true = .ok (.num kf) := by
    obtain ⟨h1, h2, -⟩ := Verif.Tools.C58_loss_partial c.scipy (kfixed := kk) hW true
    cases hg : getKfree c.scipy W kk true with
    | error e =>
      exact absurd ⟨kf, by simp only [Verif.Tools.transfer, if_true]; linarith⟩ (h2.1 ⟨e, hg⟩)
    | ok r =>
      obtain ⟨k', rfl, h3, h4⟩ := h1 r hg
      simp only [Verif.Tools.transfer, if_true] at h4
      rw [kinetic_inj h3 hkf.le (c := c.scipy) (by linarith)]
  have hkp : 0 < kinetic c.scipy kf := by
    rw [Verif.Tools.kinetic_eq]
    have := Verif.Tools.kinetic_one_pos c.scipy
    positivity
  obtain ⟨_, _, v', -, -, e8, -⟩ := Verif.Energy.derive_consistent c.scipy hkp
  obtain ⟨E, F, hE, hF⟩ := valid_realised hl
  obtain ⟨d, d1, d2, d3, d4⟩ := C41_spacing hl hE hF hQ
  rw [hq] at d3
  rw [← Except.ok.inj d3] at d4
  have hlam := wave_eq c.scipy p1 p2 e4 e6
  have hld : lam ≤ 2 * d := by
    by_contra hcon
    have : 2 * kk * d < kk * lam := by nlinarith
    nlinarith
  obtain ⟨t, t1, -⟩ := C41_bragg hl hQ d1 p1.le hld
  obtain ⟨ph, f1, -⟩ := C42_range hl hQ hn
  unfold kinematics getPhi
  simp only [e1, e2, e3, e7, create_wavevector c.scipy hkf.ne', e8, t1, f1, number, lift, ok_bind]
  exact ⟨_, rfl, rfl, rfl⟩

end Verif.Tof
