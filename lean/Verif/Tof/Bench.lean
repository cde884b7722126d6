import Verif.Tof.Props

/-! # A concrete spectrometer, for examples and counterexamples -/

namespace Verif.Tof

open Real Matrix
open Verif.Crystal (Fail Vec Mat Lattice deg2rad Valid npSqrt npDiv npArcsin getPhi)
open Verif.Tools (kinetic Closes)

/-- A sample with a cubic cell of edge 2π. -/
noncomputable def benchSample : Sample := ⟨⟨2 * π, 2 * π, 2 * π, 90, 90, 90⟩, ![1, 0, 0], ![0, 1, 0], none, none, some 3600⟩

/-- A spectrometer with an incident wavevector of 1/Å. -/
noncomputable def bench (c : Consts) (shape : List Char) (over : Overrides) : Inst :=
  ⟨kinetic c.scipy 1, [defaultP, defaultM], benchSample, ⟨shape, [15], 300, 1 / 10, 256, 1 / 10, none⟩,
    [⟨1, 2500, 15, 15⟩, ⟨1, 1100, 15, 15⟩], 0, 0, over⟩

theorem bench_valid : Valid benchSample.lattice := by
  have := pi_pos
  constructor <;> simp [benchSample] <;> norm_num <;> positivity

theorem getQ_bench {Q : Vec} (hQ : Q ≠ 0) : benchSample.lattice.getQ Q = .ok √(Q 0 ^ 2 + Q 1 ^ 2 + Q 2 ^ 2) := by
  obtain ⟨E, F, hE, hF⟩ := Verif.Crystal.valid_realised bench_valid
  obtain ⟨d, -, -, h, -⟩ := Verif.Crystal.C41_spacing bench_valid hE hF hQ
  rw [h, Verif.Crystal.len, Verif.Crystal.vecOf_dot (Verif.Crystal.dual_gram bench_valid hE hF)]
  have c0 : cos (deg2rad 90) = 0 := by
    rw [show deg2rad 90 = π / 2 by unfold deg2rad; ring]; exact cos_pi_div_two
  have s1 : sin (deg2rad 90) = 1 := by
    rw [show deg2rad 90 = π / 2 by unfold deg2rad; ring]; exact sin_pi_div_two
  congr 2
  simp only [Verif.Crystal.gstarOf, Verif.Crystal.disc, Lattice.alphaRad, Lattice.betaRad, Lattice.gammaRad, benchSample, c0, s1]
  have := pi_pos.ne'
  simp [mulVec, dotProduct, Fin.sum_univ_three]
  field_simp
  ring

theorem cross_bench : crossProduct benchSample.u benchSample.v = ![0, 0, 1] := by
  ext b
  fin_cases b <;> simp [benchSample, cross_apply]

theorem getPhi_bench {Q : Vec} (hQ : Q ≠ 0) :
    getPhi benchSample.lattice benchSample.u benchSample.v Q = .ok (arccos (Q 2 / √(Q 0 ^ 2 + Q 1 ^ 2 + Q 2 ^ 2)) * 180 / π) := by
  obtain ⟨E, F, hE, hF⟩ := Verif.Crystal.valid_realised bench_valid
  have hn : (![0, 0, 1] : Vec) ≠ 0 := fun h => by simpa using congrFun h 2
  have c0 : cos (deg2rad 90) = 0 := by
    rw [show deg2rad 90 = π / 2 by unfold deg2rad; ring]; exact cos_pi_div_two
  have s1 : sin (deg2rad 90) = 1 := by
    rw [show deg2rad 90 = π / 2 by unfold deg2rad; ring]; exact sin_pi_div_two
  have hdot (x y : Vec) : Verif.Crystal.vecOf F x ⬝ᵥ Verif.Crystal.vecOf F y = x 0 * y 0 + x 1 * y 1 + x 2 * y 2 := by
    rw [Verif.Crystal.vecOf_dot (Verif.Crystal.dual_gram bench_valid hE hF)]
    simp only [Verif.Crystal.gstarOf, Verif.Crystal.disc, Lattice.alphaRad, Lattice.betaRad, Lattice.gammaRad, benchSample, c0, s1]
    have := pi_pos.ne'
    simp [mulVec, dotProduct, Fin.sum_univ_three]
    field_simp
    ring
  unfold getPhi
  rw [cross_bench, Verif.Crystal.C42_angle bench_valid hE hF hQ hn]
  unfold Verif.Crystal.angleDeg Verif.Crystal.len
  rw [hdot, hdot, hdot]
  simp [sq]

/-- The uncertainties of the example. -/
theorem decode_bench (c : Consts) (shape : List Char) (over : Overrides) (lam : ℝ) : ∃ m,
    decode (bench c shape over) lam = .ok m ∧ m.thetaI = 0 ∧ m.phiI = 0 ∧
      m.tauP = over.tauP.getD 38 / 10 ^ 6 ∧ m.tauM = over.tauM.getD 6 / 10 ^ 6 ∧ m.tauD = over.tauD.getD (1 / 10) / 10 ^ 6 ∧
      m.lPm = over.lPm.getD 2500 / 10 ^ 2 ∧ m.lMs = over.lMs.getD 3600 / 10 ^ 2 ∧ m.lSd = over.lSd.getD 300 / 10 ^ 2 ∧
      m.sThetaI = deg2rad (over.sThetaI.getD (2.03e-3 * lam)) ∧ m.sPhiI = deg2rad (over.sPhiI.getD (2.03e-3 * lam)) ∧
      m.sTheta = deg2rad (over.sTheta.getD 1) ∧ m.sPhi = deg2rad (over.sPhi.getD 1) := by
  have hc : cos (deg2rad 1) ≠ 0 := by
    refine (cos_pos_of_mem_Ioo ⟨?_, ?_⟩).ne' <;> unfold deg2rad <;> linarith [pi_pos]
  have hst : Guide.sigmaTheta ⟨1, 1100, 15, 15⟩ = .ok 2.03e-3 := by
    unfold Guide.sigmaTheta
    have hp := two_le_pi
    have h0 : 0 ≤ sin (2.03e-3 : ℝ) := sin_nonneg_of_nonneg_of_le_pi (by norm_num) (by linarith)
    rw [one_mul, Verif.Crystal.npSqrt_ok (sq_nonneg _), sqrt_sq h0, ok_bind, Verif.Crystal.npArcsin_ok ⟨neg_one_le_sin _, sin_le_one _⟩,
      arcsin_sin]
    · linarith
    · linarith
  have hdiv : npDiv 300 (cos (deg2rad 1)) = .ok (300 / cos (deg2rad 1)) := by unfold npDiv; rw [if_neg hc]
  have hpix : npDiv 15 256 = .ok (15 / 256) := by unfold npDiv; rw [if_neg (by norm_num)]
  have htau : (defaultP.toChopper.tau = .ok 38) ∧ (defaultM.toChopper.tau = .ok 6) := ⟨rfl, rfl⟩
  unfold decode
  simp only [bench, benchSample, htau.1, htau.2, hst, ok_bind, Option.getD_none, div_self (by norm_num : (60 : ℝ) ≠ 0), hdiv, hpix, lift, npMax,
    List.foldl_nil]
  refine ⟨_, rfl, ?_⟩
  simp [defaultP, defaultM, deg2rad]
  norm_num

theorem wave_bench (c : Consts) (shape : List Char) (over : Overrides) :
    ∃ lam, (Verif.Energy.derive c.scipy (bench c shape over).ei).wavelen = .num lam ∧ 0 < lam := by
  have he : 0 < (bench c shape over).ei := Verif.Tools.kinetic_one_pos c.scipy
  obtain ⟨lam, -, -, e1, -, -, -, p1, -⟩ := Verif.Energy.derive_consistent c.scipy he
  exact ⟨lam, e1, p1⟩

/-- The example has a result at every point in reach that is not straight up or down. -/
theorem bench_ok (c : Consts) {shape : List Char} {f : Form} (hs : ∀ d : Detector, d.shape = shape → formOf d = .ok f) (o : Option ℝ) {Q : Vec}
    (hz : Q 0 ≠ 0 ∨ Q 1 ≠ 0) {kf : ℝ} (h0 : 0 < kf) (h1 : kf ≤ 1) (hcl : Closes 1 kf √(Q 0 ^ 2 + Q 1 ^ 2 + Q 2 ^ 2)) :
    ∃ r0 RM, calcInQ c (bench c shape { sPhi := o }) Q (kinetic c.scipy 1 - kinetic c.scipy kf) = .ok (r0, RM) := by
  have hQ : Q ≠ 0 := by
    rintro rfl
    simp at hz
  have hpos : 0 < Q 0 ^ 2 + Q 1 ^ 2 := by
    rcases hz with h | h <;> positivity
  have hp := pi_pos
  obtain ⟨lam, hlam, hl0⟩ := wave_bench c shape { sPhi := o }
  obtain ⟨m, hm, e1, e2, e3, e4, -, e6, -, e8, e9, e10, e11, -⟩ := decode_bench c shape { sPhi := o } lam
  refine C137_exists_partial (m := m) (f := f) bench_valid hQ ?_ hlam hm (hs _ rfl) (getQ_bench hQ) ?_ one_pos h0 rfl ?_ hcl e1 e2 ?_ ?_ ?_ ?_ ?_ ?_ ?_
  · change crossProduct benchSample.u benchSample.v ≠ 0
    rw [cross_bench]
    exact fun h => by simpa using congrFun h 2
  · rw [sub_nonneg]
    exact (kinetic_mono h0.le zero_le_one).2 h1
  · change _ = kinetic c.scipy 1 - _
    ring
  · rw [e6]; norm_num
  · rw [e8]; norm_num
  · rw [e4]; norm_num
  · rw [e9]
    unfold deg2rad
    simp only [Option.getD_none]
    positivity
  · rw [e10]
    unfold deg2rad
    simp only [Option.getD_none]
    positivity
  · rw [e11]
    unfold deg2rad
    simp only [Option.getD_none]
    positivity
  · intro _ ph hph
    have hph' := hph
    change getPhi benchSample.lattice benchSample.u benchSample.v Q = .ok ph at hph'
    rw [getPhi_bench hQ] at hph'
    replace hph' := Except.ok.inj hph'
    have hS : 0 < Q 0 ^ 2 + Q 1 ^ 2 + Q 2 ^ 2 := by positivity
    have hr := sqrt_pos.2 hS
    have hlt : |Q 2| < √(Q 0 ^ 2 + Q 1 ^ 2 + Q 2 ^ 2) := by
      rw [lt_sqrt (abs_nonneg _), sq_abs]
      linarith
    have hb := abs_lt.1 hlt
    have h1 : -1 < Q 2 / √(Q 0 ^ 2 + Q 1 ^ 2 + Q 2 ^ 2) := by rw [lt_div_iff₀ hr]; linarith
    have h2 : Q 2 / √(Q 0 ^ 2 + Q 1 ^ 2 + Q 2 ^ 2) < 1 := by rw [div_lt_iff₀ hr]; linarith
    have p1 := arccos_pos.2 h2
    have p2 : arccos (Q 2 / √(Q 0 ^ 2 + Q 1 ^ 2 + Q 2 ^ 2)) < π := by
      rw [← arccos_neg_one]
      exact arccos_lt_arccos le_rfl h1 h2.le
    constructor
    · rw [← hph']; positivity
    · rw [← hph']
      refine ne_of_lt ?_
      rw [div_lt_iff₀ hp]
      linarith

theorem spherical_form (d : Detector) (h : d.shape = cs!"spherical") : formOf d = .ok .spherical := by
  unfold formOf
  rw [if_pos h]

theorem cylindrical_form (d : Detector) (h : d.shape = cs!"cylindrical") : formOf d = .ok .cylinder := by
  unfold formOf
  rw [h, if_neg (by decide), if_pos rfl]

/-- Elastic scattering in the plane, inelastic scattering in the plane, elastic scattering out of the plane. -/
theorem bench_points (c : Consts) {shape : List Char} {f : Form} (hs : ∀ d : Detector, d.shape = shape → formOf d = .ok f) (o : Option ℝ) :
    (∃ r0 RM, calcInQ c (bench c shape { sPhi := o }) ![1, 0, 0] 0 = .ok (r0, RM)) ∧
    (∃ r0 RM, calcInQ c (bench c shape { sPhi := o }) ![1, 0, 0] (kinetic c.scipy 1 - kinetic c.scipy (1 / 2)) = .ok (r0, RM)) ∧
    ∃ r0 RM, calcInQ c (bench c shape { sPhi := o }) ![1, 0, 1] 0 = .ok (r0, RM) := by
  refine ⟨?_, ?_, ?_⟩
  · have := bench_ok c hs o (Q := ![1, 0, 0]) (Or.inl (by simp)) one_pos le_rfl (by
      have e : √((![1, 0, 0] : Vec) 0 ^ 2 + (![1, 0, 0] : Vec) 1 ^ 2 + (![1, 0, 0] : Vec) 2 ^ 2) = 1 := by simp
      rw [e, Verif.Tools.closes_iff one_pos zero_le_one one_pos]
      rw [abs_le]; norm_num)
    rwa [sub_self] at this
  · exact bench_ok c hs o (Q := ![1, 0, 0]) (Or.inl (by simp)) (by norm_num) (by norm_num) (by
      have e : √((![1, 0, 0] : Vec) 0 ^ 2 + (![1, 0, 0] : Vec) 1 ^ 2 + (![1, 0, 0] : Vec) 2 ^ 2) = 1 := by simp
      rw [e, Verif.Tools.closes_iff one_pos (by norm_num) one_pos]
      rw [abs_le]; norm_num)
  · have := bench_ok c hs o (Q := ![1, 0, 1]) (Or.inl (by simp)) one_pos le_rfl (by
      have e : √((![1, 0, 1] : Vec) 0 ^ 2 + (![1, 0, 1] : Vec) 1 ^ 2 + (![1, 0, 1] : Vec) 2 ^ 2) = √2 := by simp; norm_num
      have h2 : (0 : ℝ) < √2 := by positivity
      have hs := sq_sqrt (by norm_num : (0 : ℝ) ≤ 2)
      have hle : √2 ≤ 2 := by nlinarith
      rw [e, Verif.Tools.closes_iff one_pos zero_le_one h2, hs, abs_le, le_div_iff₀ (by positivity), div_le_iff₀ (by positivity)]
      constructor <;> nlinarith)
    rwa [sub_self] at this

end Verif.Tof
