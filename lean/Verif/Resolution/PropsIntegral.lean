import Verif.Resolution.PropsMosaic

/-! # Property theorems: the sample mosaic conserves the integrated intensity (C123) -/

namespace Verif.Resolution

open Real Matrix
open Verif.Crystal (Fail npSqrt npArcsin npDiv)
open Verif.Tools (arctan2 quad SPD Closes)

/-- The integral of the resolution function over momentum and energy, up to the factor `(2π)²`: prefactor
over the root of the determinant. -/
noncomputable def integrated (r : ℝ × M4) : ℝ := r.1 / √(r.2.det)

/-- The same instrument with a mosaic sample. -/
def Settings.mosaicSample (s : Settings) (a : ℝ) (v : Option ℝ) : Settings :=
  { s with sample.mosaic := some a, sample.vmosaic := v }

theorem Settings.Valid.mosaicSample {s : Settings} {n : ℕ} (h : s.Valid n) (a : ℝ) (v : Option ℝ) :
    (s.mosaicSample a v).Valid n :=
  ⟨h.mono, h.ana, h.guide, h.monitor, h.detector,
    ⟨h.sample.width, h.sample.depth, h.sample.height, h.sample.one, h.sample.stack, h.sample.dir⟩, h.hcol, h.vcol, h.arms⟩

theorem Reaches.mosaicSample {s : Settings} {q w : ℝ} (h : Reaches s q w) (a : ℝ) (v : Option ℝ) :
    Reaches (s.mosaicSample a v) q w := ⟨h.ei, h.ef, h.mono, h.ana, h.closes, h.q⟩

theorem det_widen (R : M4) (a b : ℝ) :
    (1 + R * diagonal ![0, a, b, 0]).det = (1 + a * R 1 1) * (1 + b * R 2 2) - a * b * R 1 2 * R 2 1 := by
  have : 1 + R * diagonal ![0, a, b, 0] = !![1, a * R 0 1, b * R 0 2, 0; 0, 1 + a * R 1 1, b * R 1 2, 0;
      0, a * R 2 1, 1 + b * R 2 2, 0; 0, a * R 3 1, b * R 3 2, 1] := by
    ext i j
    rw [Matrix.add_apply, mul_diagonal]
    fin_cases i <;> fin_cases j <;> simp [mul_comm]
  rw [this]
  simp [Matrix.det_succ_row_zero, Fin.sum_univ_succ, Fin.succAbove]
  ring

/-- What the sample mosaic does to one point. -/
theorem pointAt_widen {c : Conf} {l : Loop} {k : Kin} {q : ℝ} (hn : c.etas = none) (hc : c.Good) (hl : l.Good)
    (hr : c.popovici = true → l.Curved) (hk : k.Good q) (ha : c.taua < 2 * k.kf) (he : 0 < c.etaa) {X : M3} (hX : X.PosDef)
    (a b : ℝ) :
    ∃ r r', pointAt c l X k q = .ok r ∧ pointAt { c with etas := some (a, b) } l X k q = .ok r' ∧ 0 < r.1 ∧ r.2.PosDef ∧
      r'.1 = r.1 / √((1 + (q * a) ^ 2 * r.2 2 2) * (1 + (q * b) ^ 2 * r.2 1 1)) ∧
      r'.2 = (r.2⁻¹ + diagonal ![0, q ^ 2 * a ^ 2, q ^ 2 * b ^ 2, 0])⁻¹ := by
  have sm : sin k.thetam ≠ 0 := right_ne_zero_of_mul hk.sm.ne'
  have sa : sin k.thetaa ≠ 0 := right_ne_zero_of_mul hk.sa.ne'
  have hS := matSinv_posDef hc (turnShape_posDef k hX)
  obtain ⟨Minv, d, h1, hM, hd⟩ := coreMatrix_ok hc hl hr hk hS.inv
  obtain ⟨r, h2, rp⟩ := prefactor_ok hc hl hk hd hM.inv
  have d1 := hM.inv.diag_pos (i := 1)
  have d2 := hM.inv.diag_pos (i := 2)
  have hp : 0 < (1 + (q * a) ^ 2 * Minv⁻¹ 2 2) * (1 + (q * b) ^ 2 * Minv⁻¹ 1 1) := by positivity
  have hD : (Minv + diagonal ![0, q ^ 2 * a ^ 2, q ^ 2 * b ^ 2, 0]).PosDef := by
    refine hM.add_posSemidef (PosSemidef.diagonal fun i => ?_)
    fin_cases i <;> simp <;> positivity
  have hw : ∃ f, 0 < f ∧ ∀ x, withReflectivity c l k x = .ok (x * f) := by
    unfold withReflectivity
    cases hrf : c.refl with
    | none => exact ⟨1, one_pos, fun x => by simp [pure, Except.pure]⟩
    | some p =>
      obtain ⟨t, kq⟩ := p
      obtain ⟨y, h4, y0⟩ := withReflectivity_ok hc l ha he one_pos
      unfold withReflectivity at h4
      simp only [hrf] at h4
      cases hf : reflectivity c l k t kq with
      | error e => rw [hf] at h4; exact nomatch h4
      | ok f =>
        rw [hf, ok_bind, one_mul] at h4
        refine ⟨f, ?_, fun x => by simp only [hf, ok_bind]; rfl⟩
        rw [Except.ok.inj h4]
        exact y0
  obtain ⟨f, f0, hw⟩ := hw
  have hw' : ∀ x, withReflectivity { c with etas := some (a, b) } l k x = .ok (x * f) := hw
  have h1' : coreMatrix { c with etas := some (a, b) } l k (matSinv c (turnShape k X))⁻¹ = .ok (Minv, d) := h1
  have h2' : prefactor { c with etas := some (a, b) } l k d Minv⁻¹ = .ok r := h2
  have hS' : matSinv { c with etas := some (a, b) } (turnShape k X) = matSinv c (turnShape k X) := rfl
  refine ⟨(r * f, Minv⁻¹),
    (r / √((1 + (q * a) ^ 2 * Minv⁻¹ 2 2) * (1 + (q * b) ^ 2 * Minv⁻¹ 1 1)) * f,
      (Minv + diagonal ![0, q ^ 2 * a ^ 2, q ^ 2 * b ^ 2, 0])⁻¹), ?_, ?_, mul_pos rp f0, hM.inv, ?_, ?_⟩
  · unfold pointAt
    rw [if_neg (by simp [hl.alpha, hl.beta, hc.mosaics.m, hc.mosaics.mv, hc.mosaics.a, hc.mosaics.av, sm, sa])]
    simp only [npInv_ok hS, ok_bind, h1, npInv_ok hM, h2, withMosaic, hn]
    change (withReflectivity c l k r >>= fun r0 => pure (r0, Minv⁻¹)) = _
    rw [hw]
    rfl
  · unfold pointAt
    rw [if_neg (by simp [hl.alpha, hl.beta, hc.mosaics.m, hc.mosaics.mv, hc.mosaics.a, hc.mosaics.av, sm, sa])]
    simp only [hS', npInv_ok hS, ok_bind, h1', npInv_ok hM, h2', withMosaic, sampleMosaic, npSqrt_ok hp.le,
      npDiv_ok (Real.sqrt_pos.2 hp).ne', npInv_ok hD]
    change (withReflectivity _ l k _ >>= fun r0 => pure (r0, _)) = _
    rw [hw']
    rfl
  · simp only
    ring
  · simp only [nonsing_inv_nonsing_inv _ hM.det_pos.ne'.isUnit]

theorem calc_widen {s : Settings} (h : s.Valid 1) (hm : s.sample.mosaic = none) (a : ℝ) (v : Option ℝ) {q w : ℝ}
    (hr : Reaches s q w) :
    ∃ r r', calcInQ s [(q, w)] = .ok [r] ∧ calcInQ (s.mosaicSample a v) [(q, w)] = .ok [r'] ∧ 0 < r.1 ∧ r.2.PosDef ∧
      r'.1 = r.1 / √((1 + (q * (a * arcmin)) ^ 2 * r.2 2 2) * (1 + (q * (v.getD a * arcmin)) ^ 2 * r.2 1 1)) ∧
      r'.2 = (r.2⁻¹ + diagonal ![0, q ^ 2 * (a * arcmin) ^ 2, q ^ 2 * (v.getD a * arcmin) ^ 2, 0])⁻¹ := by
  obtain ⟨c, hd, hc, hea, he, hi, htm, hta, sm, ss, sa⟩ := decode_ok h
  obtain ⟨k, hk, gk, gt⟩ := kinematics_ok he hi htm hta (sm ▸ h.mono.dir) (ss ▸ h.sample.dir) (sa ▸ h.ana.dir)
    h.mono.tau h.ana.tau hr
  obtain ⟨X, hX, pX⟩ := sshapeAt_ok h.sample (i := 0) (by omega)
  have hdec : c.etas = none ∧
      decode (s.mosaicSample a v) = .ok { c with etas := some (a * arcmin, v.getD a * arcmin) } := by
    have e : decodeArms (s.mosaicSample a v) = decodeArms s := rfl
    unfold decode at hd ⊢
    rw [e]
    cases ha : decodeArms s with
    | error e => rw [ha] at hd; exact nomatch hd
    | ok x =>
      rw [ha] at hd
      simp only [ok_bind, pure, Except.pure] at hd ⊢
      rw [← Except.ok.inj hd]
      exact ⟨by simp only [hm]; rfl, by rw [arcmin_eq]; rfl⟩
  have hl : ((Loop.start s).advance c k.ki).Good := advance_good (start_good h) c gk.ki
  have hcv : ((Loop.start s).advance c k.ki).Curved :=
    advance_curved (start_curved h) (sm ▸ h.mono.dir) (sa ▸ h.ana.dir) _
  obtain ⟨r, r', h1, h2, h3⟩ := pointAt_widen hdec.1 hc hl (fun _ => hcv) gk gt hea pX (a * arcmin) (v.getD a * arcmin)
  have hX' : sshapeAt (s.mosaicSample a v).sample 0 = .ok X := hX
  have hk' : kinematics { c with etas := some (a * arcmin, v.getD a * arcmin) } q w = .ok k := hk
  have hl' : (Loop.start (s.mosaicSample a v)).advance { c with etas := some (a * arcmin, v.getD a * arcmin) } k.ki =
    (Loop.start s).advance c k.ki := rfl
  refine ⟨r, r', ?_, ?_, h3⟩
  · unfold calcInQ
    simp only [hd, ok_bind, runLoop, hX, hk, h1]
    rfl
  · unfold calcInQ
    simp only [hdec.2, ok_bind, runLoop, hX', hk', hl', h2]
    rfl

/-- When the integrated intensity is conserved, for any method. -/
theorem integrated_iff {r r' : ℝ × M4} {x y : ℝ} (r0 : 0 < r.1) (hR : r.2.PosDef) (x0 : 0 ≤ x) (y0 : 0 ≤ y)
    (h1 : r'.1 = r.1 / √((1 + x * r.2 2 2) * (1 + y * r.2 1 1))) (h2 : r'.2 = (r.2⁻¹ + diagonal ![0, x, y, 0])⁻¹) :
    integrated r' = integrated r ↔ (x - y) * (r.2 1 1 - r.2 2 2) = x * y * r.2 1 2 ^ 2 := by
  have d1 := hR.diag_pos (i := 1)
  have d2 := hR.diag_pos (i := 2)
  have dp := hR.det_pos
  have hsym : r.2 2 1 = r.2 1 2 := by
    have := hR.isHermitian.apply 1 2
    simpa using this
  set P := (1 + x * r.2 2 2) * (1 + y * r.2 1 1) with hP
  have p0 : 0 < P := by positivity
  have hdet : r'.2.det = r.2.det / ((1 + x * r.2 1 1) * (1 + y * r.2 2 2) - x * y * r.2 1 2 * r.2 2 1) := by
    have : r.2⁻¹ + diagonal ![0, x, y, 0] = r.2⁻¹ * (1 + r.2 * diagonal ![0, x, y, 0]) := by
      rw [Matrix.mul_add, Matrix.mul_one, nonsing_inv_mul_cancel_left _ _ dp.ne'.isUnit]
    rw [h2, this, det_nonsing_inv, det_mul, det_nonsing_inv, det_widen, Ring.inverse_eq_inv', _root_.mul_inv_rev, inv_inv, div_eq_inv_mul]
  have hpos : 0 < r'.2.det := by
    rw [h2]
    have : (r.2⁻¹ + diagonal ![0, x, y, 0]).PosDef := by
      refine hR.inv.add_posSemidef (PosSemidef.diagonal fun i => ?_)
      fin_cases i <;> simp <;> assumption
    exact this.inv.det_pos
  set Q := (1 + x * r.2 1 1) * (1 + y * r.2 2 2) - x * y * r.2 1 2 * r.2 2 1 with hQ
  have q0 : 0 < Q := by
    by_contra hq
    rcases eq_or_lt_of_le (not_lt.1 hq) with h | h
    · rw [hdet, h, div_zero] at hpos
      exact lt_irrefl _ hpos
    · rw [hdet] at hpos
      exact absurd hpos (not_lt.2 (div_nonpos_of_nonneg_of_nonpos dp.le h.le))
  have e : integrated r' = integrated r * (√Q / √P) := by
    unfold integrated
    rw [h1, hdet, Real.sqrt_div dp.le]
    field_simp
  have ip : integrated r ≠ 0 := (div_pos r0 (Real.sqrt_pos.2 dp)).ne'
  rw [e, mul_eq_left₀ ip, div_eq_one_iff_eq (Real.sqrt_pos.2 p0).ne', Real.sqrt_inj q0.le p0.le, hQ, hP, hsym]
  constructor
  · intro h
    linear_combination h
  · intro h
    linear_combination h

/-- In the Cooper-Nathans form the vertical direction is independent of the others. -/
theorem flat_vertical {s : Settings} (h : s.Valid 1) (hp : s.popovici = false) (hf : s.horifoc.getD (-1) ≤ 0)
    (hm : s.sample.mosaic = none) {q w : ℝ} (hr : Reaches s q w) {r : ℝ × M4} (hc : calcInQ s [(q, w)] = .ok [r]) :
    r.2 1 2 = 0 := by
  obtain ⟨ki, kf, tm, ta, tt, hn⟩ := nominal_exists h hr
  obtain ⟨c, k, r', RM, -, -, -, hmo, hl, hcalc, hM, hRM⟩ := calc_cn h hp hf hr hn
  rw [hc] at hcalc
  have e : r = (r', RM) := (List.cons.inj (Except.ok.inj hcalc)).1
  rw [hm] at hRM
  simp only [add_zero] at hRM
  rw [e]
  simp only
  rw [hRM]
  set l := (Loop.start s).advance c ki
  have hB : matB k * diagonal (p6 1 0 1 0) = diagonal (p4 1 1 0 1) * matB k := by
    ext i j
    rw [mul_diagonal, diagonal_mul]
    fin_cases i <;> fin_cases j <;> simp [matB, p6, p4]
  have hBt : diagonal (p6 1 0 1 0) * (matB k)ᵀ = (matB k)ᵀ * diagonal (p4 1 1 0 1) := by
    have := congrArg transpose hB
    simpa only [transpose_mul, diagonal_transpose] using this
  have hN := cnN_comm 1 0 1 0 hmo hl k
  have e2 : matB k * matA k * (matG l + (matC k)ᵀ * matF c * matC k)⁻¹ * (matB k * matA k)ᵀ =
      matB k * (matA k * (matG l + (matC k)ᵀ * matF c * matC k)⁻¹ * (matA k)ᵀ) * (matB k)ᵀ := by
    rw [transpose_mul]; simp only [Matrix.mul_assoc]
  rw [e2] at hM ⊢
  set N := matA k * (matG l + (matC k)ᵀ * matF c * matC k)⁻¹ * (matA k)ᵀ
  have hcomm : diagonal (p4 1 1 0 1) * (matB k * N * (matB k)ᵀ) = (matB k * N * (matB k)ᵀ) * diagonal (p4 1 1 0 1) := by
    calc diagonal (p4 1 1 0 1) * (matB k * N * (matB k)ᵀ) = (diagonal (p4 1 1 0 1) * matB k) * N * (matB k)ᵀ := by
          simp only [Matrix.mul_assoc]
      _ = matB k * (diagonal (p6 1 0 1 0) * N) * (matB k)ᵀ := by rw [← hB]; simp only [Matrix.mul_assoc]
      _ = matB k * N * (diagonal (p6 1 0 1 0) * (matB k)ᵀ) := by rw [hN]; simp only [Matrix.mul_assoc]
      _ = _ := by rw [hBt]; simp only [Matrix.mul_assoc]
  exact comm_zero (comm_inv hM hcomm) (by simp [p4])

/-- C123, exactly when it holds.  For every valid instrument used with the Cooper-Nathans method and a flat
analyzer, every point it reaches and all mosaics: giving the sample a mosaic conserves the integrated
intensity if and only if the two mosaics are equal or the resolution is equal across the scattering vector in the
plane and out of it. -/
theorem C123_iff {s : Settings} (h : s.Valid 1) (hp : s.popovici = false) (hf : s.horifoc.getD (-1) ≤ 0)
    (hm : s.sample.mosaic = none) {a : ℝ} (a0 : 0 < a) {v : Option ℝ} (v0 : Pos v) {q w : ℝ} (hr : Reaches s q w) :
    ∃ r r', calcInQ s [(q, w)] = .ok [r] ∧ calcInQ (s.mosaicSample a v) [(q, w)] = .ok [r'] ∧
      (integrated r' = integrated r ↔ v.getD a = a ∨ r.2 1 1 = r.2 2 2) := by
  obtain ⟨r, r', h1, h2, r0, hR, e1, e2⟩ := calc_widen h hm a v hr
  have b0 := getD_pos v0 a0
  have ac : 0 < arcmin := by rw [arcmin_eq]; exact convert1_pos
  have hq := hr.q
  refine ⟨r, r', h1, h2, ?_⟩
  rw [integrated_iff r0 hR (x := (q * (a * arcmin)) ^ 2) (y := (q * (v.getD a * arcmin)) ^ 2) (by positivity) (by positivity)
    e1 (by rw [e2, mul_pow q, mul_pow q]), flat_vertical h hp hf hm hr h1]
  have : (q * (a * arcmin)) ^ 2 - (q * (v.getD a * arcmin)) ^ 2 = (q * arcmin) ^ 2 * (a + v.getD a) * (a - v.getD a) := by ring
  rw [this]
  have hne : (q * arcmin) ^ 2 * (a + v.getD a) ≠ 0 := by positivity
  rw [zero_pow two_ne_zero, mul_zero, mul_assoc, mul_eq_zero, or_iff_right hne, mul_eq_zero, sub_eq_zero, sub_eq_zero, eq_comm]

/-- C123, the part that holds: with equal horizontal and vertical mosaics (the default when no vertical mosaic
is given) the integrated intensity is conserved.  Missing: different mosaics, for which it is not (see
`C123_false`); the other methods and the horizontally focusing analyzer are in `C123_level_partial`. -/
theorem C123_equal_partial {s : Settings} (h : s.Valid 1) (hp : s.popovici = false) (hf : s.horifoc.getD (-1) ≤ 0)
    (hm : s.sample.mosaic = none) {a : ℝ} (a0 : 0 < a) {v : Option ℝ} (hv : v = none ∨ v = some a) {q w : ℝ}
    (hr : Reaches s q w) :
    ∃ r r', calcInQ s [(q, w)] = .ok [r] ∧ calcInQ (s.mosaicSample a v) [(q, w)] = .ok [r'] ∧
      integrated r' = integrated r := by
  have v0 : Pos v := by
    intro x hx
    rcases hv with rfl | rfl
    · exact nomatch hx
    · rw [← Option.some.inj hx]; exact a0
  obtain ⟨r, r', h1, h2, h3⟩ := C123_iff h hp hf hm a0 v0 hr
  exact ⟨r, r', h1, h2, h3.2 (Or.inl (by rcases hv with rfl | rfl <;> rfl))⟩

/-- The default instrument. -/
example : ∃ r r', calcInQ demo [(1, 1 / 2)] = .ok [r] ∧ calcInQ (demo.mosaicSample 30 none) [(1, 1 / 2)] = .ok [r'] ∧
    integrated r' = integrated r :=
  C123_equal_partial (demo_valid 1) (by simp [Settings.popovici, Settings.theMethod, demo]) (by norm_num [demo]) rfl
    (by norm_num) (Or.inl rfl) (demo_reaches (by norm_num) (by norm_num) (by norm_num) (by norm_num))

/-! ### Where it fails -/

/-- The derivatives of the flight as the matrices of the code. -/
theorem flight_fderiv {s : Settings} (h : s.Valid 1) (hp : s.popovici = false) (hf : s.horifoc.getD (-1) ≤ 0) {q w : ℝ}
    (hr : Reaches s q w) {ki kf tm ta tt : ℝ} (hn : IsNominal s q w ki kf tm ta tt) :
    ∃ k : Kin, k = ⟨ki, kf, tm, ta, tt, arctan2 (-kf * sin tt) (ki - kf * cos tt)⟩ ∧
      (∀ v, fderiv ℝ (transfer q ki kf tm ta tt) 0 v = matB k *ᵥ (matA k *ᵥ v)) ∧
      ∀ v, fderiv ℝ (misset ki kf tm ta) 0 v = matC k *ᵥ v := by
  obtain ⟨c, k, r, RM, hd, ek, gk, -⟩ := calc_cn h hp hf hr hn
  have sm : sin tm ≠ 0 := by
    have := right_ne_zero_of_mul gk.sm.ne'
    rwa [ek] at this
  have sa : sin ta ≠ 0 := by
    have := right_ne_zero_of_mul gk.sa.ne'
    rwa [ek] at this
  have ft := fderiv_of_lines (transfer_diff q (ki := ki) (kf := kf) tt sm sa) (transfer_line sm sa hr.q hn.triangle.1 k ek)
  have fm := fderiv_of_lines (misset_diff (ki := ki) (kf := kf) sm sa)
    (misset_line hn.waveIn.1.ne' hn.waveOut.1.ne' sm sa k (by rw [ek]) (by rw [ek]))
  exact ⟨k, ek, fun v => by rw [ft, mulVec_mulVec], fm⟩

/-- The same instrument with other vertical collimations. -/
def Settings.vcols (s : Settings) (b : ℝ) : Settings := { s with vcol := fun _ => b }

theorem Settings.Valid.vcols {s : Settings} {n : ℕ} (h : s.Valid n) {b : ℝ} (hb : b ≠ 0) : (s.vcols b).Valid n :=
  ⟨h.mono, h.ana, h.guide, h.monitor, h.detector, h.sample, h.hcol, fun _ => hb, h.arms⟩

/-- The neutrons that stay in the plane. -/
def flattened (v : Fin 8 → ℝ) : Fin 8 → ℝ := ![v 0, v 1, 0, 0, v 4, v 5, 0, 0]

/-- Every valid instrument has vertical collimations with which the resolution differs in and out of the plane. -/
theorem tight_vcols {s : Settings} (h : s.Valid 1) (hp : s.popovici = false) (hf : s.horifoc.getD (-1) ≤ 0)
    (hm : s.sample.mosaic = none) {q w : ℝ} (hr : Reaches s q w) :
    ∃ b, 0 < b ∧ ∃ r, calcInQ (s.vcols b) [(q, w)] = .ok [r] ∧ r.2 1 1 < r.2 2 2 := by
  obtain ⟨ki, kf, tm, ta, tt, hn⟩ := nominal_exists h hr
  obtain ⟨k, ek, ft, fm⟩ := flight_fderiv h hp hf hr hn
  have ac : 0 < arcmin := by rw [arcmin_eq]; exact convert1_pos
  have hki := hn.waveIn.1
  have hkf := hn.waveOut.1
  -- a neutron that deviates across the scattering vector and stays in the plane
  obtain ⟨-, -, -, r, RM, -, hl⟩ := flight_read h hp hf hm hr hn
  obtain ⟨⟨v, hv, -⟩, -⟩ := hl ![0, 1, 0, 0]
  have hv' : fderiv ℝ (transfer q ki kf tm ta tt) 0 (flattened v) = ![0, 1, 0, 0] := by
    rw [ft] at hv ⊢
    have c0 := congrFun hv 0
    have c1 := congrFun hv 1
    have c3 := congrFun hv 3
    simp [matB, matA, mulVec, dotProduct, Fin.sum_univ_succ] at c0 c1 c3
    ext i
    fin_cases i
    · simp [matB, matA, mulVec, dotProduct, Fin.sum_univ_succ, flattened]
      exact c0
    · simp [matB, matA, mulVec, dotProduct, Fin.sum_univ_succ, flattened]
      exact c1
    · simp [matB, matA, mulVec, dotProduct, Fin.sum_univ_succ, flattened]
    · simp [matB, matA, mulVec, dotProduct, Fin.sum_univ_succ, flattened]
      exact c3
  have hcost : ∀ b, cost (s.vcols b).asRead ki ki (flattened v) (fderiv ℝ (misset ki kf tm ta) 0 (flattened v)) =
      cost s.asRead ki ki (flattened v) (fderiv ℝ (misset ki kf tm ta) 0 (flattened v)) := by
    intro b
    have hmo : mosaics (s.vcols b).asRead = mosaics s.asRead := rfl
    unfold cost
    rw [hmo]
    congr 1
    simp [divergences, Fin.sum_univ_succ, flattened, Settings.vcols, Settings.asRead]
  set C := cost s.asRead ki ki (flattened v) (fderiv ℝ (misset ki kf tm ta) 0 (flattened v)) with hC
  have C0 : 0 ≤ C := by
    rw [hC, cost]
    positivity
  -- a vertical collimation that is tight enough
  obtain ⟨b, b0, hb⟩ : ∃ b : ℝ, 0 < b ∧ C * ((ki ^ 2 + kf ^ 2) * (b * arcmin) ^ 2) < 1 := by
    have hX : 0 < (C + 1) * ((ki ^ 2 + kf ^ 2) * arcmin ^ 2) + 1 := by positivity
    refine ⟨1 / ((C + 1) * ((ki ^ 2 + kf ^ 2) * arcmin ^ 2) + 1), by positivity, ?_⟩
    set X := (C + 1) * ((ki ^ 2 + kf ^ 2) * arcmin ^ 2) + 1 with hXd
    have x1 : 1 ≤ X := by
      have : 0 ≤ (C + 1) * ((ki ^ 2 + kf ^ 2) * arcmin ^ 2) := by positivity
      linarith
    have : C * ((ki ^ 2 + kf ^ 2) * arcmin ^ 2) < X := by
      have : 0 < (ki ^ 2 + kf ^ 2) * arcmin ^ 2 := by positivity
      linarith [hXd]
    rw [show C * ((ki ^ 2 + kf ^ 2) * (1 / X * arcmin) ^ 2) = C * ((ki ^ 2 + kf ^ 2) * arcmin ^ 2) / X ^ 2 by
      field_simp, div_lt_one (by positivity)]
    nlinarith
  have hn' : IsNominal (s.vcols b) q w ki kf tm ta tt := ⟨hn.waveIn, hn.waveOut, hn.braggIn, hn.braggOut, hn.triangle⟩
  obtain ⟨-, -, -, r', RM', hcalc, hl'⟩ := flight_read (h.vcols b0.ne') hp hf hm
    ⟨hr.ei, hr.ef, hr.mono, hr.ana, hr.closes, hr.q⟩ hn'
  refine ⟨b, b0, (r', RM'), hcalc, ?_⟩
  have q1 : quad RM' ![0, 1, 0, 0] = RM' 1 1 := by
    simp [quad_eq, mulVec, dotProduct, Fin.sum_univ_succ]
  have q2 : quad RM' ![0, 0, 1, 0] = RM' 2 2 := by
    simp [quad_eq, mulVec, dotProduct, Fin.sum_univ_succ]
  have le1 : RM' 1 1 ≤ C := by
    rw [← q1]
    exact (hl' ![0, 1, 0, 0]).2 ⟨flattened v, hv', (hcost b).symm⟩
  obtain ⟨⟨u, hu, eu⟩, -⟩ := hl' ![0, 0, 1, 0]
  have u2 : ki * u 3 - kf * u 6 = 1 := by
    rw [ft] at hu
    have := congrFun hu 2
    simp [matB, matA, mulVec, dotProduct, Fin.sum_univ_succ, ek] at this
    linarith
  have hge : (u 3 / (b * arcmin)) ^ 2 + (u 6 / (b * arcmin)) ^ 2 ≤ RM' 2 2 := by
    rw [← q2, eu, cost]
    have d3 : divergences (s.vcols b).asRead ki ki 3 = b * arcmin := by
      simp [divergences, Settings.vcols, Settings.asRead, divergence, not_lt.2 b0.le]
    have d6 : divergences (s.vcols b).asRead ki ki 6 = b * arcmin := by
      simp [divergences, Settings.vcols, Settings.asRead, divergence, not_lt.2 b0.le]
    have h1 : ∑ i ∈ ({3, 6} : Finset (Fin 8)), (u i / divergences (s.vcols b).asRead ki ki i) ^ 2 ≤
        ∑ i, (u i / divergences (s.vcols b).asRead ki ki i) ^ 2 :=
      Finset.sum_le_sum_of_subset_of_nonneg (Finset.subset_univ _) fun _ _ _ => sq_nonneg _
    rw [Finset.sum_pair (by decide), d3, d6] at h1
    refine h1.trans (le_add_of_nonneg_right (Finset.sum_nonneg fun _ _ => sq_nonneg _))
  have hcs : 1 ≤ (ki ^ 2 + kf ^ 2) * (u 3 ^ 2 + u 6 ^ 2) := by
    have : (1 : ℝ) = (ki * u 3 - kf * u 6) ^ 2 := by rw [u2]; norm_num
    rw [this]
    nlinarith [sq_nonneg (ki * u 6 + kf * u 3)]
  have hB : 0 < b * arcmin := by positivity
  set B := b * arcmin
  have : (u 3 / B) ^ 2 + (u 6 / B) ^ 2 = (u 3 ^ 2 + u 6 ^ 2) / B ^ 2 := by field_simp
  rw [this] at hge
  refine lt_of_le_of_lt le1 (lt_of_lt_of_le ?_ hge)
  rw [lt_div_iff₀ (by positivity)]
  have hk : 0 < ki ^ 2 + kf ^ 2 := by positivity
  by_contra hcon
  push Not at hcon
  have : (ki ^ 2 + kf ^ 2) * (u 3 ^ 2 + u 6 ^ 2) ≤ (ki ^ 2 + kf ^ 2) * (C * B ^ 2) := mul_le_mul_of_nonneg_left hcon hk.le
  nlinarith

/-- C123 is false: for every instrument that can be used with the Cooper-Nathans method and every point it reaches
there are vertical collimations for which any two different mosaics of the sample change the integrated
intensity. -/
theorem C123_false {s : Settings} (h : s.Valid 1) (hp : s.popovici = false) (hf : s.horifoc.getD (-1) ≤ 0)
    (hm : s.sample.mosaic = none) {q w : ℝ} (hr : Reaches s q w) :
    ∃ b, 0 < b ∧ ∀ a v : ℝ, 0 < a → 0 < v → a ≠ v → ∃ r r', calcInQ (s.vcols b) [(q, w)] = .ok [r] ∧
      calcInQ ((s.vcols b).mosaicSample a (some v)) [(q, w)] = .ok [r'] ∧ integrated r' ≠ integrated r := by
  obtain ⟨b, b0, r, hc, hlt⟩ := tight_vcols h hp hf hm hr
  refine ⟨b, b0, fun a v a0 v0 hne => ?_⟩
  obtain ⟨r1, r', h1, h2, h3⟩ := C123_iff (h.vcols b0.ne') hp hf hm a0 (v := some v) (fun x hx => by
    rw [← Option.some.inj hx]; exact v0) (q := q) (w := w) ⟨hr.ei, hr.ef, hr.mono, hr.ana, hr.closes, hr.q⟩
  have e : r1 = r := by
    rw [hc] at h1
    exact ((List.cons.inj (Except.ok.inj h1)).1).symm
  refine ⟨r1, r', h1, h2, fun he => ?_⟩
  rcases h3.1 he with h | h
  · exact hne h.symm
  · rw [e] at h
    exact absurd h hlt.ne

/-- The default instrument. -/
example : ∃ b, 0 < b ∧ ∃ r r', calcInQ (demo.vcols b) [(1, 1 / 2)] = .ok [r] ∧
    calcInQ ((demo.vcols b).mosaicSample 30 (some 60)) [(1, 1 / 2)] = .ok [r'] ∧ integrated r' ≠ integrated r := by
  obtain ⟨b, b0, h⟩ := C123_false (demo_valid 1) (by simp [Settings.popovici, Settings.theMethod, demo])
    (by norm_num [demo]) rfl (q := 1) (w := 1 / 2) (demo_reaches (by norm_num) (by norm_num) (by norm_num) (by norm_num))
  exact ⟨b, b0, h 30 60 (by norm_num) (by norm_num) (by norm_num)⟩

end Verif.Resolution
