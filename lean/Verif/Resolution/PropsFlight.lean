import Verif.Resolution.FlightLines

/-! # Property theorems: the resolution matrix describes the flight of the neutrons (C122) -/

namespace Verif.Resolution

open Real Matrix
open Verif.Crystal (Fail npSqrt npArcsin npDiv)
open Verif.Tools (arctan2 quad SPD Closes)

/-! ## Least cost -/

section
variable {ι κ : Type} [Fintype ι] [DecidableEq ι] [Fintype κ] [DecidableEq κ]

/-- The form of `(J H⁻¹ Jᵀ)⁻¹` at `d` is the least value of the form of `H` on the solutions of `J v = d`. -/
theorem least_cost {H : Matrix ι ι ℝ} (hH : H.PosDef) (J : Matrix κ ι ℝ) (hJ : (J * H⁻¹ * Jᵀ).PosDef) (d : κ → ℝ) :
    IsLeast {c | ∃ v, J *ᵥ v = d ∧ c = v ⬝ᵥ (H *ᵥ v)} (d ⬝ᵥ ((J * H⁻¹ * Jᵀ)⁻¹ *ᵥ d)) := by
  have uH : IsUnit H.det := hH.det_pos.ne'.isUnit
  have uM : IsUnit (J * H⁻¹ * Jᵀ).det := hJ.det_pos.ne'.isUnit
  set N := (J * H⁻¹ * Jᵀ)⁻¹ with hN
  set x := H⁻¹ *ᵥ (Jᵀ *ᵥ (N *ᵥ d)) with hx
  have hHx : H *ᵥ x = Jᵀ *ᵥ (N *ᵥ d) := by
    rw [hx, mulVec_mulVec, mul_nonsing_inv _ uH, one_mulVec]
  have hJx : J *ᵥ x = d := by
    rw [hx, mulVec_mulVec, mulVec_mulVec, mulVec_mulVec, hN, mul_nonsing_inv _ uM, one_mulVec]
  have cross : ∀ v, v ⬝ᵥ (H *ᵥ x) = (J *ᵥ v) ⬝ᵥ (N *ᵥ d) := fun v => by
    rw [hHx, dotProduct_mulVec, vecMul_transpose]
  have hsym : ∀ v, x ⬝ᵥ (H *ᵥ v) = v ⬝ᵥ (H *ᵥ x) := fun v => by
    have ht : Hᵀ = H := by simpa using hH.isHermitian.eq
    rw [dotProduct_mulVec, ← mulVec_transpose, ht, dotProduct_comm]
  refine ⟨⟨x, hJx, by rw [cross, hJx]⟩, ?_⟩
  rintro _ ⟨v, hv, rfl⟩
  have hp := hH.posSemidef.dotProduct_mulVec_nonneg (v - x)
  simp only [star_trivial] at hp
  have : (v - x) ⬝ᵥ (H *ᵥ (v - x)) = v ⬝ᵥ (H *ᵥ v) - d ⬝ᵥ (N *ᵥ d) := by
    rw [mulVec_sub, dotProduct_sub, sub_dotProduct, sub_dotProduct, hsym, cross, cross, hv, hJx]
    ring
  linarith

end

/-! ## The nominal setting is the one the code computes -/

theorem wavevector_unique {k e : ℝ} (hk : 0 < k) (h : 2.072 * k ^ 2 = e) : √(e / 2.072) = k := by
  rw [← h, mul_div_cancel_left₀ _ (by norm_num), Real.sqrt_sq hk.le]

theorem bragg_unique {k th d tau : ℝ} (hk : 0 < k) (ha : |th| < π / 2) (hs : 2 * k * sin th = d * tau)
    (hd : d = 1 ∨ d = -1) : arcsin (tau / (2 * k)) * d = th := by
  have h := abs_lt.1 ha
  rcases hd with rfl | rfl
  · rw [show tau / (2 * k) = sin th by rw [div_eq_iff (by positivity)]; linarith,
      arcsin_sin h.1.le h.2.le, mul_one]
  · rw [show tau / (2 * k) = sin (-th) by rw [div_eq_iff (by positivity), sin_neg]; linarith,
      arcsin_sin (by linarith) (by linarith)]
    ring

theorem angle_unique {ki kf q tt d : ℝ} (hki : 0 < ki) (hkf : 0 < kf)
    (hl : q ^ 2 = ki ^ 2 + kf ^ 2 - 2 * ki * kf * cos tt) (h0 : 0 ≤ d * tt) (h1 : d * tt ≤ π) (hd : d = 1 ∨ d = -1) :
    arccos ((ki ^ 2 + kf ^ 2 - q ^ 2) / (2 * ki * kf)) * d = tt := by
  have : (ki ^ 2 + kf ^ 2 - q ^ 2) / (2 * ki * kf) = cos tt := by
    rw [div_eq_iff (by positivity), hl]; ring
  rw [this]
  rcases hd with rfl | rfl
  · rw [one_mul] at h0 h1
    rw [arccos_cos h0 h1, mul_one]
  · rw [← cos_neg, arccos_cos (by linarith) (by linarith)]
    ring

theorem kinematics_nominal {s : Settings} {c : Conf} {q w ki kf tm ta tt : ℝ} (he : c.efixed = s.efixed)
    (hf : c.infin = s.infin.getD (-1)) (hm : c.taum = s.mono.tau) (ha : c.taua = s.ana.tau) (sm : c.sm = s.mono.dir)
    (ss : c.ss = s.sample.dir) (sa : c.sa = s.ana.dir) (dm : s.mono.dir = 1 ∨ s.mono.dir = -1)
    (ds : s.sample.dir = 1 ∨ s.sample.dir = -1) (da : s.ana.dir = 1 ∨ s.ana.dir = -1)
    (h : IsNominal s q w ki kf tm ta tt) {k : Kin} (hk : kinematics c q w = .ok k) :
    k = ⟨ki, kf, tm, ta, tt, arctan2 (-kf * sin tt) (ki - kf * cos tt)⟩ := by
  have e1 : (if 0 < c.infin then c.efixed else c.efixed + w) = incident s w := by rw [hf, he]; rfl
  have e2 : (if 0 < c.infin then c.efixed - w else c.efixed) = final s w := by rw [hf, he]; rfl
  have c2 : convert2 = 2.072 := by norm_num [convert2]
  have hi : 0 ≤ incident s w / 2.072 := by
    rw [← h.waveIn.2, mul_div_cancel_left₀ _ (by norm_num)]; positivity
  have hfi : 0 ≤ final s w / 2.072 := by
    rw [← h.waveOut.2, mul_div_cancel_left₀ _ (by norm_num)]; positivity
  have hki := h.waveIn.1
  have hkf := h.waveOut.1
  unfold kinematics at hk
  simp only [e1, e2, c2, npSqrt_ok hi, npSqrt_ok hfi, ok_bind, wavevector_unique hki h.waveIn.2,
    wavevector_unique hkf h.waveOut.2, npDiv_ok (by positivity : 2 * ki ≠ 0), npDiv_ok (by positivity : 2 * kf ≠ 0),
    npDiv_ok (by positivity : 2 * ki * kf ≠ 0), npArcsin, scatteringAngle] at hk
  split_ifs at hk <;> first
    | (cases hk; done)
    | skip
  simp only [ok_bind, pure, Except.pure] at hk
  rw [hm, ha, sm, ss, sa, bragg_unique hki h.braggIn.1 h.braggIn.2 dm, bragg_unique hkf h.braggOut.1 h.braggOut.2 da,
    angle_unique hki hkf h.triangle.1 h.triangle.2.1 h.triangle.2.2 ds] at hk
  exact (Except.ok.inj hk).symm

/-! ## The weights are those of the code -/

theorem arcmin_eq : arcmin = convert1 := by
  unfold arcmin convert1
  ring

theorem divergence_eq (x ki : ℝ) : guideDivergence (x * convert1) ki = divergence x ki := by
  have h1 := convert1_pos
  unfold guideDivergence divergence
  by_cases h : x < 0
  · rw [if_pos (mul_neg_of_neg_of_pos h h1), if_pos h, arcmin_eq]
    norm_num
    ring
  · rw [if_neg (not_lt.2 (mul_nonneg (not_lt.1 h) h1.le)), if_neg h, arcmin_eq]

/-- The settings that the code reads: the vertical mosaic of the monochromator only for some values of the method. -/
def Settings.asRead (s : Settings) : Settings :=
  { s with mono.vmosaic := if s.vmosaicUsed then s.mono.vmosaic else none }

/-- The code uses the wavevector before the sample throughout and may ignore the vertical mosaic of the monochromator.
Where this makes no difference, the weights are the right ones. -/
theorem cost_read {s : Settings} (hg : s.Collimated)
    (hv : s.vmosaicUsed = true ∨ s.mono.vmosaic.getD s.mono.mosaic = s.mono.mosaic) (ki kf : ℝ) :
    cost s.asRead ki ki = cost s ki kf := by
  have hd : divergences s.asRead ki ki = divergences s ki kf := by
    have e (x : ℝ) (hx : 0 < x) : divergence x ki = divergence x kf := by
      simp only [divergence, if_neg (not_lt.2 hx.le)]
    unfold divergences Settings.asRead
    simp only [e _ hg.h2, e _ hg.h3, e _ hg.v2, e _ hg.v3]
  have hm : mosaics s.asRead = mosaics s := by
    unfold mosaics Settings.asRead
    rcases hv with hv | hv
    · rw [if_pos hv]
    · dsimp only
      rw [hv]
      split_ifs
      · rw [hv]
      · rfl
  funext v m
  unfold cost
  rw [hd, hm]

theorem cost_parts {s : Settings} {c : Conf} (hd : decode s = .ok c) (hf : s.horifoc ≠ some 1) (ki : ℝ) (v : Fin 8 → ℝ)
    (m : Fin 4 → ℝ) :
    cost s.asRead ki ki v m = v ⬝ᵥ (matG ((Loop.start s).advance c ki) *ᵥ v) + m ⬝ᵥ (matF c *ᵥ m) := by
  have ha : ∀ i, ((Loop.start s).advance c ki).alpha i = divergence (s.hcol i) ki := fun i => by
    simp only [Loop.advance, Loop.start]
    rw [if_neg (fun h => hf h.1), mul_one, divergence_eq]
  have hb : ∀ i, ((Loop.start s).advance c ki).beta i = divergence (s.vcol i) ki := fun i => divergence_eq _ _
  have hmos : ![c.etam, c.etamv, c.etaa, c.etaav] = mosaics s.asRead := by
    unfold decode at hd
    cases h : decodeArms s with
    | error e => rw [h] at hd; exact nomatch hd
    | ok x =>
      rw [h] at hd
      simp only [ok_bind, pure, Except.pure] at hd
      rw [← Except.ok.inj hd]
      simp only [mosaics, arcmin_eq, Settings.asRead]
      cases s.vmosaicUsed <;> rfl
  have hG : v ⬝ᵥ (matG ((Loop.start s).advance c ki) *ᵥ v) = ∑ i, (v i / divergences s.asRead ki ki i) ^ 2 := by
    unfold matG dotProduct
    refine Finset.sum_congr rfl fun i _ => ?_
    rw [mulVec_diagonal]
    simp only [ha, hb, divergences, Settings.asRead]
    rw [div_pow]
    ring
  have hF : m ⬝ᵥ (matF c *ᵥ m) = ∑ j, (m j / mosaics s.asRead j) ^ 2 := by
    rw [dotProduct]
    refine Finset.sum_congr rfl fun i _ => ?_
    rw [matF, mulVec_diagonal, hmos, div_pow]
    ring
  rw [hG, hF, cost]

theorem cost_eq {s : Settings} {c : Conf} (hd : decode s = .ok c) (hf : s.horifoc ≠ some 1) (ki : ℝ) (v : Fin 8 → ℝ)
    (k : Kin) :
    cost s.asRead ki ki v (matC k *ᵥ v) =
      v ⬝ᵥ ((matG ((Loop.start s).advance c ki) + (matC k)ᵀ * matF c * matC k) *ᵥ v) := by
  rw [cost_parts hd hf, add_mulVec, dotProduct_add, ← mulVec_mulVec, ← mulVec_mulVec, dotProduct_mulVec v (matC k)ᵀ,
    vecMul_transpose]

/-! ## C122 -/

/-- What `pointAt` computes around the core matrix of either method. -/
theorem pointAt_core {c : Conf} {l : Loop} {k : Kin} {q : ℝ} (hc : c.Good) (hl : l.Good) (hk : k.Good q)
    (ha : c.taua < 2 * k.kf) (he : 0 < c.etaa) {X : M3} (hX : X.PosDef) {M : M4} {d : ℝ}
    (hcore : coreMatrix c l k (matSinv c (turnShape k X))⁻¹ = .ok (M, d)) (hM : M.PosDef) (hd : 0 < d) :
    ∃ r RM, pointAt c l X k q = .ok (r, RM) ∧
      RM = (M + match c.etas with
        | none => 0
        | some (a, b) => diagonal ![0, q ^ 2 * a ^ 2, q ^ 2 * b ^ 2, 0])⁻¹ := by
  have sm : sin k.thetam ≠ 0 := right_ne_zero_of_mul hk.sm.ne'
  have sa : sin k.thetaa ≠ 0 := right_ne_zero_of_mul hk.sa.ne'
  have hS := matSinv_posDef hc (turnShape_posDef k hX)
  obtain ⟨r, h2, rp⟩ := prefactor_ok hc hl hk hd hM.inv
  have hmos : ∃ r', withMosaic c q r M⁻¹ M = .ok (r', (M + match c.etas with
        | none => 0
        | some (a, b) => diagonal ![0, q ^ 2 * a ^ 2, q ^ 2 * b ^ 2, 0])⁻¹) ∧ 0 < r' := by
    obtain ⟨r', RM', h3, rp', hR'⟩ := withMosaic_ok c q rp hM.inv hM
    refine ⟨r', ?_, rp'⟩
    rw [h3]
    congr 2
    unfold withMosaic at h3
    split at h3
    · next a b hab =>
      simp only [hab]
      have hD : (M + diagonal ![0, q ^ 2 * a ^ 2, q ^ 2 * b ^ 2, 0]).PosDef := by
        refine hM.add_posSemidef (PosSemidef.diagonal fun i => ?_)
        fin_cases i <;> simp <;> positivity
      unfold sampleMosaic at h3
      simp only [npInv_ok hD, ok_bind] at h3
      cases h4 : npSqrt ((1 + (q * a) ^ 2 * M⁻¹ 2 2) * (1 + (q * b) ^ 2 * M⁻¹ 1 1)) with
      | error e => rw [h4] at h3; exact nomatch h3
      | ok d =>
        rw [h4] at h3
        simp only [ok_bind] at h3
        cases h5 : npDiv r d with
        | error e => rw [h5] at h3; exact nomatch h3
        | ok d' =>
          rw [h5] at h3
          simp only [ok_bind, pure, Except.pure] at h3
          exact (congrArg Prod.snd (Except.ok.inj h3)).symm
    · next hn =>
      simp only [hn, add_zero]
      exact (congrArg Prod.snd (Except.ok.inj h3)).symm
  obtain ⟨r', h3, rp'⟩ := hmos
  obtain ⟨r'', h4, rp''⟩ := withReflectivity_ok hc l ha he rp'
  refine ⟨r'', _, ?_, rfl⟩
  unfold pointAt
  rw [if_neg (by simp [hl.alpha, hl.beta, hc.mosaics.m, hc.mosaics.mv, hc.mosaics.a, hc.mosaics.av, sm, sa])]
  simp only [npInv_ok hS, ok_bind, hcore, npInv_ok hM, h2, h3, h4]
  rfl

/-- What `pointAt` computes by the Cooper-Nathans method with a flat analyzer. -/
theorem pointAt_flat {c : Conf} {l : Loop} {k : Kin} {q : ℝ} (hc : c.Good) (hl : l.Good) (hp : c.popovici = false)
    (hf : ¬ 0 < c.horifoc) (hk : k.Good q) (ha : c.taua < 2 * k.kf) (he : 0 < c.etaa) {X : M3} (hX : X.PosDef) :
    ∃ r RM, pointAt c l X k q = .ok (r, RM) ∧
      (matB k * matA k * (matG l + (matC k)ᵀ * matF c * matC k)⁻¹ * (matB k * matA k)ᵀ).PosDef ∧
      RM = (matB k * matA k * (matG l + (matC k)ᵀ * matF c * matC k)⁻¹ * (matB k * matA k)ᵀ +
        match c.etas with
        | none => 0
        | some (a, b) => diagonal ![0, q ^ 2 * a ^ 2, q ^ 2 * b ^ 2, 0])⁻¹ := by
  have hH := cnH_posDef hc.mosaics hl k
  have hN := congr_posDef hH.inv (matA k) (matA_inj hk)
  have hM := congr_posDef hN (matB k) (matB_inj hk)
  have hcore : coreMatrix c l k (matSinv c (turnShape k X))⁻¹ =
      .ok (matB k * (matA k * (matG l + (matC k)ᵀ * matF c * matC k)⁻¹ * (matA k)ᵀ) * (matB k)ᵀ,
        (matG l + (matC k)ᵀ * matF c * matC k).det) := by
    simp [coreMatrix, hp, cooperNathansN, npInv_ok hH, ok_bind, if_neg hf, pure, Except.pure]
  have e : matB k * (matA k * (matG l + (matC k)ᵀ * matF c * matC k)⁻¹ * (matA k)ᵀ) * (matB k)ᵀ =
      matB k * matA k * (matG l + (matC k)ᵀ * matF c * matC k)⁻¹ * (matB k * matA k)ᵀ := by
    rw [transpose_mul]; simp only [Matrix.mul_assoc]
  rw [e] at hcore hM
  obtain ⟨r, RM, h1, h2⟩ := pointAt_core hc hl hk ha he hX hcore hM hH.det_pos
  exact ⟨r, RM, h1, hM, h2⟩

/-- The matrix for one point, with the matrices of the code. -/
theorem calc_cn {s : Settings} (h : s.Valid 1) (hp : s.popovici = false) (hf : s.horifoc.getD (-1) ≤ 0) {q w : ℝ}
    (hr : Reaches s q w) {ki kf tm ta tt : ℝ} (hn : IsNominal s q w ki kf tm ta tt) :
    ∃ c k r RM, decode s = .ok c ∧ k = ⟨ki, kf, tm, ta, tt, arctan2 (-kf * sin tt) (ki - kf * cos tt)⟩ ∧ k.Good q ∧
      c.Mosaics ∧ ((Loop.start s).advance c ki).Good ∧
      calcInQ s [(q, w)] = .ok [(r, RM)] ∧
      (matB k * matA k * (matG ((Loop.start s).advance c ki) + (matC k)ᵀ * matF c * matC k)⁻¹ *
        (matB k * matA k)ᵀ).PosDef ∧
      RM = (matB k * matA k * (matG ((Loop.start s).advance c ki) + (matC k)ᵀ * matF c * matC k)⁻¹ *
        (matB k * matA k)ᵀ +
        match s.sample.mosaic with
        | none => 0
        | some m => diagonal ![0, q ^ 2 * (m * arcmin) ^ 2, q ^ 2 * (s.sample.vmosaic.getD m * arcmin) ^ 2, 0])⁻¹ := by
  obtain ⟨c, hd, hc, hea, he, hi, hm, ha, sm, ss, sa⟩ := decode_ok h
  obtain ⟨k, hk, gk, gt⟩ := kinematics_ok he hi hm ha (sm ▸ h.mono.dir) (ss ▸ h.sample.dir) (sa ▸ h.ana.dir)
    h.mono.tau h.ana.tau hr
  have ek := kinematics_nominal he hi hm ha sm ss sa h.mono.dir h.sample.dir h.ana.dir hn hk
  have hki : k.ki = ki := by rw [ek]
  have hdec : c.popovici = s.popovici ∧ c.horifoc = s.horifoc.getD (-1) ∧
      c.etas = s.sample.mosaic.map fun m => (m * convert1, s.sample.vmosaic.getD m * convert1) := by
    have hd' := hd
    unfold decode at hd'
    cases ha : decodeArms s with
    | error e => rw [ha] at hd'; exact nomatch hd'
    | ok x =>
      rw [ha] at hd'
      simp only [ok_bind, pure, Except.pure] at hd'
      rw [← Except.ok.inj hd']
      exact ⟨rfl, rfl, rfl⟩
  have hl : ((Loop.start s).advance c k.ki).Good := advance_good (start_good h) c gk.ki
  obtain ⟨X, hX, pX⟩ := sshapeAt_ok h.sample (i := 0) (by omega)
  obtain ⟨r, RM, h1, h2, h3⟩ := pointAt_flat hc hl (hdec.1.trans hp) (by rw [hdec.2.1]; exact not_lt.2 hf) gk gt hea pX
  refine ⟨c, k, r, RM, hd, ek, gk, hc.mosaics, hki ▸ hl, ?_, hki ▸ h2, ?_⟩
  · unfold calcInQ
    simp only [hd, ok_bind, runLoop, hX, hk, h1]
    rfl
  · rw [h3, hki, hdec.2.2]
    cases s.sample.mosaic with
    | none => rfl
    | some m => simp only [Option.map_some, arcmin_eq]

/-- The form of the resolution matrix is the least cost with the weights of the code. -/
theorem flight_read {s : Settings} (h : s.Valid 1) (hp : s.popovici = false) (hf : s.horifoc.getD (-1) ≤ 0)
    (hmos : s.sample.mosaic = none) {q w : ℝ} (hr : Reaches s q w) {ki kf tm ta tt : ℝ}
    (hn : IsNominal s q w ki kf tm ta tt) :
    transfer q ki kf tm ta tt 0 = ![q, 0, 0, w] ∧
    DifferentiableAt ℝ (transfer q ki kf tm ta tt) 0 ∧ DifferentiableAt ℝ (misset ki kf tm ta) 0 ∧
    ∃ r RM, calcInQ s [(q, w)] = .ok [(r, RM)] ∧ ∀ d,
      IsLeast {x | ∃ v, fderiv ℝ (transfer q ki kf tm ta tt) 0 v = d ∧
        x = cost s.asRead ki ki v (fderiv ℝ (misset ki kf tm ta) 0 v)} (quad RM d) := by
  obtain ⟨c, k, r, RM, hd, ek, gk, hc, hl, hcalc, hM, hRM⟩ := calc_cn h hp hf hr hn
  have sm : sin tm ≠ 0 := by
    have := right_ne_zero_of_mul gk.sm.ne'
    rwa [ek] at this
  have sa : sin ta ≠ 0 := by
    have := right_ne_zero_of_mul gk.sa.ne'
    rwa [ek] at this
  have hki := hn.waveIn.1
  have hkf := hn.waveOut.1
  have dt := transfer_diff q (ki := ki) (kf := kf) tt sm sa
  have dm := misset_diff (ki := ki) (kf := kf) sm sa
  have ft := fderiv_of_lines dt (transfer_line sm sa hr.q hn.triangle.1 k ek)
  have fm := fderiv_of_lines dm (misset_line hki.ne' hkf.ne' sm sa k (by rw [ek]) (by rw [ek]))
  refine ⟨?_, dt, dm, r, RM, hcalc, fun d => ?_⟩
  · have hmz := momentum_zero (ki := ki) (kf := kf) tt sm sa
    have hq := hr.q
    have e1 : momentum ki kf tm ta tt 0 ⬝ᵥ momentum ki kf tm ta tt 0 = q ^ 2 := by
      rw [hmz, hn.triangle.1]
      simp [dotProduct, Fin.sum_univ_succ]
      have := sin_sq_add_cos_sq tt
      linear_combination kf ^ 2 * this
    ext i
    fin_cases i
    · simp only [transfer, along, dotProduct_smul, e1]
      simp
      field_simp
    · simp only [transfer, across, along, hmz]
      simp [dotProduct, Fin.sum_univ_succ]
      ring
    · simp [transfer, hmz]
    · have ew : incident s w - final s w = w := by
        unfold incident final
        split_ifs <;> ring
      simp only [transfer, energy, incoming_zero sm, outgoing_zero tt sa]
      simp [dotProduct, Fin.sum_univ_succ]
      have := sin_sq_add_cos_sq tt
      linear_combination ew + hn.waveIn.2 - hn.waveOut.2 - 2.072 * kf ^ 2 * this
  · have hlc := least_cost (cnH_posDef hc hl k) _ hM d
    rw [hmos] at hRM
    simp only [add_zero] at hRM
    rw [quad_eq, hRM]
    have hf' : s.horifoc ≠ some 1 := by
      intro h1
      rw [h1] at hf
      norm_num at hf
    simp only [ft, fm, cost_eq hd hf']
    exact hlc

/-- C122, without sample mosaic.  For every valid instrument used with the Cooper-Nathans method and a flat
analyzer and every point it reaches: at the nominal setting the neutron transfers exactly `q` along the
first axis and `w`; the transfer is differentiable in the angles of flight; and the form of the
resolution matrix at a deviation `d` is the least cost of a neutron that, to first order, deviates by `d`.
(For Gaussian weights this says that the matrix is the inverse covariance of the deviations.)  Missing: guides after
the sample (`C122_guide_false`) and a vertical mosaic of the monochromator (`C122_vmosaic_false`). -/
theorem C122_flight_partial {s : Settings} (h : s.Valid 1) (hp : s.popovici = false) (hf : s.horifoc.getD (-1) ≤ 0)
    (hg : s.Collimated) (hv : s.mono.vmosaic.getD s.mono.mosaic = s.mono.mosaic)
    (hmos : s.sample.mosaic = none) {q w : ℝ} (hr : Reaches s q w) {ki kf tm ta tt : ℝ}
    (hn : IsNominal s q w ki kf tm ta tt) :
    transfer q ki kf tm ta tt 0 = ![q, 0, 0, w] ∧
    DifferentiableAt ℝ (transfer q ki kf tm ta tt) 0 ∧ DifferentiableAt ℝ (misset ki kf tm ta) 0 ∧
    ∃ r RM, calcInQ s [(q, w)] = .ok [(r, RM)] ∧ ∀ d,
      IsLeast {x | ∃ v, fderiv ℝ (transfer q ki kf tm ta tt) 0 v = d ∧
        x = cost s ki kf v (fderiv ℝ (misset ki kf tm ta) 0 v)} (quad RM d) := by
  rw [← cost_read hg (Or.inr hv)]
  exact flight_read h hp hf hmos hr hn

end Verif.Resolution
