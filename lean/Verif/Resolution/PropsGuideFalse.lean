import Verif.Resolution.PropsVmosaic

/-! # C122: guides after the sample

`C122_guide_false`: the code applies the wavevector before the sample to the guides after it, so that the resolution
matrix is that of another instrument at every inelastic point. -/

namespace Verif.Resolution

open Real Matrix
open Verif.Crystal (Fail)
open Verif.Tools (quad arctan2)

/-- The same instrument with collimators after the sample that have the divergence of the guides there. -/
noncomputable def Settings.settled (s : Settings) (kf : ℝ) : Settings :=
  { s with
    hcol := ![s.hcol 0, s.hcol 1, divergence (s.hcol 2) kf / arcmin, divergence (s.hcol 3) kf / arcmin]
    vcol := ![s.vcol 0, s.vcol 1, divergence (s.vcol 2) kf / arcmin, divergence (s.vcol 3) kf / arcmin] }

theorem arcmin_pos : 0 < arcmin := by rw [arcmin_eq]; exact convert1_pos

theorem divergence_pos {x k : ℝ} (hx : x ≠ 0) (hk : 0 < k) : 0 < divergence x k := by
  have := arcmin_pos
  unfold divergence
  split_ifs with h
  · have := neg_pos.2 h
    positivity
  · have := lt_of_le_of_ne (not_lt.1 h) hx.symm
    positivity

theorem divergence_settled {x k : ℝ} (hx : x ≠ 0) (hk : 0 < k) (k' : ℝ) :
    divergence (divergence x k / arcmin) k' = divergence x k := by
  have h := divergence_pos hx hk
  have a := arcmin_pos
  rw [divergence, if_neg (not_lt.2 (by positivity))]
  field_simp

/-- Divergences at the analyzer that are all changed in the same sense give other matrices. -/
theorem after_differ {c : Conf} {l l' : Loop} {k : Kin} {q : ℝ} (hc : c.Mosaics) (hl : l.Good) (hl' : l'.Good) (hk : k.Good q)
    (h0 : l'.alpha 0 = l.alpha 0 ∧ l'.alpha 1 = l.alpha 1 ∧ l'.beta 0 = l.beta 0 ∧ l'.beta 1 = l.beta 1)
    (h2 : 0 ≤ 1 / l'.beta 2 ^ 2 - 1 / l.beta 2 ^ 2) (h3 : 0 ≤ 1 / l'.beta 3 ^ 2 - 1 / l.beta 3 ^ 2)
    (hne : 0 < 1 / l'.beta 2 ^ 2 - 1 / l.beta 2 ^ 2 ∨ 0 < 1 / l'.beta 3 ^ 2 - 1 / l.beta 3 ^ 2) :
    cnMinv c l k ≠ cnMinv c l' k := by
  intro heq
  have e := congrFun (congrFun heq 2) 2
  rw [cnMinv_22 hc hl, cnMinv_22 hc hl'] at e
  have hP := cnH_posDef hc hl k
  have hP' := cnH_posDef hc hl' k
  have sa : sin k.thetaa ≠ 0 := right_ne_zero_of_mul hk.sa.ne'
  have hcm := comm_inv hP (cnH_comm 1 2 3 4 c l k)
  have hcm' := comm_inv hP' (cnH_comm 1 2 3 4 c l' k)
  have z (i j : Fin 8) (hij : p8 1 2 3 4 i ≠ p8 1 2 3 4 j) := comm_zero hcm hij
  have z64 := z 6 4 (by simp [p8])
  have z65 := z 6 5 (by simp [p8])
  have z34 := z 3 4 (by simp [p8])
  have z35 := z 3 5 (by simp [p8])
  have z36 := z 3 6 (by simp [p8])
  have z37 := z 3 7 (by simp [p8])
  have d := inv_sub_inv hP hP'
  have g : matG l' + (matC k)ᵀ * matF c * matC k - (matG l + (matC k)ᵀ * matF c * matC k) =
      diagonal ![0, 0, 0, 0, 1 / l'.alpha 2 ^ 2 - 1 / l.alpha 2 ^ 2, 1 / l'.alpha 3 ^ 2 - 1 / l.alpha 3 ^ 2,
        1 / l'.beta 2 ^ 2 - 1 / l.beta 2 ^ 2, 1 / l'.beta 3 ^ 2 - 1 / l.beta 3 ^ 2] := by
    rw [add_sub_add_right_eq_sub]
    unfold matG
    rw [diagonal_sub]
    congr 1
    funext i
    fin_cases i <;> simp [h0]
  -- the analyzer block, vertical
  have blk (l : Loop) (hl : l.Good) : ∃ y : ℝ, (matG l + (matC k)ᵀ * matF c * matC k)⁻¹ 6 7 =
      y * (matG l + (matC k)ᵀ * matF c * matC k)⁻¹ 6 6 ∧ 0 < y := by
    have hP := cnH_posDef hc hl k
    have hcm := comm_inv hP (cnH_comm 1 2 3 4 c l k)
    have o := congrFun (congrFun (nonsing_inv_mul _ hP.det_pos.ne'.isUnit) 6) 7
    rw [Matrix.mul_apply, Fin.sum_univ_eight] at o
    generalize (matG l + (matC k)ᵀ * matF c * matC k)⁻¹ = W at *
    simp [Matrix.add_apply, Matrix.mul_apply, Fin.sum_univ_four, matG, matF, matC, diagonal_apply] at o
    have hb := sqpos (hl.beta 3)
    have hv := sqpos hc.av
    have hs := sqpos sa
    refine ⟨(1 / (4 * sin k.thetaa ^ 2 * c.etaav ^ 2)) / (1 / l.beta 3 ^ 2 + 1 / (4 * sin k.thetaa ^ 2 * c.etaav ^ 2)), ?_, by positivity⟩
    have hd : 0 < 1 / l.beta 3 ^ 2 + 1 / (4 * sin k.thetaa ^ 2 * c.etaav ^ 2) := by positivity
    rw [div_mul_eq_mul_div, eq_div_iff hd.ne']
    have : W 6 6 * (1 / (4 * sin k.thetaa ^ 2 * c.etaav ^ 2)) = W 6 7 * (1 / l.beta 3 ^ 2 + 1 / (4 * sin k.thetaa ^ 2 * c.etaav ^ 2)) := by
      rw [← sub_eq_zero, ← neg_eq_zero, ← o]
      field_simp
      ring
    linarith
  obtain ⟨y, e67, y0⟩ := blk l hl
  obtain ⟨y', e67', y0'⟩ := blk l' hl'
  have p := hP.inv.diag_pos (i := 6)
  have p' := hP'.inv.diag_pos (i := 6)
  have s2 : (matG l' + (matC k)ᵀ * matF c * matC k)⁻¹ 7 6 = (matG l' + (matC k)ᵀ * matF c * matC k)⁻¹ 6 7 := by
    have := hP'.inv.isHermitian.apply 6 7
    simpa using this
  rw [g] at d
  have d33 := congrFun (congrFun d 3) 3
  have d66 := congrFun (congrFun d 6) 6
  generalize (matG l + (matC k)ᵀ * matF c * matC k)⁻¹ = W at *
  generalize (matG l' + (matC k)ᵀ * matF c * matC k)⁻¹ = W' at *
  rw [Matrix.sub_apply, Matrix.mul_apply, Fin.sum_univ_eight] at d33 d66
  simp only [Matrix.mul_diagonal] at d33 d66
  simp at d33 d66
  rw [z34, z35, z36, z37] at d33
  rw [z64, z65, s2, e67, e67'] at d66
  have hkf := sqpos hk.kf.ne'
  have h66 : k.kf ^ 2 * (W 6 6 - W' 6 6) = 0 := by
    have : W 3 3 - W' 3 3 = 0 := by rw [d33]; ring
    linear_combination e - k.ki ^ 2 * this
  have h66 := (mul_eq_zero.1 h66).resolve_left hkf.ne'
  rw [d66] at h66
  simp only [one_div] at h2 h3 hne
  have a1 : 0 ≤ W 6 6 * ((l'.beta 2 ^ 2)⁻¹ - (l.beta 2 ^ 2)⁻¹) * W' 6 6 := by positivity
  have a2 : 0 ≤ y * W 6 6 * ((l'.beta 3 ^ 2)⁻¹ - (l.beta 3 ^ 2)⁻¹) * (y' * W' 6 6) := by positivity
  rcases hne with hne | hne
  · have : 0 < W 6 6 * ((l'.beta 2 ^ 2)⁻¹ - (l.beta 2 ^ 2)⁻¹) * W' 6 6 := by positivity
    linarith
  · have : 0 < y * W 6 6 * ((l'.beta 3 ^ 2)⁻¹ - (l.beta 3 ^ 2)⁻¹) * (y' * W' 6 6) := by positivity
    linarith

theorem divergence_mono {x k k' : ℝ} (hx : x ≠ 0) (hk : 0 < k) (hkk : k < k') :
    0 ≤ 1 / divergence x k' ^ 2 - 1 / divergence x k ^ 2 ∧
      (x < 0 → 0 < 1 / divergence x k' ^ 2 - 1 / divergence x k ^ 2) := by
  have hk' := hk.trans hkk
  have h : x < 0 → 0 < 1 / divergence x k' ^ 2 - 1 / divergence x k ^ 2 := fun h => by
    have d := divergence_pos hx hk
    have d' := divergence_pos hx hk'
    have hlt : divergence x k' < divergence x k := by
      have a := arcmin_pos
      have n := neg_pos.2 h
      have p := pi_pos
      unfold divergence
      rw [if_pos h, if_pos h]
      gcongr
    exact sub_pos.2 (one_div_lt_one_div_of_lt (by positivity) (by gcongr))
  refine ⟨?_, h⟩
  rcases lt_or_gt_of_ne hx with h0 | h0
  · exact (h h0).le
  · simp [divergence, not_lt.2 h0.le]

theorem cost_settled {s : Settings} {n : ℕ} (h : s.Valid n) {kf : ℝ} (k0 : 0 < kf) (ki : ℝ) :
    cost (s.settled kf) ki kf = cost s ki kf := by
  have e : divergences (s.settled kf) ki kf = divergences s ki kf := by
    have h0 : (s.settled kf).hcol 0 = s.hcol 0 := rfl
    have h1 : (s.settled kf).hcol 1 = s.hcol 1 := rfl
    have h2 : (s.settled kf).hcol 2 = divergence (s.hcol 2) kf / arcmin := rfl
    have h3 : (s.settled kf).hcol 3 = divergence (s.hcol 3) kf / arcmin := rfl
    have v0 : (s.settled kf).vcol 0 = s.vcol 0 := rfl
    have v1 : (s.settled kf).vcol 1 = s.vcol 1 := rfl
    have v2 : (s.settled kf).vcol 2 = divergence (s.vcol 2) kf / arcmin := rfl
    have v3 : (s.settled kf).vcol 3 = divergence (s.vcol 3) kf / arcmin := rfl
    unfold divergences
    rw [h0, h1, h2, h3, v0, v1, v2, v3, divergence_settled (h.hcol 2) k0, divergence_settled (h.hcol 3) k0,
      divergence_settled (h.vcol 2) k0, divergence_settled (h.vcol 3) k0]
  have em : mosaics (s.settled kf) = mosaics s := rfl
  funext v m
  unfold cost
  rw [e, em]

/-- C122 fails with a guide after the sample: at every inelastic point the matrix of a Cooper-Nathans calculation is
not the one of the instrument, because the divergence of that guide is taken at the wavevector before the sample. -/
theorem C122_guide_false {s : Settings} (h : s.Valid 1) (hp : s.popovici = false) (hf : s.horifoc.getD (-1) ≤ 0)
    (hg : s.vcol 2 < 0 ∨ s.vcol 3 < 0) (hv : s.mono.vmosaic.getD s.mono.mosaic = s.mono.mosaic)
    (hmos : s.sample.mosaic = none) {q w : ℝ} (hr : Reaches s q w) {ki kf tm ta tt : ℝ}
    (hn : IsNominal s q w ki kf tm ta tt) (hk : ki ≠ kf) :
    ∃ r RM, calcInQ s [(q, w)] = .ok [(r, RM)] ∧ ∃ d,
      ¬ IsLeast {x | ∃ v, fderiv ℝ (transfer q ki kf tm ta tt) 0 v = d ∧
        x = cost s ki kf v (fderiv ℝ (misset ki kf tm ta) 0 v)} (quad RM d) := by
  have k0 := hn.waveOut.1
  have a0 := arcmin_pos
  obtain ⟨c, k, r, RM, hd, ek, gk, hc, hl, hcalc, hM, hRM⟩ := calc_cn h hp hf hr hn
  have pos (x : ℝ) (hx : x ≠ 0) : 0 < divergence x kf / arcmin := div_pos (divergence_pos hx k0) a0
  have hg' : (s.settled kf).Collimated := ⟨pos _ (h.hcol 2), pos _ (h.hcol 3), pos _ (h.vcol 2), pos _ (h.vcol 3)⟩
  have h' : (s.settled kf).Valid 1 := ⟨h.mono, h.ana, h.guide, h.monitor, h.detector, h.sample,
    fun i => by
      fin_cases i
      exacts [h.hcol 0, h.hcol 1, hg'.h2.ne', hg'.h3.ne'],
    fun i => by
      fin_cases i
      exacts [h.vcol 0, h.vcol 1, hg'.v2.ne', hg'.v3.ne'], h.arms⟩
  have hp' : (s.settled kf).popovici = false := hp
  have hr' : Reaches (s.settled kf) q w := ⟨hr.ei, hr.ef, hr.mono, hr.ana, hr.closes, hr.q⟩
  have hn' : IsNominal (s.settled kf) q w ki kf tm ta tt := ⟨hn.waveIn, hn.waveOut, hn.braggIn, hn.braggOut, hn.triangle⟩
  obtain ⟨c', k', r', RM', hd', ek', gk', hc', hl', hcalc', hM', hRM'⟩ := calc_cn h' hp' hf hr' hn'
  obtain ⟨_, _, _, r'', RM'', hcalc'', hleast⟩ := C122_flight_partial h' hp' hf hg' hv hmos hr' hn'
  have ec := cost_settled h k0 ki
  rw [ec] at hleast
  rw [hcalc'] at hcalc''
  obtain ⟨rfl, rfl⟩ : r' = r'' ∧ RM' = RM'' := by
    have := Except.ok.inj hcalc''
    simpa using this
  refine ⟨r, RM, hcalc, ?_⟩
  by_contra hcon
  push Not at hcon
  have hq : ∀ d, quad RM d = quad RM' d := fun d => (hcon d).unique (hleast d)
  have hmos' : (s.settled kf).sample.mosaic = none := hmos
  rw [hmos] at hRM
  rw [hmos'] at hRM'
  simp only [add_zero] at hRM hRM'
  have heq := quad_ext (hRM ▸ hM.inv) (hRM' ▸ hM'.inv) hq
  rw [hRM, hRM'] at heq
  have hinv := congrArg (fun X : M4 => X⁻¹) heq
  rw [nonsing_inv_nonsing_inv _ hM.det_pos.ne'.isUnit, nonsing_inv_nonsing_inv _ hM'.det_pos.ne'.isUnit] at hinv
  obtain rfl : k = k' := ek.trans ek'.symm
  have hdd : decode (s.settled kf) = decode s := rfl
  rw [hdd, hd] at hd'
  obtain rfl : c = c' := Except.ok.inj hd'
  rw [← cnMinv_mul, ← cnMinv_mul] at hinv
  have b (s : Settings) (i : Fin 4) : ((Loop.start s).advance c ki).beta i = divergence (s.vcol i) ki := divergence_eq _ _
  have same : ((Loop.start (s.settled kf)).advance c ki).alpha 0 = ((Loop.start s).advance c ki).alpha 0 ∧
      ((Loop.start (s.settled kf)).advance c ki).alpha 1 = ((Loop.start s).advance c ki).alpha 1 ∧
      ((Loop.start (s.settled kf)).advance c ki).beta 0 = ((Loop.start s).advance c ki).beta 0 ∧
      ((Loop.start (s.settled kf)).advance c ki).beta 1 = ((Loop.start s).advance c ki).beta 1 := ⟨rfl, rfl, rfl, rfl⟩
  have b2 : ((Loop.start (s.settled kf)).advance c ki).beta 2 = divergence (s.vcol 2) kf :=
    (b _ 2).trans (divergence_settled (h.vcol 2) k0 ki)
  have b3 : ((Loop.start (s.settled kf)).advance c ki).beta 3 = divergence (s.vcol 3) kf :=
    (b _ 3).trans (divergence_settled (h.vcol 3) k0 ki)
  rcases lt_or_gt_of_ne hk with hk | hk
  · have m2 := divergence_mono (h.vcol 2) hn.waveIn.1 hk
    have m3 := divergence_mono (h.vcol 3) hn.waveIn.1 hk
    refine after_differ hc hl hl' gk same ?_ ?_ ?_ hinv <;> simp only [b2, b3, b s 2, b s 3] <;> tauto
  · have m2 := divergence_mono (h.vcol 2) k0 hk
    have m3 := divergence_mono (h.vcol 3) k0 hk
    refine after_differ hc hl' hl gk ⟨same.1.symm, same.2.1.symm, same.2.2.1.symm, same.2.2.2.symm⟩ ?_ ?_ ?_ hinv.symm <;>
      simp only [b2, b3, b s 2, b s 3] <;> tauto

/-- The default instrument with a guide before the detector. -/
example : ∃ ki kf tm ta tt r RM d, calcInQ { demo with vcol := ![120, 120, 120, -1] } [(1, 1 / 2)] = .ok [(r, RM)] ∧
    ¬ IsLeast {x | ∃ v, fderiv ℝ (transfer 1 ki kf tm ta tt) 0 v = d ∧
      x = cost { demo with vcol := ![120, 120, 120, -1] } ki kf v (fderiv ℝ (misset ki kf tm ta) 0 v)} (quad RM d) := by
  have hr : Reaches demo 1 (1 / 2) := demo_reaches (by norm_num) (by norm_num) (by norm_num) (by norm_num)
  have h := demo_valid 1
  have h' : ({ demo with vcol := ![120, 120, 120, -1] } : Settings).Valid 1 :=
    ⟨h.mono, h.ana, h.guide, h.monitor, h.detector, h.sample, h.hcol, fun i => by fin_cases i <;> norm_num, h.arms⟩
  have hr' : Reaches { demo with vcol := ![120, 120, 120, -1] } 1 (1 / 2) := ⟨hr.ei, hr.ef, hr.mono, hr.ana, hr.closes, hr.q⟩
  obtain ⟨ki, kf, tm, ta, tt, hn⟩ := nominal_exists h' hr'
  obtain ⟨r, RM, h1, d, h2⟩ := C122_guide_false h' rfl (by norm_num [demo]) (Or.inr (show (-1 : ℝ) < 0 by norm_num)) rfl rfl hr' hn (by
    rintro rfl
    have := hn.waveIn.2.symm.trans hn.waveOut.2
    unfold incident final at this
    rw [if_neg (by norm_num [demo]), if_neg (by norm_num [demo])] at this
    norm_num at this)
  exact ⟨ki, kf, tm, ta, tt, r, RM, d, h1, h2⟩

end Verif.Resolution
