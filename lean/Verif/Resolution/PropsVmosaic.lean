import Verif.Resolution.PropsFocus
import Verif.Resolution.LemmasLeak

/-! # C122: the vertical mosaic of the monochromator

`C122_vmosaic_false`: with the Cooper-Nathans method the vertical mosaic of the monochromator is ignored, so that the
resolution matrix is that of another instrument whenever the two mosaics differ. -/

namespace Verif.Resolution

open Real Matrix
open Verif.Crystal (Fail)
open Verif.Tools (quad arctan2)

/-- Two sets of mosaics that differ in the vertical mosaic of the monochromator only give different matrices. -/
theorem vmosaic_differ {c c' : Conf} {l : Loop} {k : Kin} {q : ℝ} (hc : c.Mosaics) (hc' : c'.Mosaics) (hl : l.Good)
    (hk : k.Good q) (h0 : c.etam = c'.etam) (h2 : c.etaa = c'.etaa) (h3 : c.etaav = c'.etaav)
    (hne : c.etamv ^ 2 ≠ c'.etamv ^ 2) : cnMinv c l k ≠ cnMinv c' l k := by
  intro heq
  have e := congrFun (congrFun heq 2) 2
  rw [cnMinv_22 hc hl, cnMinv_22 hc' hl] at e
  have hP := cnH_posDef hc hl k
  have hP' := cnH_posDef hc' hl k
  have sm : sin k.thetam ≠ 0 := by
    have := right_ne_zero_of_mul hk.sm.ne'
    exact this
  have hcm := comm_inv hP (cnH_comm 1 2 3 4 c l k)
  have hcm' := comm_inv hP' (cnH_comm 1 2 3 4 c' l k)
  have z62 := comm_zero hcm (i := 6) (j := 2) (by simp [p8])
  have z63 := comm_zero hcm (i := 6) (j := 3) (by simp [p8])
  have d := inv_sub_inv hP hP'
  set δ : ℝ := 1 / c'.etamv ^ 2 - 1 / c.etamv ^ 2 with hδ
  have hδ0 : δ ≠ 0 := by
    intro h
    apply hne
    have := sub_eq_zero.1 h
    rw [one_div, one_div] at this
    exact (inv_injective this).symm
  have g : matG l + (matC k)ᵀ * matF c' * matC k - (matG l + (matC k)ᵀ * matF c * matC k) =
      Matrix.of fun i j => δ * (matC k 1 i * matC k 1 j) := by
    rw [add_sub_add_left_eq_sub, ← Matrix.sub_mul, ← Matrix.mul_sub]
    have : matF c' - matF c = diagonal fun i => if i = 1 then δ else 0 := by
      unfold matF
      rw [diagonal_sub]
      congr 1
      funext i
      fin_cases i <;> simp [h0, h2, h3, hδ]
    rw [this]
    ext i j
    rw [Matrix.mul_apply, Fin.sum_univ_four]
    simp [Matrix.mul_diagonal]
    ring
  have key (c : Conf) (hc : c.Mosaics) :
      (matG l + (matC k)ᵀ * matF c * matC k)⁻¹ 3 2 ≠ (matG l + (matC k)ᵀ * matF c * matC k)⁻¹ 3 3 := by
    intro h
    have hP := cnH_posDef hc hl k
    have p := hP.inv.diag_pos (i := 3)
    have o := congrFun (congrFun (nonsing_inv_mul _ hP.det_pos.ne'.isUnit) 3) 2
    rw [Matrix.mul_apply, Fin.sum_univ_eight] at o
    generalize (matG l + (matC k)ᵀ * matF c * matC k)⁻¹ = W at *
    simp [Matrix.add_apply, Matrix.mul_apply, Fin.sum_univ_four, matG, matF, matC, diagonal_apply] at o
    rw [h] at o
    have hb := sqpos (hl.beta 0)
    have : W 3 3 * (l.beta 0 ^ 2)⁻¹ = 0 := by
      rw [← o]
      field_simp
      ring
    exact (mul_ne_zero p.ne' (inv_ne_zero hb.ne')) this
  have k1 := key c hc
  have k2 := key c' hc'
  have sy' : ∀ W : Matrix (Fin 8) (Fin 8) ℝ, W.IsHermitian → W 2 3 = W 3 2 := fun W hW => by
    have := hW.apply 3 2
    simpa using this
  have s2 := sy' _ hP'.inv.isHermitian
  rw [g] at d
  have d33 := congrFun (congrFun d 3) 3
  have d66 := congrFun (congrFun d 6) 6
  generalize (matG l + (matC k)ᵀ * matF c * matC k)⁻¹ = W at *
  generalize (matG l + (matC k)ᵀ * matF c' * matC k)⁻¹ = W' at *
  rw [Matrix.sub_apply, Matrix.mul_apply, Fin.sum_univ_eight] at d33 d66
  simp only [Matrix.mul_apply, Fin.sum_univ_eight, Matrix.of_apply] at d33 d66
  simp [matC] at d33 d66
  rw [z62, z63] at d66
  have hki := sqpos hk.ki.ne'
  have h66 : W 6 6 - W' 6 6 = 0 := by rw [d66]; ring
  have h33 : k.ki ^ 2 * (W 3 3 - W' 3 3) = 0 := by linear_combination e - k.kf ^ 2 * h66
  have h33 : W 3 3 - W' 3 3 = 0 := (mul_eq_zero.1 h33).resolve_left hki.ne'
  rw [d33, s2] at h33
  have : δ * (1 / (2 * sin k.thetam)) ^ 2 * ((W 3 2 - W 3 3) * (W' 3 2 - W' 3 3)) = 0 := by
    rw [← h33]
    field_simp
    ring
  refine mul_ne_zero (mul_ne_zero hδ0 (pow_ne_zero _ (one_div_ne_zero (mul_ne_zero two_ne_zero sm))))
    (mul_ne_zero (sub_ne_zero.2 k1) (sub_ne_zero.2 k2)) this

theorem cnMinv_mul (c : Conf) (l : Loop) (k : Kin) :
    cnMinv c l k = (matB k * matA k) * (matG l + (matC k)ᵀ * matF c * matC k)⁻¹ * (matB k * matA k)ᵀ := by
  simp only [cnMinv, transpose_mul, Matrix.mul_assoc]

/-- The same instrument with a value of the attribute `method` that makes the code use the Cooper-Nathans method and the
vertical mosaic. -/
def Settings.named (s : Settings) : Settings :=
  { s with method := some (.name ['P', 'o', 'p', 'o', 'v', 'i', 'c', 'i']) }

/-- C122 is false for a monochromator with a vertical mosaic of its own: for no such instrument, used with the
Cooper-Nathans method, and at no point, the resolution matrix is that of the neutrons that pass the instrument. -/
theorem C122_vmosaic_false {s : Settings} (h : s.Valid 1) (hp : s.theMethod = .number 0) (hf : s.horifoc.getD (-1) ≤ 0)
    (hg : s.Collimated) {v : ℝ} (hv : s.mono.vmosaic = some v) (hne : v ≠ s.mono.mosaic)
    (hmos : s.sample.mosaic = none) {q w : ℝ} (hr : Reaches s q w) {ki kf tm ta tt : ℝ}
    (hn : IsNominal s q w ki kf tm ta tt) :
    ∃ r RM, calcInQ s [(q, w)] = .ok [(r, RM)] ∧ ∃ d,
      ¬ IsLeast {x | ∃ v, fderiv ℝ (transfer q ki kf tm ta tt) 0 v = d ∧
        x = cost s ki kf v (fderiv ℝ (misset ki kf tm ta) 0 v)} (quad RM d) := by
  have hpop : s.popovici = false := by simp [Settings.popovici, hp]
  have hused : s.vmosaicUsed = false := by simp [Settings.vmosaicUsed, hp]
  have hpop' : s.named.popovici = false := by simp [Settings.popovici, Settings.theMethod, Settings.named]
  have hused' : s.named.vmosaicUsed = true := by simp [Settings.vmosaicUsed, Settings.theMethod, Settings.named]
  obtain ⟨c, k, r, RM, hd, ek, gk, hc, hl, hcalc, hM, hRM⟩ := calc_cn h hpop hf hr hn
  have h' : s.named.Valid 1 := ⟨h.mono, h.ana, h.guide, h.monitor, h.detector, h.sample, h.hcol, h.vcol, h.arms⟩
  have hr' : Reaches s.named q w := ⟨hr.ei, hr.ef, hr.mono, hr.ana, hr.closes, hr.q⟩
  have hn' : IsNominal s.named q w ki kf tm ta tt := ⟨hn.waveIn, hn.waveOut, hn.braggIn, hn.braggOut, hn.triangle⟩
  obtain ⟨c', k', r', RM', hd', ek', gk', hc', hl', hcalc', hM', hRM'⟩ := calc_cn h' hpop' hf hr' hn'
  obtain ⟨_, _, _, r'', RM'', hcalc'', hleast⟩ := flight_read h' hpop' hf hmos hr' hn'
  rw [cost_read (s := s.named) ⟨hg.h2, hg.h3, hg.v2, hg.v3⟩ (Or.inl hused') ki kf] at hleast
  have ec : cost s.named ki kf = cost s ki kf := rfl
  rw [ec] at hleast
  rw [hcalc'] at hcalc''
  obtain ⟨rfl, rfl⟩ : r' = r'' ∧ RM' = RM'' := by
    have := Except.ok.inj hcalc''
    simpa using this
  refine ⟨r, RM, hcalc, ?_⟩
  by_contra hcon
  push Not at hcon
  have hq : ∀ d, quad RM d = quad RM' d := fun d => (hcon d).unique (hleast d)
  have hmos' : s.named.sample.mosaic = none := hmos
  rw [hmos] at hRM
  rw [hmos'] at hRM'
  simp only [add_zero] at hRM hRM'
  have heq := quad_ext (hRM ▸ hM.inv) (hRM' ▸ hM'.inv) hq
  rw [hRM, hRM'] at heq
  have hinv := congrArg (fun X : M4 => X⁻¹) heq
  rw [nonsing_inv_nonsing_inv _ hM.det_pos.ne'.isUnit, nonsing_inv_nonsing_inv _ hM'.det_pos.ne'.isUnit] at hinv
  obtain rfl : k = k' := ek.trans ek'.symm
  have hmo := mosaics_eq hd
  have hmo' := mosaics_eq hd'
  have eG : matG ((Loop.start s.named).advance c' ki) = matG ((Loop.start s).advance c ki) := rfl
  rw [eG] at hinv
  rw [← cnMinv_mul, ← cnMinv_mul] at hinv
  simp only [mosaics, Settings.asRead, hused, hused'] at hmo hmo'
  have f0 := congrFun hmo 0
  have f1 := congrFun hmo 1
  have f2 := congrFun hmo 2
  have f3 := congrFun hmo 3
  have f0' := congrFun hmo' 0
  have f1' := congrFun hmo' 1
  have f2' := congrFun hmo' 2
  have f3' := congrFun hmo' 3
  simp [Settings.named, hv] at f0 f1 f2 f3 f0' f1' f2' f3'
  have ha : 0 < arcmin := by rw [arcmin_eq]; exact convert1_pos
  refine vmosaic_differ hc hc' hl gk (f0.symm.trans f0') (f2.symm.trans f2') (f3.symm.trans f3') ?_ hinv
  rw [← f1, ← f1']
  intro hsq
  have hm := h.mono.mosaic
  have hvp : 0 < v := h.mono.vmosaic v hv
  exact hne ((mul_right_cancel₀ ha.ne' ((sq_eq_sq₀ (by positivity) (by positivity)).1 hsq)).symm)

/-- The default instrument with a monochromator that is mosaic in the plane only. -/
example : ∃ ki kf tm ta tt r RM d, calcInQ { demo with mono.vmosaic := some 1 } [(1, 1 / 2)] = .ok [(r, RM)] ∧
    ¬ IsLeast {x | ∃ v, fderiv ℝ (transfer 1 ki kf tm ta tt) 0 v = d ∧
      x = cost { demo with mono.vmosaic := some 1 } ki kf v (fderiv ℝ (misset ki kf tm ta) 0 v)} (quad RM d) := by
  have hr : Reaches demo 1 (1 / 2) := demo_reaches (by norm_num) (by norm_num) (by norm_num) (by norm_num)
  have h := demo_valid 1
  have h' : ({ demo with mono.vmosaic := some 1 } : Settings).Valid 1 :=
    ⟨{ h.mono with vmosaic := fun v hv => by obtain rfl := Option.some.inj hv; exact one_pos }, h.ana, h.guide, h.monitor,
      h.detector, h.sample, h.hcol, h.vcol, h.arms⟩
  have hr' : Reaches { demo with mono.vmosaic := some 1 } 1 (1 / 2) := ⟨hr.ei, hr.ef, hr.mono, hr.ana, hr.closes, hr.q⟩
  obtain ⟨ki, kf, tm, ta, tt, hn⟩ := nominal_exists h' hr'
  obtain ⟨r, RM, h1, d, h2⟩ := C122_vmosaic_false h' rfl (by norm_num [demo])
    ⟨by norm_num [demo], by norm_num [demo], by norm_num [demo], by norm_num [demo]⟩ rfl (by norm_num [demo]) rfl hr' hn
  exact ⟨ki, kf, tm, ta, tt, r, RM, d, h1, h2⟩

end Verif.Resolution
