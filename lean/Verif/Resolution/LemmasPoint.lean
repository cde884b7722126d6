import Verif.Resolution.LemmasCN

/-! # Helper lemmas: one point and the loop over the points -/

namespace Verif.Resolution

open Real Matrix
open Verif.Crystal (Fail npSqrt npArcsin npDiv)
open Verif.Tools (arctan2 quad SPD)

/-- What the values fixed before the loop satisfy for a valid instrument. -/
structure Conf.Good (c : Conf) : Prop where
  mosaics : c.Mosaics
  arms : c.popovici = true → c.Arms
  bshape : ∀ i, 0 < c.bshape i
  mshape : ∀ i, 0 < c.mshape i
  ashape : ∀ i, 0 < c.ashape i
  dshape : ∀ i, 0 < c.dshape i
  monitorshape : ∀ i, 0 < c.monitorshape i
  taua : 0 < c.taua
  refl : ∀ t q, c.refl = some (t, q) → 0 < t * q

theorem npDiv_ok {x y : ℝ} (h : y ≠ 0) : npDiv x y = .ok (x / y) := by unfold npDiv; rw [if_neg h]

theorem npSqrt_ok {x : ℝ} (h : 0 ≤ x) : npSqrt x = .ok (√x) := by unfold npSqrt; rw [if_pos h]

theorem turnShape_posDef (k : Kin) {X : M3} (h : X.PosDef) : (turnShape k X).PosDef := by
  unfold turnShape
  refine congr_posDef h _ fun v hv => ?_
  set p := k.s2theta / 2 - k.phi
  have e (j : Fin 3) := congrFun hv j
  have e0 := e 0
  have e1 := e 1
  have e2 := e 2
  simp [vecMul, dotProduct, Fin.sum_univ_succ] at e0 e1 e2
  have hp := sin_sq_add_cos_sq p
  have v0 : v 0 = 0 := by linear_combination (-v 0) * hp + cos p * e0 + sin p * e1
  have v1 : v 1 = 0 := by linear_combination (-v 1) * hp - sin p * e0 + cos p * e1
  ext i
  fin_cases i <;> assumption

theorem matSinv_posDef {c : Conf} (hc : c.Good) {X : M3} (h : X.PosDef) : (matSinv c X).PosDef :=
  blkdiag_posDef (diagonal_posDef hc.bshape) (blkdiag_posDef (diagonal_posDef hc.mshape) (blkdiag_posDef h
    (blkdiag_posDef (diagonal_posDef hc.ashape) (diagonal_posDef hc.dshape))))

/-- `k³ / tan θ / sin θ` is positive on either side. -/
theorem reflRate_pos {x t : ℝ} (hx : 0 < x) (h : 0 < tan t * sin t) : 0 < x ^ 3 / tan t / sin t := by
  rw [div_div]
  positivity

theorem mong_posDef {l : Loop} (hl : l.Good) : (mong l).PosDef :=
  (matG_posDef hl.alpha hl.beta).submatrix (Fin.castLE_injective _)

theorem monf_posDef {c : Conf} (hc : c.Mosaics) : (monf c).PosDef :=
  (matF_posDef hc).submatrix (Fin.castLE_injective _)

theorem monD_inj {c : Conf} (hc : c.Arms) (k : Kin) (v : Fin 4 → ℝ) (hv : v ᵥ* monD c k = 0) : v = 0 := by
  have e (j : Fin 7) : (v ᵥ* monD c k) j = 0 := by rw [hv]; rfl
  have e0 := e 0
  have e1 := e 1
  have e4 := e 4
  have e6 := e 6
  simp [monD, vecMul, dotProduct, Fin.sum_univ_succ] at e0 e1 e4 e6
  have v0 : v 0 = 0 := by simpa [hc.l0] using e0
  have v2 : v 2 = 0 := by simpa [hc.l0] using e1
  have v1 : v 1 = 0 := by simpa [hc.mon] using e6
  have v3 : v 3 = 0 := by rw [v2] at e4; simpa [hc.mon] using e4
  ext i
  fin_cases i <;> assumption

theorem monitorDen_ok {c : Conf} {l : Loop} (k : Kin) (hc : c.Good) (hl : l.Good) {s : Matrix (Fin 7) (Fin 7) ℝ}
    (hs : s.PosDef) : ∃ d, monitorDen c l k s = .ok d ∧ 0 < d := by
  have hf := monf_posDef hc.mosaics
  have hg := mong_posDef hl
  unfold monitorDen
  cases hp : c.popovici with
  | false => exact ⟨_, rfl, (hg.add_posSemidef (gram_posSemidef hf _)).det_pos⟩
  | true =>
    have ha := hc.arms hp
    have hK := hs.add_posSemidef (gram_posSemidef hf (monT c l k))
    have hD := congr_posDef hK.inv (monD c k) (monD_inj ha k)
    simp only [if_true, if_neg ha.mon, npInv_ok hK, npInv_ok hD, ok_bind]
    exact ⟨_, rfl, (hD.inv.add hg).det_pos⟩

theorem monitorFlux_ok {c : Conf} {l : Loop} {k : Kin} {q : ℝ} (hc : c.Good) (hl : l.Good) (hk : k.Good q) :
    ∃ r, monitorFlux c l k = .ok r ∧ 0 < r := by
  have hs : (blkdiag (diagonal c.bshape) (blkdiag (diagonal c.mshape) (diagonal c.monitorshape))).PosDef :=
    blkdiag_posDef (diagonal_posDef hc.bshape) (blkdiag_posDef (diagonal_posDef hc.mshape) (diagonal_posDef hc.monitorshape))
  have rate := reflRate_pos hk.ki hk.sm
  have hf := (monf_posDef hc.mosaics).det_pos
  obtain ⟨d, hd, dpos⟩ := monitorDen_ok k hc hl hs.inv
  unfold monitorFlux
  simp only [npInv_ok hs, ok_bind, hd, npDiv_ok dpos.ne', npSqrt_ok (div_pos hf dpos).le]
  refine ⟨_, rfl, mul_pos ?_ (Real.sqrt_pos.2 (div_pos hf dpos))⟩
  have : k.ki ^ 3 / tan k.thetam * (2 * π) ^ 2 / (8 * π * sin k.thetam) =
      (k.ki ^ 3 / tan k.thetam / sin k.thetam) * ((2 * π) ^ 2 / (8 * π)) := by
    rw [div_mul_eq_div_div_swap]; ring
  rw [this]
  positivity

theorem coreMatrix_ok {c : Conf} {l : Loop} {k : Kin} {q : ℝ} (hc : c.Good) (hl : l.Good)
    (hr : c.popovici = true → l.Curved) (hk : k.Good q) {S : Matrix (Fin 13) (Fin 13) ℝ} (hS : S.PosDef) :
    ∃ Minv d, coreMatrix c l k S = .ok (Minv, d) ∧ Minv.PosDef ∧ 0 < d := by
  unfold coreMatrix
  cases hp : c.popovici with
  | false =>
    obtain ⟨N, d, h, hN, hd⟩ := cooperNathans_ok hc.mosaics hl hk
    simp only [Bool.false_eq_true, if_false, h, ok_bind]
    exact ⟨_, _, rfl, congr_posDef hN _ (matB_inj hk), hd⟩
  | true =>
    obtain ⟨N, d, h, hN, hd⟩ := popovici_ok hc.mosaics (hc.arms hp) hl (hr hp) hk hS
    simp only [if_true, h, ok_bind]
    exact ⟨_, _, rfl, congr_posDef hN _ (matB_inj hk), hd⟩

theorem prefactor_ok {c : Conf} {l : Loop} {k : Kin} {q : ℝ} (hc : c.Good) (hl : l.Good) (hk : k.Good q) {d : ℝ}
    (hd : 0 < d) {RM : M4} (hR : RM.PosDef) : ∃ r, prefactor c l k d RM = .ok r ∧ 0 < r := by
  have hF := (matF_posDef hc.mosaics).det_pos
  obtain ⟨m, hm, mpos⟩ := monitorFlux_ok hc hl hk
  have r1 := reflRate_pos hk.ki hk.sm
  have r2 := reflRate_pos hk.kf hk.sa
  have hki := hk.ki
  have hkf := hk.kf
  have hdet := hR.det_pos
  have base : 0 < k.ki ^ 3 / tan k.thetam * (k.kf ^ 3 / tan k.thetaa) * (2 * π) ^ 4 /
      (64 * π ^ 2 * sin k.thetam * sin k.thetaa) * √((matF c).det / d) := by
    refine mul_pos ?_ (Real.sqrt_pos.2 (div_pos hF hd))
    have : k.ki ^ 3 / tan k.thetam * (k.kf ^ 3 / tan k.thetaa) * (2 * π) ^ 4 /
        (64 * π ^ 2 * sin k.thetam * sin k.thetaa) =
        (k.ki ^ 3 / tan k.thetam / sin k.thetam) * (k.kf ^ 3 / tan k.thetaa / sin k.thetaa) *
          ((2 * π) ^ 4 / (64 * π ^ 2)) := by
      simp only [div_eq_mul_inv, mul_inv]; ring
    rw [this]
    positivity
  unfold prefactor
  simp only [npDiv_ok hd.ne', ok_bind, npSqrt_ok (div_pos hF hd).le, npSqrt_ok hdet.le]
  set r := k.ki ^ 3 / tan k.thetam * (k.kf ^ 3 / tan k.thetaa) * (2 * π) ^ 4 /
      (64 * π ^ 2 * sin k.thetam * sin k.thetaa) * √((matF c).det / d)
  by_cases h1 : c.moncor = 1
  · simp only [if_pos h1, hm, ok_bind, npDiv_ok mpos.ne']
    exact ⟨_, rfl, by positivity⟩
  · simp only [if_neg h1]
    exact ⟨_, rfl, by positivity⟩

theorem sampleMosaic_ok (q a b : ℝ) {r0 : ℝ} {RM Minv : M4} (h0 : 0 < r0) (hR : RM.PosDef) (hM : Minv.PosDef) :
    ∃ r RM', sampleMosaic q a b r0 RM Minv = .ok (r, RM') ∧ 0 < r ∧ RM'.PosDef := by
  have h1 := hR.diag_pos (i := 1)
  have h2 := hR.diag_pos (i := 2)
  have hp : 0 < (1 + (q * a) ^ 2 * RM 2 2) * (1 + (q * b) ^ 2 * RM 1 1) := by positivity
  have hD : (Minv + diagonal ![0, q ^ 2 * a ^ 2, q ^ 2 * b ^ 2, 0]).PosDef := by
    refine hM.add_posSemidef (PosSemidef.diagonal fun i => ?_)
    fin_cases i <;> simp <;> positivity
  unfold sampleMosaic
  simp only [npSqrt_ok hp.le, ok_bind, npDiv_ok (Real.sqrt_pos.2 hp).ne', npInv_ok hD]
  exact ⟨_, _, rfl, by positivity, hD.inv⟩

theorem withMosaic_ok (c : Conf) (q : ℝ) {r0 : ℝ} {RM Minv : M4} (h0 : 0 < r0) (hR : RM.PosDef) (hM : Minv.PosDef) :
    ∃ r RM', withMosaic c q r0 RM Minv = .ok (r, RM') ∧ 0 < r ∧ RM'.PosDef := by
  unfold withMosaic
  split
  · exact sampleMosaic_ok q _ _ h0 hR hM
  · exact ⟨_, _, rfl, h0, hR⟩

theorem reflectivity_ok {c : Conf} (l : Loop) {k : Kin} {t kq : ℝ} (ha : c.taua < 2 * k.kf) (ht : 0 < c.taua)
    (he : 0 < c.etaa) (h : 0 < t * kq) : ∃ r, reflectivity c l k t kq = .ok r ∧ 0 < r := by
  have hs : 0 < k.kf ^ 2 - (c.taua / 2) ^ 2 := by nlinarith
  have htoa : 0 < c.taua / 2 / √(k.kf ^ 2 - (c.taua / 2) ^ 2) := div_pos (by linarith) (Real.sqrt_pos.2 hs)
  unfold reflectivity
  simp only [npSqrt_ok hs.le, ok_bind, npDiv_ok (Real.sqrt_pos.2 hs).ne']
  set toa := c.taua / 2 / √(k.kf ^ 2 - (c.taua / 2) ^ 2)
  set w : ℕ → ℝ := fun n => exp (-((n + 1 : ℝ) / 200 * √(2 * log 2) * if l.alpha 2 < l.alpha 3 then l.alpha 2 else l.alpha 3) ^ 2 / 2 / c.etaa ^ 2) with hw
  have spos : ∀ n, 0 < t * (kq * toa) * w n / c.etaa / √(2 * π) := by
    intro n
    have : t * (kq * toa) * w n / c.etaa / √(2 * π) = (t * kq) * toa * w n / c.etaa / √(2 * π) := by ring
    rw [this]
    have : 0 < w n := exp_pos _
    positivity
  have wpos : 0 < ∑ n ∈ Finset.range 200, w n :=
    Finset.sum_pos (fun n _ => exp_pos _) ⟨0, by simp⟩
  rw [if_neg (by
    rintro ⟨n, _, hn⟩
    have := spos n
    linarith), npDiv_ok wpos.ne']
  refine ⟨_, rfl, div_pos (Finset.sum_pos (fun n _ => ?_) ⟨0, by simp⟩) wpos⟩
  have := spos n
  rw [if_neg this.ne']
  positivity

theorem withReflectivity_ok {c : Conf} (hc : c.Good) (l : Loop) {k : Kin} (ha : c.taua < 2 * k.kf) (he : 0 < c.etaa) {r0 : ℝ}
    (h0 : 0 < r0) : ∃ r, withReflectivity c l k r0 = .ok r ∧ 0 < r := by
  unfold withReflectivity
  split
  · next t kq h =>
    obtain ⟨r, hr, rp⟩ := reflectivity_ok l ha hc.taua he (hc.refl _ _ h)
    simp only [hr, ok_bind]
    exact ⟨_, rfl, by positivity⟩
  · exact ⟨_, rfl, h0⟩

theorem pointAt_ok {c : Conf} {l : Loop} {k : Kin} {q : ℝ} (hc : c.Good) (hl : l.Good)
    (hr : c.popovici = true → l.Curved) (hk : k.Good q) (ha : c.taua < 2 * k.kf) (he : 0 < c.etaa) {X : M3} (hX : X.PosDef) :
    ∃ r RM, pointAt c l X k q = .ok (r, RM) ∧ 0 < r ∧ RM.PosDef := by
  have sm : sin k.thetam ≠ 0 := right_ne_zero_of_mul hk.sm.ne'
  have sa : sin k.thetaa ≠ 0 := right_ne_zero_of_mul hk.sa.ne'
  have hS := matSinv_posDef hc (turnShape_posDef k hX)
  obtain ⟨Minv, d, h1, hM, hd⟩ := coreMatrix_ok hc hl hr hk hS.inv
  obtain ⟨r, h2, rp⟩ := prefactor_ok hc hl hk hd hM.inv
  obtain ⟨r', RM', h3, rp', hR'⟩ := withMosaic_ok c q rp hM.inv hM
  obtain ⟨r'', h4, rp''⟩ := withReflectivity_ok hc l ha he rp'
  unfold pointAt
  rw [if_neg (by simp [hl.alpha, hl.beta, hc.mosaics.m, hc.mosaics.mv, hc.mosaics.a, hc.mosaics.av, sm, sa])]
  simp only [npInv_ok hS, ok_bind, h1, npInv_ok hM, h2, h3, h4]
  exact ⟨_, _, rfl, rp'', hR'⟩

end Verif.Resolution
