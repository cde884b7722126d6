import Verif.Resolution.PropsOpen
import Verif.Resolution.LemmasRefl
import Verif.Resolution.LemmasLeak
import Verif.Convolution.PropsMore

/-! # Property theorems: normalisation to the monitor (C154) -/

namespace Verif.Resolution

open Real Matrix MeasureTheory
open Verif.Crystal (Fail npSqrt npArcsin npDiv)
open Verif.Tools (arctan2 quad SPD Closes)

/-! ## Specification -/

/-- Standard deviation (radian) of a Gaussian whose full width at half maximum is `x` arc minutes. -/
noncomputable def sigma (x : ℝ) : ℝ := x / 60 * (π / 180) / (2 * √(2 * log 2))

/-- The analyzer side of the spectrometer (Dorner, 1972): the volume in the space of final wavevectors that is
transmitted by two collimators and a mosaic crystal, weighted with `k`.  Arguments: final wavevector, length of the
reciprocal lattice vector of the analyzer, horizontal and vertical mosaic, horizontal and vertical divergences before
and after the crystal, all of them as standard deviations. -/
noncomputable def analyzed (k tau η ηv a2 a3 b2 b3 : ℝ) : ℝ :=
  k * (2 * π * (k ^ 3 / tan (arcsin (tau / (2 * k)))) * (a2 * a3 * b2 * b3) /
    √((4 * η ^ 2 + a2 ^ 2 + a3 ^ 2) * (4 * (tau / (2 * k)) ^ 2 * ηv ^ 2 + b2 ^ 2 + b3 ^ 2)))

/-- The reflectivity of the analyzer, for crystals with a thickness and a scattering power. -/
noncomputable def Settings.thick (s : Settings) (k a : ℝ) : ℝ := match s.ana.thickness, s.ana.reflQ with
  | some t, some q => thickCrystal k s.ana.tau (sigma s.ana.mosaic) a t q
  | _, _ => 1

/-- The analyzer side of an instrument with collimators at energy transfer `w`. -/
noncomputable def Settings.analyzed (s : Settings) (w : ℝ) : ℝ :=
  Resolution.analyzed (wavevector (final s w)) s.ana.tau (sigma s.ana.mosaic) (sigma (s.ana.vmosaic.getD s.ana.mosaic))
    (sigma (s.hcol 2)) (sigma (s.hcol 3)) (sigma (s.vcol 2)) (sigma (s.vcol 3)) *
  s.thick (wavevector (final s w)) (min (sigma (s.hcol 2)) (sigma (s.hcol 3)))

/-- The sample has no mosaic, or one that is the same in both directions. -/
def Settings.EvenMosaic (s : Settings) : Prop := ∀ m, s.sample.mosaic = some m → s.sample.vmosaic.getD m = m

/-! ## The determinant of the Cooper-Nathans form -/

/-- The block of the analyzer side. -/
noncomputable def anaH (c : Conf) (l : Loop) (k : Kin) : M4 :=
  let u := 1 / (4 * c.etaa ^ 2)
  let v := 1 / ((2 * sin k.thetaa) ^ 2 * c.etaav ^ 2)
  !![1 / l.alpha 2 ^ 2 + u, u, 0, 0;
     u, 1 / l.alpha 3 ^ 2 + u, 0, 0;
     0, 0, 1 / l.beta 2 ^ 2 + v, -v;
     0, 0, -v, 1 / l.beta 3 ^ 2 + v]

theorem det_blkdiag {m n : ℕ} (X : Matrix (Fin m) (Fin m) ℝ) (Y : Matrix (Fin n) (Fin n) ℝ) :
    (blkdiag X Y).det = X.det * Y.det := by
  unfold blkdiag
  rw [det_submatrix_equiv_self, det_fromBlocks_zero₂₁]

theorem sandwich {m n : ℕ} (C : Matrix (Fin m) (Fin n) ℝ) (f : Fin m → ℝ) (i j : Fin n) :
    (Cᵀ * diagonal f * C) i j = ∑ x, C x i * f x * C x j := by
  rw [Matrix.mul_apply]
  simp only [mul_diagonal, transpose_apply]

theorem monf_eq (c : Conf) : monf c = diagonal ![1 / c.etam ^ 2, 1 / c.etamv ^ 2] := by
  ext i j
  fin_cases i <;> fin_cases j <;> simp [monf, matF]

theorem mong_eq (l : Loop) : mong l = diagonal ![1 / l.alpha 0 ^ 2, 1 / l.alpha 1 ^ 2, 1 / l.beta 0 ^ 2, 1 / l.beta 1 ^ 2] := by
  ext i j
  fin_cases i <;> fin_cases j <;> simp [mong, matG]

theorem monc_eq (k : Kin) : monc k = !![1 / 2, 1 / 2, 0, 0; 0, 0, 1 / (2 * sin k.thetam), -1 / (2 * sin k.thetam)] := by
  ext i j
  fin_cases i <;> fin_cases j <;> simp [monc, matC]

theorem blk11 {m n : ℕ} (X : Matrix (Fin m) (Fin m) ℝ) (Y : Matrix (Fin n) (Fin n) ℝ) (i j : Fin m) :
    blkdiag X Y (Fin.castAdd n i) (Fin.castAdd n j) = X i j := by simp [blkdiag]

theorem blk12 {m n : ℕ} (X : Matrix (Fin m) (Fin m) ℝ) (Y : Matrix (Fin n) (Fin n) ℝ) (i : Fin m) (j : Fin n) :
    blkdiag X Y (Fin.castAdd n i) (Fin.natAdd m j) = 0 := by simp [blkdiag]

theorem blk21 {m n : ℕ} (X : Matrix (Fin m) (Fin m) ℝ) (Y : Matrix (Fin n) (Fin n) ℝ) (i : Fin n) (j : Fin m) :
    blkdiag X Y (Fin.natAdd m i) (Fin.castAdd n j) = 0 := by simp [blkdiag]

theorem blk22 {m n : ℕ} (X : Matrix (Fin m) (Fin m) ℝ) (Y : Matrix (Fin n) (Fin n) ℝ) (i j : Fin n) :
    blkdiag X Y (Fin.natAdd m i) (Fin.natAdd m j) = Y i j := by simp [blkdiag]

theorem blk_ext {m n : ℕ} {M : Matrix (Fin (m + n)) (Fin (m + n)) ℝ} {X : Matrix (Fin m) (Fin m) ℝ}
    {Y : Matrix (Fin n) (Fin n) ℝ} (h11 : ∀ i j, M (Fin.castAdd n i) (Fin.castAdd n j) = X i j)
    (h12 : ∀ i j, M (Fin.castAdd n i) (Fin.natAdd m j) = 0) (h21 : ∀ i j, M (Fin.natAdd m i) (Fin.castAdd n j) = 0)
    (h22 : ∀ i j, M (Fin.natAdd m i) (Fin.natAdd m j) = Y i j) : M = blkdiag X Y := by
  ext i j
  induction i using Fin.addCases with
  | left i =>
    induction j using Fin.addCases with
    | left j => rw [h11, blk11]
    | right j => rw [h12, blk12]
  | right i =>
    induction j using Fin.addCases with
    | left j => rw [h21, blk21]
    | right j => rw [h22, blk22]

theorem cnH_block (c : Conf) (l : Loop) (k : Kin) :
    matG l + (matC k)ᵀ * matF c * matC k =
      blkdiag (m := 4) (n := 4) (mong l + (monc k)ᵀ * monf c * monc k) (anaH c l k) := by
  have hM : ∀ i j, (matG l + (matC k)ᵀ * matF c * matC k) i j = matG l i j +
      ∑ x, matC k x i * (1 / (![c.etam, c.etamv, c.etaa, c.etaav] x) ^ 2) * matC k x j := fun i j => by
    rw [Matrix.add_apply, matF, sandwich]
  refine blk_ext (m := 4) (n := 4) (fun i j => ?_) (fun i j => ?_) (fun i j => ?_) (fun i j => ?_)
  · rw [hM, Matrix.add_apply, monf_eq, sandwich, mong_eq, monc_eq, Fin.sum_univ_four, Fin.sum_univ_two]
    fin_cases i <;> fin_cases j <;> simp [matG, matC, diagonal, Fin.castAdd, Fin.castLE]
  · rw [hM, Fin.sum_univ_four]
    fin_cases i <;> fin_cases j <;> simp [matG, matC, diagonal, Fin.castAdd, Fin.castLE, Fin.natAdd]
  · rw [hM, Fin.sum_univ_four]
    fin_cases i <;> fin_cases j <;> simp [matG, matC, diagonal, Fin.castAdd, Fin.castLE, Fin.natAdd]
  · rw [hM, Fin.sum_univ_four]
    fin_cases i <;> fin_cases j <;> simp [matG, matC, diagonal, Fin.natAdd, anaH] <;> ring

theorem det_anaH {c : Conf} {l : Loop} {k : Kin} (hc : c.Mosaics) (hl : l.Good) (hs : sin k.thetaa ≠ 0) :
    (anaH c l k).det = (4 * c.etaa ^ 2 + l.alpha 2 ^ 2 + l.alpha 3 ^ 2) *
      (4 * sin k.thetaa ^ 2 * c.etaav ^ 2 + l.beta 2 ^ 2 + l.beta 3 ^ 2) /
      (16 * sin k.thetaa ^ 2 * c.etaa ^ 2 * c.etaav ^ 2 * (l.alpha 2 * l.alpha 3 * l.beta 2 * l.beta 3) ^ 2) := by
  have e : anaH c l k = blkdiag (m := 2) (n := 2)
      !![1 / l.alpha 2 ^ 2 + 1 / (4 * c.etaa ^ 2), 1 / (4 * c.etaa ^ 2);
         1 / (4 * c.etaa ^ 2), 1 / l.alpha 3 ^ 2 + 1 / (4 * c.etaa ^ 2)]
      !![1 / l.beta 2 ^ 2 + 1 / ((2 * sin k.thetaa) ^ 2 * c.etaav ^ 2), -(1 / ((2 * sin k.thetaa) ^ 2 * c.etaav ^ 2));
         -(1 / ((2 * sin k.thetaa) ^ 2 * c.etaav ^ 2)), 1 / l.beta 3 ^ 2 + 1 / ((2 * sin k.thetaa) ^ 2 * c.etaav ^ 2)] := by
    refine blk_ext (m := 2) (n := 2) (fun i j => ?_) (fun i j => ?_) (fun i j => ?_) (fun i j => ?_) <;>
      fin_cases i <;> fin_cases j <;> rfl
  rw [e, det_blkdiag, det_fin_two_of, det_fin_two_of]
  have h1 := hc.a
  have h2 := hc.av
  have h3 := hl.alpha 2
  have h4 := hl.alpha 3
  have h5 := hl.beta 2
  have h6 := hl.beta 3
  field_simp
  ring

theorem det_matF (c : Conf) : (matF c).det = (monf c).det * (1 / (c.etaa ^ 2 * c.etaav ^ 2)) := by
  rw [matF, monf_eq, det_diagonal, det_diagonal, Fin.prod_univ_four, Fin.prod_univ_two]
  simp
  ring

/-- One point: the integral of the resolution function is that of the analyzer side. -/
theorem pointAt_monitor {c : Conf} {l : Loop} {k : Kin} {q : ℝ} (hc : c.Good) (hl : l.Good) (hk : k.Good q)
    (hp : c.popovici = false) (hf : ¬ 0 < c.horifoc) (hm : c.moncor = 1) (he : c.etas = none) (hr : c.refl = none)
    {X : M3} (hX : X.PosDef) : ∃ r, pointAt c l X k q = .ok r ∧ r.2.PosDef ∧
      r.1 * (2 * π) ^ 2 / √r.2.det = k.kf * (2 * π * (k.kf ^ 3 / |tan k.thetaa|) *
        |l.alpha 2 * l.alpha 3 * l.beta 2 * l.beta 3| /
        √((4 * c.etaa ^ 2 + l.alpha 2 ^ 2 + l.alpha 3 ^ 2) *
          (4 * sin k.thetaa ^ 2 * c.etaav ^ 2 + l.beta 2 ^ 2 + l.beta 3 ^ 2))) := by
  have sm : sin k.thetam ≠ 0 := right_ne_zero_of_mul hk.sm.ne'
  have sa : sin k.thetaa ≠ 0 := right_ne_zero_of_mul hk.sa.ne'
  have tm : tan k.thetam ≠ 0 := left_ne_zero_of_mul hk.sm.ne'
  have ta : tan k.thetaa ≠ 0 := left_ne_zero_of_mul hk.sa.ne'
  have hS := matSinv_posDef hc (turnShape_posDef k hX)
  have hH := cnH_posDef hc.mosaics hl k
  have hM := cnMinv_posDef hc.mosaics hl hk
  have core : ∀ S, coreMatrix c l k S = .ok (cnMinv c l k, (matG l + (matC k)ᵀ * matF c * matC k).det) := by
    intro S
    simp only [coreMatrix, hp, cooperNathansN, npInv_ok hH, ok_bind, hf, if_false, Bool.false_eq_true]
    rfl
  have hF := (matF_posDef hc.mosaics).det_pos
  have hd := hH.det_pos
  have hmon := ((mong_posDef hl).add_posSemidef (gram_posSemidef (monf_posDef hc.mosaics) (monc k))).det_pos
  have hmf := (monf_posDef hc.mosaics).det_pos
  have hmS : npInv (blkdiag (diagonal c.bshape) (blkdiag (diagonal c.mshape) (diagonal c.monitorshape))) = .ok _ :=
    npInv_ok (blkdiag_posDef (diagonal_posDef hc.bshape) (blkdiag_posDef (diagonal_posDef hc.mshape)
      (diagonal_posDef hc.monitorshape)))
  have flux : monitorFlux c l k = .ok (k.ki ^ 3 / tan k.thetam * (2 * π) ^ 2 / (8 * π * sin k.thetam) *
      √((monf c).det / (mong l + (monc k)ᵀ * monf c * monc k).det)) := by
    unfold monitorFlux
    simp only [hmS, ok_bind, monitorDen, hp, Bool.false_eq_true, if_false]
    change (do
      let a ← npDiv (monf c).det (mong l + (monc k)ᵀ * monf c * monc k).det
      let b ← npSqrt a
      pure (k.ki ^ 3 / tan k.thetam * (2 * π) ^ 2 / (8 * π * sin k.thetam) * b)) = _
    rw [npDiv_ok hmon.ne', ok_bind, npSqrt_ok (by positivity), ok_bind]
    rfl
  obtain ⟨m, hm1, mpos⟩ := monitorFlux_ok hc hl hk
  have em : m = k.ki ^ 3 / tan k.thetam * (2 * π) ^ 2 / (8 * π * sin k.thetam) *
      √((monf c).det / (mong l + (monc k)ᵀ * monf c * monc k).det) := by
    rw [hm1] at flux
    exact Except.ok.inj flux
  have pre : prefactor c l k (matG l + (matC k)ᵀ * matF c * matC k).det (cnMinv c l k)⁻¹ =
      .ok (k.ki ^ 3 / tan k.thetam * (k.kf ^ 3 / tan k.thetaa) * (2 * π) ^ 4 /
        (64 * π ^ 2 * sin k.thetam * sin k.thetaa) *
        √((matF c).det / (matG l + (matC k)ᵀ * matF c * matC k).det) / m * k.ki / (2 * π) ^ 2 *
        √((cnMinv c l k)⁻¹.det) * k.kf / k.ki) := by
    unfold prefactor
    simp only [npDiv_ok hd.ne', ok_bind, npSqrt_ok (div_pos hF hd).le, npSqrt_ok hM.inv.det_pos.le, if_pos hm, hm1,
      npDiv_ok mpos.ne']
    rfl
  refine ⟨(k.ki ^ 3 / tan k.thetam * (k.kf ^ 3 / tan k.thetaa) * (2 * π) ^ 4 /
        (64 * π ^ 2 * sin k.thetam * sin k.thetaa) *
        √((matF c).det / (matG l + (matC k)ᵀ * matF c * matC k).det) / m * k.ki / (2 * π) ^ 2 *
        √((cnMinv c l k)⁻¹.det) * k.kf / k.ki, (cnMinv c l k)⁻¹), ?_, hM.inv, ?_⟩
  · unfold pointAt
    rw [if_neg (by simp [hl.alpha, hl.beta, hc.mosaics.m, hc.mosaics.mv, hc.mosaics.a, hc.mosaics.av, sm, sa])]
    simp only [npInv_ok hS, ok_bind, core, npInv_ok hM, pre, withMosaic, he, withReflectivity, hr]
    rfl
  · have hR := Real.sqrt_pos.2 hM.inv.det_pos
    have hki := hk.ki
    dsimp only
    generalize √((cnMinv c l k)⁻¹.det) = R at hR ⊢
    have hrat : √((matF c).det / (matG l + (matC k)ᵀ * matF c * matC k).det) =
        √((monf c).det / (mong l + (monc k)ᵀ * monf c * monc k).det) *
          (4 * |sin k.thetaa| * |l.alpha 2 * l.alpha 3 * l.beta 2 * l.beta 3| /
            √((4 * c.etaa ^ 2 + l.alpha 2 ^ 2 + l.alpha 3 ^ 2) *
              (4 * sin k.thetaa ^ 2 * c.etaav ^ 2 + l.beta 2 ^ 2 + l.beta 3 ^ 2))) := by
      rw [cnH_block, det_blkdiag, det_matF, mul_div_mul_comm, Real.sqrt_mul (by positivity), det_anaH hc.mosaics hl sa]
      congr 1
      have h1 := hc.mosaics.a
      have h2 := hc.mosaics.av
      have e : 1 / (c.etaa ^ 2 * c.etaav ^ 2) / ((4 * c.etaa ^ 2 + l.alpha 2 ^ 2 + l.alpha 3 ^ 2) *
          (4 * sin k.thetaa ^ 2 * c.etaav ^ 2 + l.beta 2 ^ 2 + l.beta 3 ^ 2) /
          (16 * sin k.thetaa ^ 2 * c.etaa ^ 2 * c.etaav ^ 2 * (l.alpha 2 * l.alpha 3 * l.beta 2 * l.beta 3) ^ 2)) =
          (4 * |sin k.thetaa| * |l.alpha 2 * l.alpha 3 * l.beta 2 * l.beta 3|) ^ 2 /
            ((4 * c.etaa ^ 2 + l.alpha 2 ^ 2 + l.alpha 3 ^ 2) *
              (4 * sin k.thetaa ^ 2 * c.etaav ^ 2 + l.beta 2 ^ 2 + l.beta 3 ^ 2)) := by
        have e0 : (4 * |sin k.thetaa| * |l.alpha 2 * l.alpha 3 * l.beta 2 * l.beta 3|) ^ 2 =
            16 * sin k.thetaa ^ 2 * (l.alpha 2 * l.alpha 3 * l.beta 2 * l.beta 3) ^ 2 := by
          rw [mul_pow (4 * |sin k.thetaa|), mul_pow 4, sq_abs, sq_abs]
          norm_num
        rw [e0]
        have : 0 < 4 * c.etaa ^ 2 + l.alpha 2 ^ 2 + l.alpha 3 ^ 2 := by positivity
        have : 0 < 4 * sin k.thetaa ^ 2 * c.etaav ^ 2 + l.beta 2 ^ 2 + l.beta 3 ^ 2 := by positivity
        field_simp
      rw [e, Real.sqrt_div (by positivity), Real.sqrt_sq (by positivity)]
    have hq1 : 0 < √((monf c).det / (mong l + (monc k)ᵀ * monf c * monc k).det) := Real.sqrt_pos.2 (by positivity)
    rw [hrat]
    generalize √((monf c).det / (mong l + (monc k)ᵀ * monf c * monc k).det) = Q at *
    generalize √((4 * c.etaa ^ 2 + l.alpha 2 ^ 2 + l.alpha 3 ^ 2) *
              (4 * sin k.thetaa ^ 2 * c.etaav ^ 2 + l.beta 2 ^ 2 + l.beta 3 ^ 2)) = W
    generalize |l.alpha 2 * l.alpha 3 * l.beta 2 * l.beta 3| = V
    have hs : |sin k.thetaa| / (tan k.thetaa * sin k.thetaa) = 1 / |tan k.thetaa| := by
      have := hk.sa
      rw [div_eq_div_iff this.ne' (abs_ne_zero.2 ta), one_mul, ← abs_mul, mul_comm (sin k.thetaa), abs_of_pos this]
    subst em
    have hpi := pi_pos
    have e1 : k.ki ^ 3 / tan k.thetam * (k.kf ^ 3 / tan k.thetaa) * (2 * π) ^ 4 /
        (64 * π ^ 2 * sin k.thetam * sin k.thetaa) * (Q * (4 * |sin k.thetaa| * V / W)) /
        (k.ki ^ 3 / tan k.thetam * (2 * π) ^ 2 / (8 * π * sin k.thetam) * Q) * k.ki / (2 * π) ^ 2 * R * k.kf / k.ki *
        (2 * π) ^ 2 / R = k.kf * (2 * π * (k.kf ^ 3 * (|sin k.thetaa| / (tan k.thetaa * sin k.thetaa))) * V / W) := by
      field_simp
      ring
    rw [e1, hs, mul_one_div]

theorem coreMatrix_shapeless {c : Conf} (hp : c.popovici = false) {l : Loop} {k : Kin} {S S' : Matrix (Fin 13) (Fin 13) ℝ} :
    coreMatrix c l k S = coreMatrix c l k S' := by
  simp only [coreMatrix, hp, Bool.false_eq_true, if_false]

/-- By the method of Cooper and Nathans, the vertical component is not coupled to that across, whatever the shape of the sample. -/
theorem pointAt_apart {c : Conf} {l : Loop} {k : Kin} {q : ℝ} (hc : c.Good) (hl : l.Good) (hk : k.Good q)
    (hp : c.popovici = false) (hr : c.refl = none) (ha : c.taua < 2 * k.kf) (ea : 0 < c.etaa) {X : M3} (hX : X.PosDef) {r : ℝ × M4}
    (e : pointAt c.perfect l X k q = .ok r) : r.2 1 2 = 0 := by
  have hcv : c.popovici = true → l.Curved := fun h => by rw [hp] at h; exact nomatch h
  have h1 : (diagonal ![1, 1, 1] : M3).PosDef := diagonal_posDef fun i => by fin_cases i <;> norm_num
  obtain ⟨r1, -, e1, -⟩ := pointAt_widen (c := c.perfect) rfl hc.perfect hl hcv hk ha ea h1 0 0
  obtain ⟨Mi, d, m, f, g1, -, -, -, -, -, g2, -⟩ := point_integrated hc hl hcv hk hX hr e
  obtain ⟨Mi', d', m', f', g1', -, -, -, -, -, g2', -⟩ := point_integrated hc hl hcv hk h1 hr e1
  have : Mi' = Mi := by
    rw [coreMatrix_shapeless hp] at g1'
    exact (Prod.mk.inj (Except.ok.inj (g1'.symm.trans g1))).1
  rw [g2, ← this, ← g2']
  exact (mirror_decoupled (mirror_point (mirror_diagonal _ _) e1) 1 (by decide)).1

/-- The same for samples with a mosaic that is the same in both directions. -/
theorem pointAt_monitor_even {c : Conf} {l : Loop} {k : Kin} {q : ℝ} (hc : c.Good) (hl : l.Good) (hk : k.Good q)
    (hp : c.popovici = false) (hf : ¬ 0 < c.horifoc) (hm : c.moncor = 1) (he : ∀ p, c.etas = some p → p.1 = p.2) (hr : c.refl = none)
    (ha : c.taua < 2 * k.kf) (ea : 0 < c.etaa) {X : M3} (hX : X.PosDef) : ∃ r, pointAt c l X k q = .ok r ∧ r.2.PosDef ∧
      r.1 * (2 * π) ^ 2 / √r.2.det = k.kf * (2 * π * (k.kf ^ 3 / |tan k.thetaa|) *
        |l.alpha 2 * l.alpha 3 * l.beta 2 * l.beta 3| /
        √((4 * c.etaa ^ 2 + l.alpha 2 ^ 2 + l.alpha 3 ^ 2) *
          (4 * sin k.thetaa ^ 2 * c.etaav ^ 2 + l.beta 2 ^ 2 + l.beta 3 ^ 2))) := by
  obtain ⟨r0, e0, p0, i0⟩ := pointAt_monitor (c := c.perfect) hc.perfect hl hk hp hf hm rfl hr hX
  cases hs : c.etas with
  | none =>
    have ec : c.perfect = c := by unfold Conf.perfect; rw [← hs]
    rw [ec] at e0
    exact ⟨r0, e0, p0, i0⟩
  | some p =>
    obtain ⟨a, b⟩ := p
    obtain rfl : a = b := he _ hs
    have hcv : c.popovici = true → l.Curved := fun h => by rw [hp] at h; exact nomatch h
    obtain ⟨r1, r', f1, f2, -, f3, f4, f5⟩ := pointAt_widen (c := c.perfect) rfl hc.perfect hl hcv hk ha ea hX a a
    obtain rfl : r1 = r0 := Except.ok.inj (f1.symm.trans e0)
    have ec : ({ c.perfect with etas := some (a, a) } : Conf) = c := by unfold Conf.perfect; rw [← hs]
    rw [ec] at f2
    rw [← mul_pow] at f5
    have d1 := p0.diag_pos (i := 1)
    have d2 := p0.diag_pos (i := 2)
    have w := widened_integrated p0 (sq_nonneg _) (sq_nonneg _) (pointAt_apart hc hl hk hp hr ha ea hX e0) f4 f5
    rw [div_self (by positivity), div_self (by positivity), one_mul, Real.sqrt_one, mul_one] at w
    have pD : (r1.2⁻¹ + diagonal ![0, (q * a) ^ 2, (q * a) ^ 2, 0]).PosDef := by
      refine p0.inv.add_posSemidef (PosSemidef.diagonal fun i => ?_)
      fin_cases i <;> simp <;> positivity
    refine ⟨r', f2, by rw [f5]; exact pD.inv, ?_⟩
    refine Eq.trans ?_ i0
    unfold integrated at w
    rw [mul_div_right_comm, w, mul_div_right_comm]

theorem ok_of_bind {α β ε : Type} {x : Except ε α} {f : α → Except ε β} {b : β} (h : (x >>= f) = .ok b) :
    ∃ a, x = .ok a ∧ f a = .ok b := by
  cases x with
  | error e => exact nomatch h
  | ok a => exact ⟨a, rfl, h⟩

/-- The angles of a point from its wavevectors. -/
theorem kinematics_fields {c : Conf} {q w : ℝ} {k : Kin} (h : kinematics c q w = .ok k) :
    k.ki = √((if 0 < c.infin then c.efixed else c.efixed + w) / convert2) ∧
      k.kf = √((if 0 < c.infin then c.efixed - w else c.efixed) / convert2) ∧
      k.thetaa = arcsin (c.taua / (2 * k.kf)) * c.sa := by
  unfold kinematics at h
  have sq : ∀ {x y : ℝ}, npSqrt x = .ok y → y = √x := by
    intro x y h
    unfold npSqrt at h
    split_ifs at h
    exact (Except.ok.inj h).symm
  have as : ∀ {x y : ℝ}, npArcsin x = .ok y → y = arcsin x := by
    intro x y h
    unfold npArcsin at h
    split_ifs at h
    exact (Except.ok.inj h).symm
  have dv : ∀ {x y z : ℝ}, npDiv x y = .ok z → z = x / y := by
    intro x y z h
    unfold npDiv at h
    split_ifs at h
    exact (Except.ok.inj h).symm
  obtain ⟨ki, h1, h⟩ := ok_of_bind h
  obtain ⟨kf, h2, h⟩ := ok_of_bind h
  obtain ⟨a, h3, h⟩ := ok_of_bind h
  obtain ⟨b, h4, h⟩ := ok_of_bind h
  obtain ⟨a', h5, h⟩ := ok_of_bind h
  obtain ⟨b', h6, h⟩ := ok_of_bind h
  obtain ⟨x, h7, h⟩ := ok_of_bind h
  obtain ⟨y, h8, h⟩ := ok_of_bind h
  cases h
  exact ⟨sq h1, sq h2, by rw [as h6, dv h5]⟩

theorem sigma_eq (x : ℝ) : sigma x = x * convert1 := by
  unfold sigma convert1
  have : √(8 * log 2) = 2 * √(2 * log 2) := by
    rw [show (8 : ℝ) * log 2 = 2 ^ 2 * (2 * log 2) by ring, Real.sqrt_mul (by norm_num), Real.sqrt_sq (by norm_num)]
  rw [this]
  ring

/-- One point of a Cooper-Nathans calculation, in terms of the specification. -/
theorem pointAt_analyzed {s : Settings} {n : ℕ} (h : s.Valid n) (hp : s.popovici = false) (hf : s.horifoc.getD (-1) ≤ 0)
    (hm : s.EvenMosaic) (hc : s.moncor.getD 1 = 1)
    {c : Conf} (hd : decode s = .ok c) {q w : ℝ} (hr : Reaches s q w) {X : M3} (hX : X.PosDef) :
    ∃ k, kinematics c q w = .ok k ∧ k.ki = wavevector (incident s w) ∧ 0 < k.ki ∧ ∀ l : Loop, l.Good →
      ∃ r, pointAt c l X k q = .ok r ∧ SPD r.2 ∧
        ∫ d : Fin 4 → ℝ, r.1 * exp (-(1 / 2) * quad r.2 d) =
          analyzed (wavevector (final s w)) s.ana.tau (sigma s.ana.mosaic) (sigma (s.ana.vmosaic.getD s.ana.mosaic))
            |l.alpha 2| |l.alpha 3| |l.beta 2| |l.beta 3| *
          s.thick (wavevector (final s w)) (min (l.alpha 2) (l.alpha 3)) := by
  obtain ⟨c', hd', hg, ea, e1, e2, e3, e4, e5, e6, e7⟩ := decode_ok h
  obtain rfl : c' = c := by rw [hd] at hd'; exact (Except.ok.inj hd').symm
  obtain ⟨k, hk, gk, ka⟩ := kinematics_ok e1 e2 e3 e4 (e5 ▸ h.mono.dir) (e6 ▸ h.sample.dir) (e7 ▸ h.ana.dir)
      h.mono.tau h.ana.tau hr
  obtain ⟨f1, f2, f3⟩ := kinematics_fields hk
  have c2 : convert2 = 2.072 := by norm_num [convert2]
  have kf : k.kf = wavevector (final s w) := by rw [f2, e1, e2, c2]; rfl
  have ki : k.ki = wavevector (incident s w) := by rw [f1, e1, e2, c2]; rfl
  refine ⟨k, hk, ki, gk.ki, fun l hl => ?_⟩
  have hx : c'.popovici = s.popovici ∧ c'.horifoc = s.horifoc.getD (-1) ∧ c'.moncor = s.moncor.getD 1 ∧ (∀ p, c'.etas = some p → p.1 = p.2) ∧
      c'.refl = (match s.ana.thickness, s.ana.reflQ with
        | some t, some q => some (t, q)
        | _, _ => none) ∧ c'.etaa = s.ana.mosaic * convert1 ∧ c'.etaav = s.ana.vmosaic.getD s.ana.mosaic * convert1 := by
    unfold decode at hd
    cases ha : decodeArms s with
    | error e => rw [ha] at hd; exact nomatch hd
    | ok a =>
      rw [ha, ok_bind] at hd
      obtain ⟨a1, a2, a3, a4, a5⟩ := a
      cases hd
      refine ⟨rfl, rfl, rfl, fun p hpp => ?_, rfl, rfl, rfl⟩
      · obtain ⟨m, hm1, hm2⟩ := Option.map_eq_some_iff.1 hpp
        rw [← hm2]
        dsimp only
        rw [hm m hm1]
  obtain ⟨x1, x2, x3, x4, x5, x6, x7⟩ := hx
  obtain ⟨r, hr1, hR, he⟩ := pointAt_monitor_even (c := { c' with refl := none }) hg.kinematic hl gk
    (x1.trans hp) (by change ¬ 0 < c'.horifoc; rw [x2]; exact not_lt.2 hf) (x3.trans hc) x4 rfl ka ea hX
  have hS := (posDef_iff_spd _).1 hR
  have eth : c'.reflected l k = s.thick (wavevector (final s w)) (min (l.alpha 2) (l.alpha 3)) := by
    unfold Conf.reflected Settings.thick
    rw [x5, kf, e4, x6, sigma_eq]
    cases s.ana.thickness <;> cases s.ana.reflQ <;> rfl
  refine ⟨_, (pointAt_reflected hg ka ea hr1).1, hS, ?_⟩
  rw [integral_const_mul, Verif.Convolution.integral_quad hS, eth, mul_right_comm, ← mul_div_assoc, he]
  congr 1
  change _ * (_ / √((4 * c'.etaa ^ 2 + _ + _) * (4 * _ * c'.etaav ^ 2 + _ + _))) = _
  unfold analyzed
  have hkf := gk.kf
  rw [kf] at f3 hkf ⊢
  rw [sigma_eq, sigma_eq, ← x6, ← x7, sq_abs, sq_abs, sq_abs, sq_abs, abs_mul, abs_mul, abs_mul]
  have han := hr.ana
  rw [← e4] at han ⊢
  generalize wavevector (final s w) = K at *
  have y0 : 0 < c'.taua := hg.taua
  have y1 : c'.taua / (2 * K) < 1 := by rw [div_lt_one (by positivity)]; exact han
  have hs : sin (arcsin (c'.taua / (2 * K))) = c'.taua / (2 * K) := sin_arcsin (by
    have : 0 < c'.taua / (2 * K) := by positivity
    linarith) y1.le
  have htp : 0 < tan (arcsin (c'.taua / (2 * K))) :=
    tan_pos_of_pos_of_lt_pi_div_two (arcsin_pos.2 (by positivity)) (arcsin_lt_pi_div_two.2 y1)
  have a1 : sin k.thetaa ^ 2 = (c'.taua / (2 * K)) ^ 2 := by
    rw [f3]
    rcases e7 ▸ h.ana.dir with h | h <;> rw [h]
    · rw [mul_one, hs]
    · rw [mul_neg_one, sin_neg, hs, neg_sq]
  have a2 : |tan k.thetaa| = tan (arcsin (c'.taua / (2 * K))) := by
    rw [f3]
    rcases e7 ▸ h.ana.dir with h | h <;> rw [h]
    · rw [mul_one, abs_of_pos htp]
    · rw [mul_neg_one, tan_neg, abs_neg, abs_of_pos htp]
  rw [a1, a2]

/-- The loop variables of the analyzer side are those of the collimators. -/
structure Loop.Collimated (l : Loop) (s : Settings) : Prop where
  a2 : l.alpha 2 = sigma (s.hcol 2)
  a3 : l.alpha 3 = sigma (s.hcol 3)
  b2 : l.beta 2 = sigma (s.vcol 2)
  b3 : l.beta 3 = sigma (s.vcol 3)

theorem sigma_pos {x : ℝ} (h : 0 < x) : 0 < sigma x := by rw [sigma_eq]; exact mul_pos h convert1_pos

/-- Collimators, not guides, after the sample. -/
structure Settings.Collimators (s : Settings) : Prop where
  h2 : 0 < s.hcol 2
  h3 : 0 < s.hcol 3
  v2 : 0 < s.vcol 2
  v3 : 0 < s.vcol 3

theorem guideDivergence_pos {a : ℝ} (h : 0 < a) (ki : ℝ) : guideDivergence a ki = a := by
  unfold guideDivergence
  rw [if_neg (not_lt.2 h.le)]

theorem Loop.Collimated.advance {l : Loop} {s : Settings} (h : l.Collimated s) (hs : s.Collimators) (c : Conf) (ki : ℝ) :
    (l.advance c ki).Collimated s := by
  refine ⟨?_, ?_, ?_, ?_⟩
  · simp only [Loop.advance, h.a2, guideDivergence_pos (sigma_pos hs.h2)]
  · simp only [Loop.advance, h.a3, guideDivergence_pos (sigma_pos hs.h3)]
  · simp only [Loop.advance, h.b2, guideDivergence_pos (sigma_pos hs.v2)]
  · simp only [Loop.advance, h.b3, guideDivergence_pos (sigma_pos hs.v3)]

theorem runLoop_monitor {s : Settings} {n : ℕ} (h : s.Valid n) (hp : s.popovici = false) (hf : s.horifoc.getD (-1) ≤ 0)
    (hm : s.EvenMosaic) (hc : s.moncor.getD 1 = 1)
    (hs : s.Collimators) {c : Conf} (hd : decode s = .ok c) :
    ∀ (pts : List (ℝ × ℝ)) (ind : ℕ) (l : Loop), ind + pts.length ≤ n → l.Good → l.Collimated s →
      (∀ p ∈ pts, Reaches s p.1 p.2) →
      ∃ rs, runLoop c s.sample ind l pts = .ok rs ∧ List.Forall₂ (fun p r => SPD r.2 ∧
        ∫ d : Fin 4 → ℝ, r.1 * exp (-(1 / 2) * quad r.2 d) = s.analyzed p.2) pts rs
  | [], _, _, _, _, _, _ => ⟨[], rfl, .nil⟩
  | (q, w) :: rest, ind, l, hn, hl, hC, hr => by
    simp only [List.length_cons] at hn
    obtain ⟨X, hX, pX⟩ := sshapeAt_ok h.sample (i := ind) (by omega)
    obtain ⟨k, hk, _, k0, hpt⟩ := pointAt_analyzed h hp hf hm hc hd (hr (q, w) (by simp)) pX
    have hC' := hC.advance hs c k.ki
    obtain ⟨r, hr1, hS, hI⟩ := hpt _ (advance_good hl c k0)
    obtain ⟨rs, hrs, hall⟩ := runLoop_monitor h hp hf hm hc hs hd rest (ind + 1) _ (by omega) (advance_good hl c k0) hC'
      (fun p hp' => hr p (List.mem_cons_of_mem _ hp'))
    refine ⟨r :: rs, ?_, .cons ⟨hS, ?_⟩ hall⟩
    · simp only [runLoop, hX, hk, hr1, hrs, ok_bind]
      rfl
    · rw [hI, hC'.a2, hC'.a3, hC'.b2, hC'.b3, abs_of_pos (sigma_pos hs.h2), abs_of_pos (sigma_pos hs.h3),
        abs_of_pos (sigma_pos hs.v2), abs_of_pos (sigma_pos hs.v3)]
      rfl

/-! ## C154 -/

/-- C154.  With the default normalisation to the monitor, the integral over momentum and energy of the resolution
function of every point of a Cooper-Nathans calculation is the contribution of the analyzer side (wavevector times
transmitted volume, times the reflectivity of a thick analyzer), whatever the list of points, also for a sample with a mosaic that is the same in both directions. -/
theorem C154_monitor {s : Settings} {pts : List (ℝ × ℝ)} (h : s.Valid pts.length) (hp : s.popovici = false)
    (hf : s.horifoc.getD (-1) ≤ 0) (hm : s.EvenMosaic)
    (hc : s.moncor.getD 1 = 1) (hs : s.Collimators) (hr : ∀ p ∈ pts, Reaches s p.1 p.2) :
    ∃ rs, calcInQ s pts = .ok rs ∧ List.Forall₂ (fun p r => SPD r.2 ∧
      ∫ d : Fin 4 → ℝ, r.1 * exp (-(1 / 2) * quad r.2 d) = s.analyzed p.2) pts rs := by
  obtain ⟨c, hd, _⟩ := decode_ok h
  unfold calcInQ
  simp only [hd, ok_bind]
  have h1 : s.horifoc ≠ some 1 := by
    intro h1
    rw [h1] at hf
    norm_num at hf
  exact runLoop_monitor h hp hf hm hc hs hd pts 0 _ (by omega) (start_good h)
    ⟨by simp [Loop.start, h1, sigma_eq], by simp [Loop.start, sigma_eq], by simp [Loop.start, sigma_eq],
      by simp [Loop.start, sigma_eq]⟩ hr

theorem forall₂_right {α β : Type*} {P : α → β → Prop} {Q : β → Prop} (h : ∀ a b, P a b → Q b) :
    ∀ {l : List α} {m : List β}, List.Forall₂ P l m → ∀ b ∈ m, Q b
  | _, _, .nil, _, hb => nomatch hb
  | _, _, .cons h1 h2, b, hb => by
    rcases List.mem_cons.1 hb with rfl | hb
    · exact h _ _ h1
    · exact forall₂_right h h2 b hb

/-- C154.  With fixed final energy the integral is the same at every point, and it does not depend on the
monochromator, the collimation before the sample, the guide, the monitor, the detector, the sample or its isotropic mosaic: two instruments
with the same final energy and the same analyzer side give the same integral at all their points. -/
theorem C154_same {s s' : Settings} {pts pts' : List (ℝ × ℝ)} (h : s.Valid pts.length) (h' : s'.Valid pts'.length)
    (hp : s.popovici = false) (hp' : s'.popovici = false) (hf : s.horifoc.getD (-1) ≤ 0) (hf' : s'.horifoc.getD (-1) ≤ 0)
    (hm : s.EvenMosaic) (hm' : s'.EvenMosaic)
    (hc : s.moncor.getD 1 = 1) (hc' : s'.moncor.getD 1 = 1) (hs : s.Collimators)
    (hi : s.infin.getD (-1) ≤ 0) (hi' : s'.infin.getD (-1) ≤ 0) (he : s'.efixed = s.efixed) (ha : s'.ana = s.ana)
    (hh : ∀ i, 2 ≤ i → s'.hcol i = s.hcol i) (hv : ∀ i, 2 ≤ i → s'.vcol i = s.vcol i)
    (hr : ∀ p ∈ pts, Reaches s p.1 p.2) (hr' : ∀ p ∈ pts', Reaches s' p.1 p.2) :
    ∃ rs rs', calcInQ s pts = .ok rs ∧ calcInQ s' pts' = .ok rs' ∧ rs.length = pts.length ∧ rs'.length = pts'.length ∧
      ∃ I, ∀ r ∈ rs ++ rs', ∫ d : Fin 4 → ℝ, r.1 * exp (-(1 / 2) * quad r.2 d) = I := by
  have hs' : s'.Collimators := ⟨by rw [hh 2 le_rfl]; exact hs.h2, by rw [hh 3 (by decide)]; exact hs.h3,
    by rw [hv 2 le_rfl]; exact hs.v2, by rw [hv 3 (by decide)]; exact hs.v3⟩
  obtain ⟨rs, e1, f1⟩ := C154_monitor h hp hf hm hc hs hr
  obtain ⟨rs', e2, f2⟩ := C154_monitor h' hp' hf' hm' hc' hs' hr'
  refine ⟨rs, rs', e1, e2, f1.length_eq.symm, f2.length_eq.symm, ?_⟩
  have w1 : ∀ w, final s w = s.efixed := fun w => by unfold final; rw [if_neg (not_lt.2 hi)]
  have w2 : ∀ w, final s' w = s.efixed := fun w => by unfold final; rw [if_neg (not_lt.2 hi'), he]
  have a1 : ∀ w, s.analyzed w = s.analyzed 0 := fun w => by unfold Settings.analyzed; rw [w1, w1]
  have a2 : ∀ w, s'.analyzed w = s.analyzed 0 := fun w => by
    unfold Settings.analyzed Settings.thick
    rw [w1, w2, ha, hh 2 le_rfl, hh 3 (by decide), hv 2 le_rfl, hv 3 (by decide)]
  have hall : ∀ r ∈ rs ++ rs', ∫ d : Fin 4 → ℝ, r.1 * exp (-(1 / 2) * quad r.2 d) = s.analyzed 0 := by
    intro r hr
    rcases List.mem_append.1 hr with hr | hr
    · exact forall₂_right (Q := fun r : ℝ × M4 => ∫ d : Fin 4 → ℝ, r.1 * exp (-(1 / 2) * quad r.2 d) = s.analyzed 0)
        (fun p r hpr => hpr.2.trans (a1 _)) f1 r hr
    · exact forall₂_right (Q := fun r : ℝ × M4 => ∫ d : Fin 4 → ℝ, r.1 * exp (-(1 / 2) * quad r.2 d) = s.analyzed 0)
        (fun p r hpr => hpr.2.trans (a2 _)) f2 r hr
  exact ⟨_, hall⟩

/-- The default instrument with another monochromator, another collimation before the sample and a monitor of
given width. -/
noncomputable def demoPrimary : Settings :=
  { demo with mono := ⟨1.9, 10, none, none, none, none, none, none, 1, none, none⟩, hcol := ![20, 30, 40, 40],
              monitor := ⟨some 5, none⟩ }

theorem demoPrimary_valid (n : ℕ) : demoPrimary.Valid n where
  mono := ⟨by norm_num [demoPrimary], by norm_num [demoPrimary], .none, .none, .none, .none, fun _ h => (nomatch h),
    fun _ h => (nomatch h), Or.inl rfl, .none, .none⟩
  ana := (demo_valid n).ana
  guide := ⟨.none, .none⟩
  monitor := ⟨fun v hv => by rw [← Option.some.inj hv]; norm_num, .none⟩
  detector := ⟨.none, .none⟩
  sample := (demo_valid n).sample
  hcol i := by fin_cases i <;> norm_num [demoPrimary]
  vcol _ := by norm_num [demoPrimary, demo]
  arms _ h := nomatch h

theorem demoPrimary_reaches {q w : ℝ} (hq0 : 1 / 2 ≤ q) (hq : q ≤ 1) (hw0 : 0 ≤ w) (hw : w ≤ 1) :
    Reaches demoPrimary q w := by
  have h := demo_reaches hq0 hq hw0 hw
  refine ⟨h.ei, h.ef, ?_, h.ana, h.closes, h.q⟩
  have ei : incident demoPrimary w = 14.7 + w := by
    unfold incident
    rw [if_neg (by norm_num [demoPrimary, demo])]
    rfl
  have hki : 2 ≤ wavevector (14.7 + w) := Real.le_sqrt_of_sq_le (by rw [le_div_iff₀ (by norm_num)]; norm_num; linarith)
  rw [ei]
  norm_num [demoPrimary]
  linarith

theorem demo_collimators : demo.Collimators := by constructor <;> norm_num [demo]

/-- An elastic and an inelastic point of the default instrument and a point of the other one. -/
example : ∃ rs rs', calcInQ demo [(1, 0), (1 / 2, 1)] = .ok rs ∧ calcInQ demoPrimary [(1, 1 / 2)] = .ok rs' ∧
    rs.length = 2 ∧ rs'.length = 1 ∧
    ∃ I, ∀ r ∈ rs ++ rs', ∫ d : Fin 4 → ℝ, r.1 * exp (-(1 / 2) * quad r.2 d) = I :=
  C154_same (demo_valid _) (demoPrimary_valid _) rfl rfl (by norm_num [demo]) (by norm_num [demoPrimary, demo])
    (fun _ hm => nomatch hm) (fun _ hm => nomatch hm) rfl rfl demo_collimators (by norm_num [demo]) (by norm_num [demoPrimary, demo]) rfl rfl
    (fun i hi => by fin_cases i <;> first | rfl | exact absurd hi (by decide)) (fun _ _ => rfl)
    (fun p hp => by
      rcases List.mem_pair.1 hp with rfl | rfl <;>
        exact demo_reaches (by norm_num) (by norm_num) (by norm_num) (by norm_num))
    (fun p hp => by
      rw [List.mem_singleton.1 hp]
      exact demoPrimary_reaches (by norm_num) (by norm_num) (by norm_num) (by norm_num))

/-- An elastic and an inelastic point of the default instrument with a mosaic sample and a point of the other one without. -/
example : ∃ rs rs', calcInQ (demo.mosaicSample 30 none) [(1, 0), (1 / 2, 1)] = .ok rs ∧ calcInQ demoPrimary [(1, 1 / 2)] = .ok rs' ∧
    rs.length = 2 ∧ rs'.length = 1 ∧
    ∃ I, ∀ r ∈ rs ++ rs', ∫ d : Fin 4 → ℝ, r.1 * exp (-(1 / 2) * quad r.2 d) = I :=
  C154_same ((demo_valid _).mosaicSample _ _) (demoPrimary_valid _) rfl rfl (by norm_num [demo, Settings.mosaicSample])
    (by norm_num [demoPrimary, demo]) (fun _ _ => rfl) (fun _ hm => nomatch hm)
    rfl rfl ⟨demo_collimators.h2, demo_collimators.h3, demo_collimators.v2, demo_collimators.v3⟩
    (by norm_num [demo, Settings.mosaicSample]) (by norm_num [demoPrimary, demo]) rfl rfl
    (fun i hi => by fin_cases i <;> first | rfl | exact absurd hi (by decide)) (fun _ _ => rfl)
    (fun p hp => by
      rcases List.mem_pair.1 hp with rfl | rfl <;>
        exact (demo_reaches (by norm_num) (by norm_num) (by norm_num) (by norm_num)).mosaicSample _ _)
    (fun p hp => by
      rw [List.mem_singleton.1 hp]
      exact demoPrimary_reaches (by norm_num) (by norm_num) (by norm_num) (by norm_num))

end Verif.Resolution
