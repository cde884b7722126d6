import Verif.Resolution.PropsUnits
import Verif.Resolution.PropsMonitorSize

/-!
# Property C214: the same instrument with faster neutrons
-/

namespace Verif.Resolution

open Real Matrix
open Verif.Crystal (Fail npDiv npSqrt npArcsin)
open Verif.Tools (arctan2)

/-! ## Specification -/

/-- A collimation; a negative value is that of a guide, whose divergence is proportional to the wavelength. -/
noncomputable def collimationFor (t a : ℝ) : ℝ := if a < 0 then t * a else a

/-- The instrument for neutrons `t` times as fast: crystals whose planes are `t` times as close, a fixed energy `t ^ 2` times as large, and
guides of `t` times the `m`-value. -/
noncomputable def Settings.faster (t : ℝ) (s : Settings) : Settings :=
  { s with efixed := t ^ 2 * s.efixed, hcol := fun i => collimationFor t (s.hcol i), vcol := fun i => collimationFor t (s.vcol i),
           mono := { s.mono with tau := t * s.mono.tau }, ana := { s.ana with tau := t * s.ana.tau } }

/-- By what wavevectors and energies of neutrons `t` times as fast are larger. -/
noncomputable def fasterAxes (t : ℝ) : Fin 4 → ℝ := ![t, t, t, t ^ 2]

/-- Prefactor and matrix on those axes; the prefactor is an intensity per wavevector and energy, or relative to the monitor. -/
noncomputable def fasterResult (t : ℝ) (moncor : Option ℝ) (r : ℝ × M4) : ℝ × M4 :=
  ((if moncor.getD 1 = 1 then t⁻¹ else t) * r.1, Matrix.of fun i j => r.2 i j / (fasterAxes t i * fasterAxes t j))

/-! ## Arithmetic -/

theorem npSqrt_times {t : ℝ} (ht : 0 < t) (x : ℝ) : npSqrt (t ^ 2 * x) = npSqrt x >>= fun y => pure (t * y) := by
  unfold npSqrt
  by_cases h : 0 ≤ x
  · rw [if_pos h, if_pos (by positivity), sqrt_mul (by positivity), sqrt_sq ht.le]
    rfl
  · rw [if_neg h, if_neg fun h' => h (nonneg_of_mul_nonneg_right h' (by positivity))]
    rfl

theorem npDiv_both {t : ℝ} (ht : t ≠ 0) (x y : ℝ) : npDiv (t * x) (t * y) = npDiv x y := by
  unfold npDiv
  simp only [mul_eq_zero, ht, false_or]
  rw [mul_div_mul_left _ _ ht]

theorem npDiv_times {t : ℝ} (ht : t ≠ 0) (x y : ℝ) : npDiv (t * x) y = npDiv x y >>= fun z => pure (t * z) := by
  unfold npDiv
  simp only [mul_eq_zero, ht, false_or]
  by_cases hy : y = 0
  · rw [if_pos hy, if_pos hy]
    by_cases hx : x = 0
    · rw [if_pos hx]; rfl
    · rw [if_neg hx]; rfl
  · rw [if_neg hy, if_neg hy, mul_div_assoc]
    rfl

theorem arctan2_times {t : ℝ} (ht : 0 < t) (y x : ℝ) : arctan2 (t * y) (t * x) = arctan2 y x := by
  unfold arctan2
  rw [← Complex.arg_real_mul ⟨x, y⟩ ht]
  congr 1
  apply Complex.ext <;> simp

/-! ## One point -/

/-- Wavevectors and angles of faster neutrons. -/
noncomputable def Kin.faster (t : ℝ) (k : Kin) : Kin := { k with ki := t * k.ki, kf := t * k.kf }

/-- The values before the loop, for faster neutrons. -/
noncomputable def Conf.faster (t : ℝ) (c : Conf) : Conf := { c with efixed := t ^ 2 * c.efixed, taum := t * c.taum, taua := t * c.taua }

theorem faster_kinematics {t : ℝ} (ht : 0 < t) (c : Conf) (q w : ℝ) :
    kinematics (c.faster t) (t * q) (t ^ 2 * w) = kinematics c q w >>= fun k => pure (k.faster t) := by
  have e1 : (if 0 < c.infin then t ^ 2 * c.efixed else t ^ 2 * c.efixed + t ^ 2 * w) / convert2 =
      t ^ 2 * ((if 0 < c.infin then c.efixed else c.efixed + w) / convert2) := by split_ifs <;> ring
  have e2 : (if 0 < c.infin then t ^ 2 * c.efixed - t ^ 2 * w else t ^ 2 * c.efixed) / convert2 =
      t ^ 2 * ((if 0 < c.infin then c.efixed - w else c.efixed) / convert2) := by split_ifs <;> ring
  unfold kinematics Conf.faster
  dsimp only
  rw [e1, e2, npSqrt_times ht, npSqrt_times ht]
  simp only [bind_assoc, pure_bind]
  refine congrArg _ (funext fun ki => congrArg _ (funext fun kf => ?_))
  rw [show 2 * (t * ki) = t * (2 * ki) by ring, show 2 * (t * kf) = t * (2 * kf) by ring,
    show (t * ki) ^ 2 + (t * kf) ^ 2 - (t * q) ^ 2 = t ^ 2 * (ki ^ 2 + kf ^ 2 - q ^ 2) by ring,
    show t * (2 * ki) * (t * kf) = t ^ 2 * (2 * ki * kf) by ring,
    npDiv_both ht.ne', npDiv_both ht.ne', npDiv_both (pow_ne_zero 2 ht.ne')]
  refine congrArg _ (funext fun x => congrArg _ (funext fun tm => congrArg _ (funext fun y => congrArg _ (funext fun ta =>
    congrArg _ (funext fun z => congrArg _ (funext fun s2 => ?_))))))
  rw [show -(t * kf) * sin s2 = t * (-kf * sin s2) by ring, show t * ki - t * kf * cos s2 = t * (ki - kf * cos s2) by ring, arctan2_times ht]
  rfl

theorem faster_A (t : ℝ) (k : Kin) : matA (k.faster t) = t • matA k := by
  simp only [matA, Kin.faster, smul_of, smul_cons, smul_empty, smul_eq_mul, mul_zero, div_eq_mul_inv]
  ring_nf

theorem faster_B (t : ℝ) (k : Kin) : t • matB (k.faster t) = diagonal (fasterAxes t) * matB k := by
  ext i j
  rw [diagonal_mul, Matrix.smul_apply]
  fin_cases i <;> fin_cases j <;> simp [matB, Kin.faster, fasterAxes] <;> ring

theorem faster_popovici {t : ℝ} (c : Conf) (l : Loop) (k : Kin) (S : Matrix (Fin 13) (Fin 13) ℝ) :
    popoviciN (c.faster t) l (k.faster t) S = popoviciN c l k S >>= fun p => pure (t ^ 2 • p.1, p.2) := by
  unfold popoviciN
  rw [faster_A]
  by_cases h : c.L0 = 0 ∨ c.L1 = 0 ∨ c.L2 = 0 ∨ c.L3 = 0 ∨ l.monorh = 0 ∨ l.monorv = 0 ∨ l.anarh = 0 ∨ l.anarv = 0
  · rw [if_pos h]
    exact if_pos h
  · rw [if_neg h]
    refine (if_neg h).trans ?_
    simp only [bind_assoc, pure_bind]
    refine congrArg _ (funext fun K => congrArg _ (funext fun H => congrArg _ (funext fun G => ?_)))
    rw [transpose_smul, Matrix.mul_smul, Matrix.smul_mul, Matrix.smul_mul, smul_smul, ← sq]

theorem faster_focus {t : ℝ} (c : Conf) (l : Loop) (k : Kin) (N : Matrix (Fin 6) (Fin 6) ℝ) :
    focusBlock (c.faster t) l (k.faster t) ((t ^ 2)⁻¹ • N) = (t ^ 2)⁻¹ • focusBlock c l k N := by
  ext i j
  simp only [focusBlock, Kin.faster, Conf.faster, Matrix.of_apply, Matrix.smul_apply, smul_eq_mul]
  split_ifs
  · rw [← mul_assoc, mul_comm c.etaa t, mul_assoc, ← div_div, div_right_comm, div_pow _ t]
    ring
  · rw [mul_assoc, ← div_div, div_right_comm, div_pow _ t]
    ring
  · rw [mul_zero]
  · rfl

theorem faster_cooperNathans {t : ℝ} (ht : 0 < t) (c : Conf) (l : Loop) (k : Kin) :
    cooperNathansN (c.faster t) l (k.faster t) = cooperNathansN c l k >>= fun p => pure (t ^ 2 • p.1, p.2) := by
  have h2 : (t ^ 2)⁻¹ ≠ 0 := by positivity
  unfold cooperNathansN
  rw [faster_A, show matC (k.faster t) = matC k from rfl, show matF (c.faster t) = matF c from rfl]
  simp only [bind_assoc]
  refine congrArg _ (funext fun H => ?_)
  have e : t • matA k * H * (t • matA k)ᵀ = t ^ 2 • (matA k * H * (matA k)ᵀ) := by
    rw [transpose_smul, Matrix.mul_smul, Matrix.smul_mul, Matrix.smul_mul, smul_smul, ← sq]
  rw [e]
  by_cases h : 0 < c.horifoc
  · rw [if_pos h]
    refine (if_pos h).trans ?_
    rw [npInv_smul (pow_ne_zero 2 ht.ne')]
    simp only [bind_assoc, pure_bind]
    refine congrArg _ (funext fun N => ?_)
    rw [faster_focus, npInv_smul h2, inv_inv]
    simp only [bind_assoc, pure_bind]
  · rw [if_neg h]
    exact if_neg h

theorem faster_core {t : ℝ} (ht : 0 < t) (c : Conf) (l : Loop) (k : Kin) (S : Matrix (Fin 13) (Fin 13) ℝ) :
    coreMatrix (c.faster t) l (k.faster t) S =
      coreMatrix c l k S >>= fun p => pure (diagonal (fasterAxes t) * p.1 * diagonal (fasterAxes t), p.2) := by
  have e (N : Matrix (Fin 6) (Fin 6) ℝ) : matB (k.faster t) * (t ^ 2 • N) * (matB (k.faster t))ᵀ =
      diagonal (fasterAxes t) * (matB k * N * (matB k)ᵀ) * diagonal (fasterAxes t) := by
    have : diagonal (fasterAxes t) * (matB k * N * (matB k)ᵀ) * diagonal (fasterAxes t) =
        (diagonal (fasterAxes t) * matB k) * N * (diagonal (fasterAxes t) * matB k)ᵀ := by
      rw [transpose_mul, diagonal_transpose]
      simp only [Matrix.mul_assoc]
    rw [this, ← faster_B, transpose_smul, Matrix.mul_smul, Matrix.smul_mul, Matrix.smul_mul, Matrix.mul_smul, Matrix.smul_mul, smul_smul, sq]
  unfold coreMatrix
  dsimp only
  rw [show (c.faster t).popovici = c.popovici from rfl, faster_popovici, faster_cooperNathans ht]
  by_cases h : c.popovici = true
  · simp only [if_pos h, bind_assoc, pure_bind, e]
  · simp only [if_neg h, bind_assoc, pure_bind, e]

theorem faster_monitor (t : ℝ) (c : Conf) (l : Loop) (k : Kin) :
    monitorFlux (c.faster t) l (k.faster t) = monitorFlux c l k >>= fun x => pure (t ^ 3 * x) := by
  unfold monitorFlux
  simp only [bind_assoc, pure_bind]
  refine congrArg _ (funext fun s => congrArg _ (funext fun d => congrArg _ (funext fun x => congrArg _ (funext fun y => ?_))))
  refine congrArg Except.ok ?_
  simp only [Kin.faster]
  ring

/-- The factor of the prefactor. -/
noncomputable def fasterFactor (t : ℝ) (c : Conf) : ℝ := if c.moncor = 1 then t⁻¹ else t

/-- The resolution matrix on the larger axes. -/
noncomputable def onAxes (t : ℝ) (M : M4) : M4 := diagonal (fun i => (fasterAxes t i)⁻¹) * M * diagonal fun i => (fasterAxes t i)⁻¹

theorem onAxes_apply (t : ℝ) (M : M4) (i j : Fin 4) : onAxes t M i j = M i j / (fasterAxes t i * fasterAxes t j) := by
  rw [onAxes, mul_diagonal, diagonal_mul, div_eq_mul_inv, mul_inv]
  ring

theorem fasterAxes_ne {t : ℝ} (ht : 0 < t) (i : Fin 4) : fasterAxes t i ≠ 0 := by
  fin_cases i <;> simp [fasterAxes, ht.ne']

theorem det_onAxes {t : ℝ} (ht : 0 < t) (M : M4) : (onAxes t M).det = ((t ^ 5)⁻¹) ^ 2 * M.det := by
  rw [onAxes, det_mul, det_mul, det_diagonal]
  have : ∏ i, (fasterAxes t i)⁻¹ = (t ^ 5)⁻¹ := by
    rw [Fin.prod_univ_four]
    simp only [fasterAxes, cons_val_zero, cons_val_one, cons_val]
    field_simp
  rw [this]
  ring

theorem faster_prefactor {t : ℝ} (ht : 0 < t) (c : Conf) (l : Loop) (k : Kin) (d : ℝ) (R : M4) :
    prefactor (c.faster t) l (k.faster t) d (onAxes t R) = prefactor c l k d R >>= fun x => pure (fasterFactor t c * x) := by
  have e0 (x : ℝ) : (t * k.ki) ^ 3 / tan k.thetam * ((t * k.kf) ^ 3 / tan k.thetaa) * (2 * π) ^ 4 / (64 * π ^ 2 * sin k.thetam * sin k.thetaa) * x =
      t ^ 6 * (k.ki ^ 3 / tan k.thetam * (k.kf ^ 3 / tan k.thetaa) * (2 * π) ^ 4 / (64 * π ^ 2 * sin k.thetam * sin k.thetaa) * x) := by ring
  unfold prefactor fasterFactor
  rw [det_onAxes ht, npSqrt_times (by positivity), faster_monitor]
  simp only [bind_assoc, pure_bind]
  refine congrArg _ (funext fun x => congrArg _ (funext fun y => ?_))
  simp only [Kin.faster, Conf.faster, e0]
  generalize k.ki ^ 3 / tan k.thetam * (k.kf ^ 3 / tan k.thetaa) * (2 * π) ^ 4 / (64 * π ^ 2 * sin k.thetam * sin k.thetaa) * y = r
  by_cases h : c.moncor = 1
  · simp only [if_pos h, bind_assoc, pure_bind]
    refine congrArg _ (funext fun f => ?_)
    rw [show t ^ 6 * r = t ^ 3 * (t ^ 3 * r) by ring, npDiv_both (pow_ne_zero 3 ht.ne'), npDiv_times (pow_ne_zero 3 ht.ne')]
    simp only [bind_assoc, pure_bind]
    refine congrArg _ (funext fun z => congrArg _ (funext fun w => congrArg Except.ok ?_))
    rw [show t ^ 3 * z * (t * k.ki) / (2 * π) ^ 2 * ((t ^ 5)⁻¹ * w) * (t * k.kf) / (t * k.ki) =
      (t ^ 4 * (t ^ 5)⁻¹) * (z * k.ki / (2 * π) ^ 2 * w * ((t * k.kf) / (t * k.ki))) by ring, mul_div_mul_left _ _ ht.ne',
      show t ^ 4 * (t ^ 5)⁻¹ = t⁻¹ by field_simp]
    ring
  · simp only [if_neg h, pure_bind, bind_assoc]
    refine congrArg _ (funext fun w => congrArg Except.ok ?_)
    rw [show t ^ 6 * r / (2 * π) ^ 2 * ((t ^ 5)⁻¹ * w) * (t * k.kf) / (t * k.ki) =
      (t ^ 6 * (t ^ 5)⁻¹) * (r / (2 * π) ^ 2 * w * ((t * k.kf) / (t * k.ki))) by ring, mul_div_mul_left _ _ ht.ne',
      show t ^ 6 * (t ^ 5)⁻¹ = t by field_simp]
    ring

theorem faster_mosaic {t : ℝ} (ht : 0 < t) (g : ℝ) (hg : g ≠ 0) (c : Conf) (q r0 : ℝ) (R M : M4) :
    withMosaic (c.faster t) (t * q) (g * r0) (onAxes t R) (diagonal (fasterAxes t) * M * diagonal (fasterAxes t)) =
      withMosaic c q r0 R M >>= fun p => pure (g * p.1, onAxes t p.2) := by
  unfold withMosaic
  rw [show (c.faster t).etas = c.etas from rfl]
  cases c.etas with
  | none => rfl
  | some p =>
    obtain ⟨a, b⟩ := p
    dsimp only
    unfold sampleMosaic
    have e1 : (t * q * a) ^ 2 * onAxes t R 2 2 = (q * a) ^ 2 * R 2 2 := by
      rw [onAxes_apply]
      simp only [fasterAxes, cons_val]
      field_simp
    have e2 : (t * q * b) ^ 2 * onAxes t R 1 1 = (q * b) ^ 2 * R 1 1 := by
      rw [onAxes_apply]
      simp only [fasterAxes, cons_val_one, cons_val_zero]
      field_simp
    have e3 : diagonal (fasterAxes t) * M * diagonal (fasterAxes t) + diagonal ![0, (t * q) ^ 2 * a ^ 2, (t * q) ^ 2 * b ^ 2, 0] =
        diagonal (fasterAxes t) * (M + diagonal ![0, q ^ 2 * a ^ 2, q ^ 2 * b ^ 2, 0]) * diagonal (fasterAxes t) := by
      rw [Matrix.mul_add, Matrix.add_mul, diagonal_mul_diagonal, diagonal_mul_diagonal]
      congr 2
      funext i
      fin_cases i <;> simp [fasterAxes] <;> ring
    rw [e1, e2, e3, npInv_stretched (fasterAxes_ne ht)]
    simp only [npDiv_times hg, bind_assoc, pure_bind]
    rfl

theorem faster_tangent {t : ℝ} (ht : 0 < t) (a kf : ℝ) (f : ℝ → Except Fail ℝ) :
    (npSqrt ((t * kf) ^ 2 - (t * a / 2) ^ 2) >>= fun x => npDiv (t * a / 2) x >>= f) =
      npSqrt (kf ^ 2 - (a / 2) ^ 2) >>= fun x => npDiv (a / 2) x >>= f := by
  rw [show (t * kf) ^ 2 - (t * a / 2) ^ 2 = t ^ 2 * (kf ^ 2 - (a / 2) ^ 2) by ring, npSqrt_times ht, mul_div_assoc]
  simp only [bind_assoc, pure_bind, npDiv_both ht.ne']

theorem faster_reflectivity {t : ℝ} (ht : 0 < t) (c : Conf) (l : Loop) (k : Kin) (a b : ℝ) :
    reflectivity (c.faster t) l (k.faster t) a b = reflectivity c l k a b :=
  faster_tangent ht c.taua k.kf _

theorem faster_thickness {t : ℝ} (ht : 0 < t) (g : ℝ) (c : Conf) (l : Loop) (k : Kin) (r0 : ℝ) :
    withReflectivity (c.faster t) l (k.faster t) (g * r0) = withReflectivity c l k r0 >>= fun x => pure (g * x) := by
  unfold withReflectivity
  rw [show (c.faster t).refl = c.refl from rfl]
  cases c.refl with
  | none => rfl
  | some p =>
    obtain ⟨a, b⟩ := p
    dsimp only
    rw [faster_reflectivity ht]
    simp only [bind_assoc, pure_bind, mul_assoc]

theorem faster_point {t : ℝ} (ht : 0 < t) (c : Conf) (l : Loop) (X : M3) (k : Kin) (q : ℝ) :
    pointAt (c.faster t) l X (k.faster t) (t * q) = pointAt c l X k q >>= fun p => pure (fasterFactor t c * p.1, onAxes t p.2) := by
  have hg : fasterFactor t c ≠ 0 := by
    unfold fasterFactor
    split_ifs
    · exact inv_ne_zero ht.ne'
    · exact ht.ne'
  have e (M : M4) : npInv (diagonal (fasterAxes t) * M * diagonal (fasterAxes t)) = npInv M >>= fun N => pure (onAxes t N) :=
    npInv_stretched (fasterAxes_ne ht) M
  unfold pointAt
  by_cases h : (∃ i, l.alpha i = 0) ∨ (∃ i, l.beta i = 0) ∨ c.etam = 0 ∨ c.etamv = 0 ∨ c.etaa = 0 ∨ c.etaav = 0 ∨
      sin k.thetam = 0 ∨ sin k.thetaa = 0
  · rw [if_pos h]
    exact if_pos h
  · rw [if_neg h]
    refine (if_neg h).trans ?_
    rw [show matSinv (c.faster t) (turnShape (k.faster t) X) = matSinv c (turnShape k X) from rfl]
    simp only [faster_core ht, e, faster_prefactor ht, faster_mosaic ht _ hg, faster_thickness ht, bind_assoc, pure_bind]

/-! ## The loop over the points -/

/-- Loop variables for faster neutrons. -/
structure FasterLoop (t : ℝ) (l l' : Loop) : Prop where
  rest : l' = { l with alpha := l'.alpha, beta := l'.beta }
  alpha : ∀ i, l'.alpha i = collimationFor t (l.alpha i)
  beta : ∀ i, l'.beta i = collimationFor t (l.beta i)

theorem faster_guide {t : ℝ} (ht : 0 < t) (a ki : ℝ) : guideDivergence (collimationFor t a) (t * ki) = guideDivergence a ki := by
  unfold guideDivergence collimationFor
  by_cases h : a < 0
  · rw [if_pos h, if_pos h, if_pos (mul_neg_of_pos_of_neg ht h), ← div_div, div_right_comm]
    have : t⁻¹ * t = 1 := inv_mul_cancel₀ ht.ne'
    rw [div_eq_mul_inv _ t]
    linear_combination (-a * (1 / 10) * 60 * (2 * π / ki) / (427 / 1000) / √3) * this
  · rw [if_neg h, if_neg h, if_neg h]

theorem root_nonneg {x y : ℝ} (h : npSqrt x = .ok y) : 0 ≤ y := by
  unfold npSqrt at h
  by_cases hx : 0 ≤ x
  · rw [if_pos hx] at h
    rw [← Except.ok.inj h]
    exact sqrt_nonneg _
  · rw [if_neg hx] at h
    cases h

theorem divergence_nonneg (a : ℝ) {ki : ℝ} (hk : 0 ≤ ki) : 0 ≤ guideDivergence a ki := by
  unfold guideDivergence
  split_ifs with h
  · have : 0 ≤ -a := by linarith
    positivity
  · exact not_lt.1 h

theorem faster_advance {t : ℝ} (ht : 0 < t) {l l' : Loop} (h : FasterLoop t l l') (c : Conf) {ki : ℝ} (hk : 0 ≤ ki) :
    l'.advance (c.faster t) (t * ki) = l.advance c ki ∧ FasterLoop t (l.advance c ki) (l.advance c ki) := by
  refine ⟨?_, rfl, fun i => ?_, fun i => ?_⟩
  · rw [h.rest]
    unfold Loop.advance
    simp only [h.alpha, h.beta, faster_guide ht]
    rfl
  · exact (if_neg (not_lt.2 (divergence_nonneg _ hk))).symm
  · exact (if_neg (not_lt.2 (divergence_nonneg _ hk))).symm

theorem kinematics_nonneg {c : Conf} {q w : ℝ} {k : Kin} (h : kinematics c q w = .ok k) : 0 ≤ k.ki := by
  unfold kinematics at h
  dsimp only at h
  obtain ⟨ki, hki, h⟩ := bind_ok h
  obtain ⟨kf, _, h⟩ := bind_ok h
  obtain ⟨_, _, h⟩ := bind_ok h
  obtain ⟨_, _, h⟩ := bind_ok h
  obtain ⟨_, _, h⟩ := bind_ok h
  obtain ⟨_, _, h⟩ := bind_ok h
  obtain ⟨_, _, h⟩ := bind_ok h
  obtain ⟨_, _, h⟩ := bind_ok h
  cases h
  exact root_nonneg hki

theorem faster_loop {t : ℝ} (ht : 0 < t) (c : Conf) (a : SampleAttrs) :
    ∀ (pts : List (ℝ × ℝ)) (n : ℕ) {l l' : Loop}, FasterLoop t l l' →
      runLoop (c.faster t) a n l' (pts.map fun p => (t * p.1, t ^ 2 * p.2)) =
        runLoop c a n l pts >>= fun rs => pure (rs.map fun p => (fasterFactor t c * p.1, onAxes t p.2))
  | [], _, _, _, _ => rfl
  | (q, w) :: pts, n, l, l', hl => by
    rw [List.map_cons]
    unfold runLoop
    rw [bind_assoc]
    refine congrArg _ (funext fun X => ?_)
    dsimp only
    rw [faster_kinematics ht]
    cases hk : kinematics c q w with
    | error e => rfl
    | ok k =>
      obtain ⟨e1, e2⟩ := faster_advance ht hl c (kinematics_nonneg hk)
      show (pointAt (c.faster t) (l'.advance (c.faster t) (t * k.ki)) X (k.faster t) (t * q) >>= fun r =>
        runLoop (c.faster t) a (n + 1) (l'.advance (c.faster t) (t * k.ki)) (pts.map fun p => (t * p.1, t ^ 2 * p.2)) >>= fun rs => pure (r :: rs)) =
        (pointAt c (l.advance c k.ki) X k q >>= fun r => runLoop c a (n + 1) (l.advance c k.ki) pts >>= fun rs => pure (r :: rs)) >>= _
      rw [e1, faster_point ht, faster_loop ht c a pts (n + 1) e2]
      simp only [bind_assoc, pure_bind, List.map_cons]

/-- C214.  Let the planes of monochromator and analyzer be `t` times as close, the fixed energy `t ^ 2` times as large and the guides of `t` times the
`m`-value.  Then at `t` times the wavevectors and `t ^ 2` times the energy transfers, the angles are the same, and `calc_resolution_in_Q_coords` returns, for
every list of points, the matrices of a resolution that is `t` times as wide in the directions of the wavevector and `t ^ 2` times as wide in
energy, with the prefactor that belongs to it, or raises the same error. -/
theorem C214_faster (s : Settings) {t : ℝ} (ht : 0 < t) (pts : List (ℝ × ℝ)) :
    calcInQ (s.faster t) (pts.map fun p => (t * p.1, t ^ 2 * p.2)) = (calcInQ s pts).map (List.map (fasterResult t s.moncor)) := by
  have hd : decode (s.faster t) = decode s >>= fun c => pure (c.faster t) := by
    unfold decode
    rw [bind_assoc]
    exact congrArg _ (funext fun _ => rfl)
  have hl : FasterLoop t (Loop.start s) (Loop.start (s.faster t)) := by
    have hc : 0 < convert1 := convert1_pos
    have e (x y : ℝ) (hy : 0 < y) : collimationFor t x * y = collimationFor t (x * y) := by
      unfold collimationFor
      by_cases h : x < 0
      · rw [if_pos h, if_pos (mul_neg_of_neg_of_pos h hy), mul_assoc]
      · rw [if_neg h, if_neg (not_lt.2 (mul_nonneg (not_lt.1 h) hy.le))]
    refine ⟨rfl, fun i => ?_, fun i => ?_⟩
    · show collimationFor t (s.hcol i) * convert1 * (if s.horifoc = some 1 ∧ i = 2 then √(8 * log 2 / 12) else 1) = _
      rw [mul_assoc, e _ _ (mul_pos hc (by
        split_ifs
        · have := log_pos (by norm_num : (1 : ℝ) < 2)
          positivity
        · exact one_pos)), ← mul_assoc]
      rfl
    · exact e _ _ hc
  unfold calcInQ
  rw [hd]
  cases hc : decode s with
  | error e => rfl
  | ok c =>
    have hm : c.moncor = s.moncor.getD 1 := by
      unfold decode at hc
      obtain ⟨_, -, hc⟩ := bind_ok hc
      rw [← Except.ok.inj hc]
    show runLoop (c.faster t) s.sample 0 (Loop.start (s.faster t)) _ = _
    rw [faster_loop ht c s.sample pts 0 hl]
    have e : (fun p : ℝ × M4 => (fasterFactor t c * p.1, onAxes t p.2)) = fasterResult t s.moncor := by
      funext p
      unfold fasterResult fasterFactor
      rw [hm]
      refine Prod.ext rfl ?_
      ext i j
      exact onAxes_apply t p.2 i j
    rw [e]
    show _ = (runLoop c s.sample 0 (Loop.start s) pts).map _
    cases runLoop c s.sample 0 (Loop.start s) pts <;> rfl

/-- A concrete case: the reflection 004 of graphite in place of 002 and four times the energy, at two points that the instrument reaches. -/
example : ∃ rs, calcInQ demo [(1, 0), (1 / 2, 1)] = .ok rs ∧ rs.length = 2 ∧
    calcInQ (demo.faster 2) [(2 * 1, 2 ^ 2 * 0), (2 * (1 / 2), 2 ^ 2 * 1)] = .ok (rs.map (fasterResult 2 demo.moncor)) ∧
    (demo.faster 2).efixed = 4 * demo.efixed := by
  obtain ⟨rs, h, hl, -⟩ := C61_spd demo [(1, 0), (1 / 2, 1)] (demo_valid _) fun p hp => by
    rcases List.mem_pair.1 hp with rfl | rfl <;> exact demo_reaches (by norm_num) (by norm_num) (by norm_num) (by norm_num)
  refine ⟨rs, h, hl, ?_, by norm_num [Settings.faster]⟩
  have := C214_faster demo (t := 2) (by norm_num) [(1, 0), (1 / 2, 1)]
  rw [h] at this
  exact this

end Verif.Resolution
