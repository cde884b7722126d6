import Verif.Resolution.PropsMosaic

/-!
# Property theorems: the horizontally focusing analyzer (C157)

The specification is the flight of `Verif.Resolution.Flight`, with another chance to pass the analyzer.  The
analyzer consists of blades around the sample.  The blade in the direction `v 4` is turned by `v 4`, so that
every blade reflects the nominal wavevector; a crystallite is misset by its mosaic with respect to its blade.
The analyzer is seen from the sample under the angle `hcol[2]` (whole size, in arc minutes; a uniform
distribution, of which the Gaussian with the same variance is taken).  Whatever is reflected reaches the
detector.
-/

namespace Verif.Resolution

open Real Matrix
open Verif.Crystal (Fail npSqrt npArcsin npDiv)
open Verif.Tools (arctan2 quad SPD Closes)

/-- The standard deviation of the uniform distribution over an angle of `x` arc minutes. -/
noncomputable def spread (x : ℝ) : ℝ := x * (π / 180 / 60) / √12

/-- Minus twice the logarithm of the probability that a neutron with the angles `v`, reflected by
crystallites turned by `m`, passes collimators and crystals, if the analyzer is focusing. -/
noncomputable def costFocus (s : Settings) (ki kf : ℝ) (v : Fin 8 → ℝ) (m : Fin 4 → ℝ) : ℝ :=
  (v 0 / divergence (s.hcol 0) ki) ^ 2 + (v 1 / divergence (s.hcol 1) ki) ^ 2 +
  (v 2 / divergence (s.vcol 0) ki) ^ 2 + (v 3 / divergence (s.vcol 1) ki) ^ 2 +
  (v 4 / spread (s.hcol 2)) ^ 2 +
  (v 6 / divergence (s.vcol 2) kf) ^ 2 + (v 7 / divergence (s.vcol 3) kf) ^ 2 +
  (m 0 / mosaics s 0) ^ 2 + (m 1 / mosaics s 1) ^ 2 + ((m 2 - v 4) / mosaics s 2) ^ 2 + (m 3 / mosaics s 3) ^ 2

/-! ## The form of the code -/

/-- The projection on the angles other than the horizontal ones after the sample. -/
def d8 : Matrix (Fin 8) (Fin 8) ℝ := diagonal (p8 1 1 0 1)
def d6 : Matrix (Fin 6) (Fin 6) ℝ := diagonal (p6 1 1 0 1)

/-- The block that `focusBlock` puts in. -/
noncomputable def delta (c : Conf) (l : Loop) (k : Kin) : Matrix (Fin 6) (Fin 6) ℝ :=
  diagonal ![0, 0, 0, (tan k.thetaa / (c.etaa * k.kf)) ^ 2, (1 / (k.kf * l.alpha 2)) ^ 2, 0]

/-- The weights of the angles with a focusing analyzer. -/
noncomputable def focusH (c : Conf) (l : Loop) (k : Kin) : Matrix (Fin 8) (Fin 8) ℝ :=
  d8ᵀ * (matG l + (matC k)ᵀ * matF c * matC k) * d8 + (matA k)ᵀ * delta c l k * matA k

theorem focus_eq {c : Conf} {l : Loop} {k : Kin} {N : Matrix (Fin 6) (Fin 6) ℝ} (comm : d6 * N = N * d6) :
    focusBlock c l k N = d6 * N * d6 + delta c l k := by
  have z : ∀ i j, p6 1 1 0 1 i ≠ p6 1 1 0 1 j → N i j = 0 := fun i j h => comm_zero comm h
  have zs : ∀ i : Fin 6, p6 1 1 0 1 i = 0 → ∀ j, p6 1 1 0 1 j = 1 → N i j = 0 ∧ N j i = 0 := fun i hi j hj =>
    ⟨z i j (by rw [hi, hj]; norm_num), z j i (by rw [hi, hj]; norm_num)⟩
  have h3 := zs 3 rfl
  have h4 := zs 4 rfl
  ext i j
  unfold d6 delta
  rw [Matrix.add_apply, mul_diagonal, diagonal_mul]
  fin_cases i <;> fin_cases j <;>
    simp [focusBlock, p6, (h3 0 rfl), (h3 1 rfl), (h3 2 rfl), (h3 5 rfl), (h4 0 rfl), (h4 1 rfl),
      (h4 2 rfl), (h4 5 rfl)]

theorem d6_sq : d6 * d6 = d6 := by
  unfold d6
  rw [diagonal_mul_diagonal]
  congr 1
  ext i
  fin_cases i <;> simp [p6]

theorem d8_sq : d8 * d8 = d8 := by
  unfold d8
  rw [diagonal_mul_diagonal]
  congr 1
  ext i
  fin_cases i <;> simp [p8]

theorem d6_delta (c : Conf) (l : Loop) (k : Kin) : d6 * delta c l k = 0 := by
  unfold d6 delta
  rw [diagonal_mul_diagonal, ← diagonal_zero]
  congr 1
  ext i
  fin_cases i <;> simp [p6]

theorem delta_d6 (c : Conf) (l : Loop) (k : Kin) : delta c l k * d6 = 0 := by
  unfold d6 delta
  rw [diagonal_mul_diagonal, ← diagonal_zero]
  congr 1
  ext i
  fin_cases i <;> simp [p6]

theorem matA_d (k : Kin) : matA k * d8 = d6 * matA k := matA_comm 1 1 0 1 k

theorem matA_dT (k : Kin) : d8 * (matA k)ᵀ = (matA k)ᵀ * d6 := by
  have := congrArg transpose (matA_d k)
  simpa only [transpose_mul, d8, d6, diagonal_transpose] using this

theorem focusH_posDef {c : Conf} {l : Loop} {k : Kin} {q : ℝ} (hc : c.Mosaics) (hl : l.Good) (hk : k.Good q) :
    (focusH c l k).PosDef := by
  have hH := cnH_posDef hc hl k
  have ta : tan k.thetaa ≠ 0 := left_ne_zero_of_mul hk.sa.ne'
  have apos : 0 < (tan k.thetaa / (c.etaa * k.kf)) ^ 2 :=
    sqpos (div_ne_zero ta (mul_ne_zero hc.a hk.kf.ne'))
  have bpos : 0 < (1 / (k.kf * l.alpha 2)) ^ 2 :=
    sqpos (div_ne_zero one_ne_zero (mul_ne_zero hk.kf.ne' (hl.alpha 2)))
  have dps : (delta c l k).PosSemidef := PosSemidef.diagonal fun i => by
    fin_cases i <;> first | exact le_rfl | exact apos.le | exact bpos.le
  have ps1 : (d8ᵀ * (matG l + (matC k)ᵀ * matF c * matC k) * d8).PosSemidef := gram_posSemidef hH _
  have ps2 : ((matA k)ᵀ * delta c l k * matA k).PosSemidef := by
    rw [← conjTranspose_eq_transpose_of_trivial]
    exact dps.conjTranspose_mul_mul_same _
  unfold focusH
  refine PosDef.of_dotProduct_mulVec_pos (ps1.add ps2).isHermitian fun {x} hx => ?_
  rw [add_mulVec, dotProduct_add]
  simp only [star_trivial]
  have e1 : x ⬝ᵥ ((d8ᵀ * (matG l + (matC k)ᵀ * matF c * matC k) * d8) *ᵥ x) =
      (d8 *ᵥ x) ⬝ᵥ ((matG l + (matC k)ᵀ * matF c * matC k) *ᵥ (d8 *ᵥ x)) := by
    rw [← mulVec_mulVec, ← mulVec_mulVec, dotProduct_mulVec, vecMul_transpose]
  have e2 : x ⬝ᵥ (((matA k)ᵀ * delta c l k * matA k) *ᵥ x) =
      (tan k.thetaa / (c.etaa * k.kf)) ^ 2 * (matA k *ᵥ x) 3 ^ 2 + (1 / (k.kf * l.alpha 2)) ^ 2 * (matA k *ᵥ x) 4 ^ 2 := by
    rw [← mulVec_mulVec, ← mulVec_mulVec, dotProduct_mulVec, vecMul_transpose]
    generalize matA k *ᵥ x = y
    simp [delta, mulVec_diagonal, dotProduct, Fin.sum_univ_succ]
    ring
  have n1 := ps1.dotProduct_mulVec_nonneg x
  have n2 := ps2.dotProduct_mulVec_nonneg x
  simp only [star_trivial] at n1 n2
  rw [e1] at n1 ⊢
  by_cases hz : d8 *ᵥ x = 0
  · have hz' (i : Fin 8) : p8 1 1 0 1 i * x i = 0 := by
      have := congrFun hz i
      rwa [d8, mulVec_diagonal] at this
    have ey : (matA k *ᵥ x) 3 = k.kf / 2 / tan k.thetaa * (x 4 - x 5) ∧ (matA k *ᵥ x) 4 = k.kf * x 4 := by
      constructor <;> simp [matA, mulVec, dotProduct, Fin.sum_univ_succ] <;> ring
    have h45 : x 4 ≠ 0 ∨ x 4 - x 5 ≠ 0 := by
      by_contra hcon
      push Not at hcon
      apply hx
      have h5 : x 5 = 0 := by linarith [hcon.1, hcon.2]
      ext i
      have := hz' i
      fin_cases i <;> simp [p8] at this ⊢ <;> first | exact this | exact hcon.1 | exact h5
    rw [e2, ey.1, ey.2]
    have hkf := hk.kf.ne'
    rcases h45 with h | h
    · have : 0 < (1 / (k.kf * l.alpha 2)) ^ 2 * (k.kf * x 4) ^ 2 := mul_pos bpos (sqpos (mul_ne_zero hkf h))
      have : 0 ≤ (tan k.thetaa / (c.etaa * k.kf)) ^ 2 * (k.kf / 2 / tan k.thetaa * (x 4 - x 5)) ^ 2 := by positivity
      linarith
    · have : 0 < (tan k.thetaa / (c.etaa * k.kf)) ^ 2 * (k.kf / 2 / tan k.thetaa * (x 4 - x 5)) ^ 2 :=
        mul_pos apos (sqpos (mul_ne_zero (div_ne_zero (div_ne_zero hkf two_ne_zero) ta) h))
      have : 0 ≤ (1 / (k.kf * l.alpha 2)) ^ 2 * (k.kf * x 4) ^ 2 := by positivity
      linarith
  · have := hH.dotProduct_mulVec_pos hz
    simp only [star_trivial] at this
    linarith

/-- Multiplication by `(matA k)ᵀ` can be cancelled. -/
theorem matAT_cancel {k : Kin} {q : ℝ} (hk : k.Good q) {n : ℕ} {X Y : Matrix (Fin 6) (Fin n) ℝ} (h : (matA k)ᵀ * X = (matA k)ᵀ * Y) :
    X = Y := by
  ext i j
  have hz : (fun i => X i j - Y i j) = 0 := by
    apply matA_inj hk
    ext m
    have := congrFun (congrFun h m) j
    simp only [Matrix.mul_apply, transpose_apply] at this
    simp only [vecMul, dotProduct, sub_mul, Finset.sum_sub_distrib, Pi.zero_apply]
    rw [sub_eq_zero]
    simpa only [mul_comm] using this
  exact sub_eq_zero.1 (congrFun hz i)

/-- On the other groups of angles the focusing analyzer changes nothing. -/
theorem focus_same {c : Conf} {l : Loop} {k : Kin} {q : ℝ} (hc : c.Mosaics) (hl : l.Good) (hk : k.Good q) :
    d6 * (matA k * (focusH c l k)⁻¹ * (matA k)ᵀ) = d6 * (matA k * (matG l + (matC k)ᵀ * matF c * matC k)⁻¹ * (matA k)ᵀ) := by
  have hH := cnH_posDef hc hl k
  have hF := focusH_posDef hc hl hk
  have uH : IsUnit (matG l + (matC k)ᵀ * matF c * matC k).det := hH.det_pos.ne'.isUnit
  have uF : IsUnit (focusH c l k).det := hF.det_pos.ne'.isUnit
  have comm : d8 * (matG l + (matC k)ᵀ * matF c * matC k) = (matG l + (matC k)ᵀ * matF c * matC k) * d8 := cnH_comm 1 1 0 1 c l k
  have t8 : d8ᵀ = d8 := by unfold d8; rw [diagonal_transpose]
  have key : d8 * focusH c l k = (matG l + (matC k)ᵀ * matF c * matC k) * d8 := by
    unfold focusH
    rw [Matrix.mul_add, t8]
    have : d8 * ((matA k)ᵀ * delta c l k * matA k) = 0 := by
      rw [← Matrix.mul_assoc, ← Matrix.mul_assoc, matA_dT, Matrix.mul_assoc (matA k)ᵀ, d6_delta]
      simp
    rw [this, add_zero, comm, Matrix.mul_assoc _ d8 d8, d8_sq, ← Matrix.mul_assoc, comm, Matrix.mul_assoc, d8_sq]
  set H := matG l + (matC k)ᵀ * matF c * matC k
  have e : d8 * (focusH c l k)⁻¹ = d8 * H⁻¹ := by
    have h1 : H⁻¹ * (d8 * focusH c l k) * (focusH c l k)⁻¹ = H⁻¹ * (H * d8) * (focusH c l k)⁻¹ := by rw [key]
    rw [Matrix.mul_assoc, Matrix.mul_assoc d8, mul_nonsing_inv _ uF, Matrix.mul_one, nonsing_inv_mul_cancel_left _ _ uH] at h1
    rw [← h1]
    exact (comm_inv hH comm).symm
  rw [← Matrix.mul_assoc, ← Matrix.mul_assoc, ← matA_d, Matrix.mul_assoc (matA k) d8, e]
  rw [← Matrix.mul_assoc (matA k) d8, matA_d]
  simp only [Matrix.mul_assoc]

/-- The matrix of the code with a focusing analyzer. -/
theorem focus_inv {c : Conf} {l : Loop} {k : Kin} {q : ℝ} (hc : c.Mosaics) (hl : l.Good) (hk : k.Good q) :
    (focusBlock c l k (matA k * (matG l + (matC k)ᵀ * matF c * matC k)⁻¹ * (matA k)ᵀ)⁻¹)⁻¹ =
      matA k * (focusH c l k)⁻¹ * (matA k)ᵀ := by
  have hH := cnH_posDef hc hl k
  have hF := focusH_posDef hc hl hk
  have hN := congr_posDef hH.inv (matA k) (matA_inj hk)
  have uF : IsUnit (focusH c l k).det := hF.det_pos.ne'.isUnit
  have comm : d6 * (matA k * (matG l + (matC k)ᵀ * matF c * matC k)⁻¹ * (matA k)ᵀ) =
    (matA k * (matG l + (matC k)ᵀ * matF c * matC k)⁻¹ * (matA k)ᵀ) * d6 := cnN_comm 1 1 0 1 hc hl k
  have same := focus_same hc hl hk
  have t8 : d8ᵀ = d8 := by unfold d8; rw [diagonal_transpose]
  rw [focus_eq (comm_inv hN comm)]
  set H := matG l + (matC k)ᵀ * matF c * matC k
  set N := matA k * H⁻¹ * (matA k)ᵀ
  have uN : IsUnit N.det := hN.det_pos.ne'.isUnit
  refine inv_eq_right_inv ?_
  rw [Matrix.add_mul]
  have h1 : d6 * N⁻¹ * d6 * (matA k * (focusH c l k)⁻¹ * (matA k)ᵀ) = d6 := by
    rw [Matrix.mul_assoc, same, comm, Matrix.mul_assoc d6, nonsing_inv_mul_cancel_left _ _ uN, d6_sq]
  have h2 : delta c l k * (matA k * (focusH c l k)⁻¹ * (matA k)ᵀ) = 1 - d6 := by
    apply matAT_cancel hk
    have e8 : (1 - d8) * focusH c l k = (matA k)ᵀ * delta c l k * matA k := by
      unfold focusH
      rw [Matrix.mul_add, t8, ← Matrix.mul_assoc, ← Matrix.mul_assoc (1 - d8), Matrix.sub_mul, d8_sq, Matrix.one_mul, sub_self,
        Matrix.zero_mul, Matrix.zero_mul, zero_add, Matrix.sub_mul, Matrix.one_mul, ← Matrix.mul_assoc, ← Matrix.mul_assoc, matA_dT,
        Matrix.mul_assoc (matA k)ᵀ d6, d6_delta]
      simp
    calc (matA k)ᵀ * (delta c l k * (matA k * (focusH c l k)⁻¹ * (matA k)ᵀ))
        = ((matA k)ᵀ * delta c l k * matA k) * (focusH c l k)⁻¹ * (matA k)ᵀ := by simp only [Matrix.mul_assoc]
      _ = (1 - d8) * (matA k)ᵀ := by rw [← e8, Matrix.mul_assoc (1 - d8), mul_nonsing_inv _ uF, Matrix.mul_one]
      _ = (matA k)ᵀ * (1 - d6) := by rw [Matrix.sub_mul, matA_dT, Matrix.mul_sub, Matrix.one_mul, Matrix.mul_one]
  rw [h1, h2]
  abel

/-- What `pointAt` computes by the Cooper-Nathans method with a focusing analyzer. -/
theorem pointAt_focus {c : Conf} {l : Loop} {k : Kin} {q : ℝ} (hc : c.Good) (hl : l.Good) (hp : c.popovici = false)
    (hf : 0 < c.horifoc) (hk : k.Good q) (ha : c.taua < 2 * k.kf) (he : 0 < c.etaa) {X : M3} (hX : X.PosDef) :
    ∃ r RM, pointAt c l X k q = .ok (r, RM) ∧
      (matB k * matA k * (focusH c l k)⁻¹ * (matB k * matA k)ᵀ).PosDef ∧
      RM = (matB k * matA k * (focusH c l k)⁻¹ * (matB k * matA k)ᵀ +
        match c.etas with
        | none => 0
        | some (a, b) => diagonal ![0, q ^ 2 * a ^ 2, q ^ 2 * b ^ 2, 0])⁻¹ := by
  have hH := cnH_posDef hc.mosaics hl k
  have hN := congr_posDef hH.inv (matA k) (matA_inj hk)
  have hFN := congr_posDef (focusH_posDef hc.mosaics hl hk).inv (matA k) (matA_inj hk)
  have hM := congr_posDef hFN (matB k) (matB_inj hk)
  have hfb := focus_posDef hc.mosaics hl hk hN.inv (comm_inv hN (cnN_comm 1 1 0 1 hc.mosaics hl k))
  have hcore : coreMatrix c l k (matSinv c (turnShape k X))⁻¹ =
      .ok (matB k * (matA k * (focusH c l k)⁻¹ * (matA k)ᵀ) * (matB k)ᵀ,
        (matG l + (matC k)ᵀ * matF c * matC k).det) := by
    simp [coreMatrix, hp, cooperNathansN, npInv_ok hH, npInv_ok hN, npInv_ok hfb, ok_bind, if_pos hf, pure, Except.pure,
      focus_inv hc.mosaics hl hk]
  have e : matB k * (matA k * (focusH c l k)⁻¹ * (matA k)ᵀ) * (matB k)ᵀ =
      matB k * matA k * (focusH c l k)⁻¹ * (matB k * matA k)ᵀ := by
    rw [transpose_mul]; simp only [Matrix.mul_assoc]
  rw [e] at hcore hM
  obtain ⟨r, RM, h1, h2⟩ := pointAt_core hc hl hk ha he hX hcore hM hH.det_pos
  exact ⟨r, RM, h1, hM, h2⟩

/-- The matrix for one point, with the matrices of the code. -/
theorem calc_focus {s : Settings} (h : s.Valid 1) (hp : s.popovici = false) (hf : s.horifoc = some 1)
    {q w : ℝ} (hr : Reaches s q w) {ki kf tm ta tt : ℝ} (hn : IsNominal s q w ki kf tm ta tt) :
    ∃ c k r RM, decode s = .ok c ∧ k = ⟨ki, kf, tm, ta, tt, arctan2 (-kf * sin tt) (ki - kf * cos tt)⟩ ∧ k.Good q ∧
      c.Mosaics ∧ ((Loop.start s).advance c ki).Good ∧
      calcInQ s [(q, w)] = .ok [(r, RM)] ∧
      (matB k * matA k * (focusH c ((Loop.start s).advance c ki) k)⁻¹ * (matB k * matA k)ᵀ).PosDef ∧
      RM = (matB k * matA k * (focusH c ((Loop.start s).advance c ki) k)⁻¹ * (matB k * matA k)ᵀ +
        match s.sample.mosaic with
        | none => 0
        | some m => diagonal ![0, q ^ 2 * (m * arcmin) ^ 2, q ^ 2 * (s.sample.vmosaic.getD m * arcmin) ^ 2, 0])⁻¹ := by
  obtain ⟨c, hd, hc, hea, he, hi, hm, ha, sm, ss, sa⟩ := decode_ok h
  obtain ⟨k, hk, gk, gt⟩ := kinematics_ok he hi hm ha (sm ▸ h.mono.dir) (ss ▸ h.sample.dir) (sa ▸ h.ana.dir)
    h.mono.tau h.ana.tau hr
  have ek := kinematics_nominal he hi hm ha sm ss sa h.mono.dir h.sample.dir h.ana.dir hn hk
  have hki : k.ki = ki := by rw [ek]
  have hdec : c.popovici = s.popovici ∧ c.horifoc = s.horifoc.getD (-1) ∧
      c.etas = s.sample.mosaic.map fun m => (m * convert1, s.sample.vmosaic.getD m * convert1) := by
    have hd' := hd
    unfold decode at hd'
    cases ha : decodeArms s with
    | error e => rw [ha] at hd'; exact nomatch hd'
    | ok x =>
      rw [ha] at hd'
      simp only [ok_bind, pure, Except.pure] at hd'
      rw [← Except.ok.inj hd']
      exact ⟨rfl, rfl, rfl⟩
  have hl : ((Loop.start s).advance c k.ki).Good := advance_good (start_good h) c gk.ki
  obtain ⟨X, hX, pX⟩ := sshapeAt_ok h.sample (i := 0) (by omega)
  obtain ⟨r, RM, h1, h2, h3⟩ := pointAt_focus hc hl (hdec.1.trans hp) (by rw [hdec.2.1, hf]; simp) gk gt hea pX
  refine ⟨c, k, r, RM, hd, ek, gk, hc.mosaics, hki ▸ hl, ?_, hki ▸ h2, ?_⟩
  · unfold calcInQ
    simp only [hd, ok_bind, runLoop, hX, hk, h1]
    rfl
  · rw [h3, hki, hdec.2.2]
    cases s.sample.mosaic with
    | none => rfl
    | some m => simp only [Option.map_some, arcmin_eq]

theorem spread_eq {x : ℝ} (hx : 0 < x) (ki : ℝ) : guideDivergence (x * convert1 * √(8 * log 2 / 12)) ki = spread x := by
  have hl : 0 < log 2 := log_pos (by norm_num)
  have h1 := convert1_pos
  unfold guideDivergence
  rw [if_neg (not_lt.2 (by positivity))]
  have h8 : √(8 * log 2) ≠ 0 := by positivity
  rw [Real.sqrt_div (by positivity)]
  unfold spread convert1
  field_simp

theorem mosaics_eq {s : Settings} {c : Conf} (hd : decode s = .ok c) : mosaics s.asRead = ![c.etam, c.etamv, c.etaa, c.etaav] := by
  unfold decode at hd
  cases h : decodeArms s with
  | error e => rw [h] at hd; exact nomatch hd
  | ok x =>
    rw [h] at hd
    simp only [ok_bind, pure, Except.pure] at hd
    rw [← Except.ok.inj hd]
    simp only [mosaics, arcmin_eq, Settings.asRead]
    cases s.vmosaicUsed <;> rfl

theorem costFocus_eq {s : Settings} {c : Conf} (hd : decode s = .ok c) (hf : s.horifoc = some 1) (hs : 0 < s.hcol 2) (ki : ℝ)
    (v : Fin 8 → ℝ) {k : Kin} {q : ℝ} (hk : k.Good q) :
    costFocus s.asRead ki ki v (matC k *ᵥ v) = v ⬝ᵥ (focusH c ((Loop.start s).advance c ki) k *ᵥ v) := by
  have ha : ∀ i, i ≠ 2 → ((Loop.start s).advance c ki).alpha i = divergence (s.hcol i) ki := fun i hi => by
    simp only [Loop.advance, Loop.start]
    rw [if_neg (fun h => hi h.2), mul_one, divergence_eq]
  have ha2 : ((Loop.start s).advance c ki).alpha 2 = spread (s.hcol 2) := by
    simp only [Loop.advance, Loop.start]
    rw [if_pos ⟨hf, trivial⟩, spread_eq hs]
  have hb : ∀ i, ((Loop.start s).advance c ki).beta i = divergence (s.vcol i) ki := fun i => divergence_eq _ _
  have ta : tan k.thetaa ≠ 0 := left_ne_zero_of_mul hk.sa.ne'
  have hkf := hk.kf.ne'
  have e1 : v ⬝ᵥ ((d8ᵀ * (matG ((Loop.start s).advance c ki) + (matC k)ᵀ * matF c * matC k) * d8) *ᵥ v) =
      (d8 *ᵥ v) ⬝ᵥ (matG ((Loop.start s).advance c ki) *ᵥ (d8 *ᵥ v)) +
      (matC k *ᵥ (d8 *ᵥ v)) ⬝ᵥ (matF c *ᵥ (matC k *ᵥ (d8 *ᵥ v))) := by
    rw [← mulVec_mulVec, ← mulVec_mulVec, dotProduct_mulVec, vecMul_transpose, add_mulVec, dotProduct_add, ← mulVec_mulVec,
      ← mulVec_mulVec, dotProduct_mulVec _ (matC k)ᵀ, vecMul_transpose]
  have e2 : v ⬝ᵥ (((matA k)ᵀ * delta c ((Loop.start s).advance c ki) k * matA k) *ᵥ v) =
      (tan k.thetaa / (c.etaa * k.kf)) ^ 2 * (k.kf / 2 / tan k.thetaa * (v 4 - v 5)) ^ 2 +
        (1 / (k.kf * spread (s.hcol 2))) ^ 2 * (k.kf * v 4) ^ 2 := by
    have ey : (matA k *ᵥ v) 3 = k.kf / 2 / tan k.thetaa * (v 4 - v 5) ∧ (matA k *ᵥ v) 4 = k.kf * v 4 := by
      constructor <;> simp [matA, mulVec, dotProduct, Fin.sum_univ_succ] <;> ring
    rw [← mulVec_mulVec, ← mulVec_mulVec, dotProduct_mulVec, vecMul_transpose, ← ey.1, ← ey.2]
    generalize matA k *ᵥ v = y
    simp [delta, mulVec_diagonal, dotProduct, Fin.sum_univ_succ, ha2]
    ring
  have ed : d8 *ᵥ v = ![v 0, v 1, v 2, v 3, 0, 0, v 6, v 7] := by
    ext i
    rw [d8, mulVec_diagonal]
    fin_cases i <;> simp [p8]
  have eC (u : Fin 8 → ℝ) : matC k *ᵥ u = ![(u 0 + u 1) / 2, (u 2 - u 3) / (2 * sin k.thetam), (u 4 + u 5) / 2,
      (u 6 - u 7) / (2 * sin k.thetaa)] := by
    ext i
    fin_cases i <;> simp [matC, mulVec, dotProduct, Fin.sum_univ_succ] <;> ring
  unfold focusH
  rw [add_mulVec, dotProduct_add, e1, e2, ed, eC, eC]
  have f1 : (tan k.thetaa / (c.etaa * k.kf)) ^ 2 * (k.kf / 2 / tan k.thetaa * (v 4 - v 5)) ^ 2 =
      (((v 4 + v 5) / 2 - v 4) / c.etaa) ^ 2 := by
    rw [← mul_pow, show tan k.thetaa / (c.etaa * k.kf) * (k.kf / 2 / tan k.thetaa * (v 4 - v 5)) = -(((v 4 + v 5) / 2 - v 4) / c.etaa) by
      by_cases hc : c.etaa = 0
      · simp [hc]
      · field_simp; ring, neg_sq]
  have f2 : (1 / (k.kf * spread (s.hcol 2))) ^ 2 * (k.kf * v 4) ^ 2 = (v 4 / spread (s.hcol 2)) ^ 2 := by
    rw [← mul_pow]
    congr 1
    by_cases hc : spread (s.hcol 2) = 0
    · simp [hc]
    · field_simp
  rw [f1, f2]
  unfold costFocus
  rw [mosaics_eq hd]
  simp [Settings.asRead, matG, matF, mulVec_diagonal, dotProduct, Fin.sum_univ_succ, ha, hb]
  ring

theorem costFocus_read {s : Settings} (hg : s.Collimated) (hv : s.mono.vmosaic.getD s.mono.mosaic = s.mono.mosaic) (ki kf : ℝ) :
    costFocus s.asRead ki ki = costFocus s ki kf := by
  have hm : mosaics s.asRead = mosaics s := by
    unfold mosaics Settings.asRead
    dsimp only
    rw [hv]
    split_ifs
    · rw [hv]
    · rfl
  have e (x : ℝ) (hx : 0 < x) : divergence x ki = divergence x kf := by
    simp only [divergence, if_neg (not_lt.2 hx.le)]
  funext v m
  unfold costFocus
  rw [hm]
  simp only [Settings.asRead, e _ hg.v2, e _ hg.v3]

/-! ## C157 -/

/-- C157 (partial).  For every valid instrument used with the Cooper-Nathans method, with the attribute `horifoc`
of the instrument set to 1, without guides after the sample and without vertical mosaic of the monochromator, and every
point it reaches: the form of the resolution matrix at
a deviation `d` is the least cost of a neutron that, to first order, deviates by `d` and passes a focusing
analyzer.  Missing: guides after the sample and the vertical mosaic of the monochromator (as for C122); the flag is
 documented as an attribute of the analyzer, and set there it has no effect
(`C157_flag_false`). -/
theorem C157_focus_partial {s : Settings} (h : s.Valid 1) (hp : s.popovici = false) (hf : s.horifoc = some 1)
    (hg : s.Collimated) (hv : s.mono.vmosaic.getD s.mono.mosaic = s.mono.mosaic)
    (hmos : s.sample.mosaic = none) {q w : ℝ} (hr : Reaches s q w) {ki kf tm ta tt : ℝ}
    (hn : IsNominal s q w ki kf tm ta tt) :
    ∃ r RM, calcInQ s [(q, w)] = .ok [(r, RM)] ∧ ∀ d,
      IsLeast {x | ∃ v, fderiv ℝ (transfer q ki kf tm ta tt) 0 v = d ∧
        x = costFocus s ki kf v (fderiv ℝ (misset ki kf tm ta) 0 v)} (quad RM d) := by
  obtain ⟨c, k, r, RM, hd, ek, gk, hc, hl, hcalc, hM, hRM⟩ := calc_focus h hp hf hr hn
  rw [hmos] at hRM
  simp only [add_zero] at hRM
  have sm : sin tm ≠ 0 := by
    have := right_ne_zero_of_mul gk.sm.ne'
    rwa [ek] at this
  have sa : sin ta ≠ 0 := by
    have := right_ne_zero_of_mul gk.sa.ne'
    rwa [ek] at this
  have hki := hn.waveIn.1
  have hkf := hn.waveOut.1
  have dt := transfer_diff q (ki := ki) (kf := kf) tt sm sa
  have dm := misset_diff (ki := ki) (kf := kf) sm sa
  have ft := fderiv_of_lines dt (transfer_line sm sa hr.q hn.triangle.1 k ek)
  have fm := fderiv_of_lines dm (misset_line hki.ne' hkf.ne' sm sa k (by rw [ek]) (by rw [ek]))
  refine ⟨r, RM, hcalc, fun d => ?_⟩
  have hlc := least_cost (focusH_posDef hc hl gk) _ hM d
  rw [quad_eq, hRM]
  simp only [← costFocus_read hg hv ki kf, ft, fm, costFocus_eq hd hf hg.h2 ki _ gk]
  exact hlc

/-- C157 with a sample mosaic (partial).  Missing: as in `C157_focus_partial`. -/
theorem C157_focus_mosaic_partial {s : Settings} (h : s.Valid 1) (hp : s.popovici = false) (hf : s.horifoc = some 1)
    (hg : s.Collimated) (hv : s.mono.vmosaic.getD s.mono.mosaic = s.mono.mosaic)
    {m : ℝ} (hmos : s.sample.mosaic = some m) (m0 : 0 < m) (v0 : Pos s.sample.vmosaic) {q w : ℝ} (hr : Reaches s q w)
    {ki kf tm ta tt : ℝ} (hn : IsNominal s q w ki kf tm ta tt) :
    ∃ r RM, calcInQ s [(q, w)] = .ok [(r, RM)] ∧ ∀ d,
      IsLeast {x | ∃ v e, fderiv ℝ (transfer q ki kf tm ta tt) 0 v + sampleTurn q e = d ∧
        x = costFocus s ki kf v (fderiv ℝ (misset ki kf tm ta) 0 v) +
          ((e 0 / (m * arcmin)) ^ 2 + (e 1 / (s.sample.vmosaic.getD m * arcmin)) ^ 2)} (quad RM d) := by
  obtain ⟨c, k, r, RM, hd, ek, gk, hc, hl, hcalc, hM, hRM⟩ := calc_focus h hp hf hr hn
  have sm : sin tm ≠ 0 := by
    have := right_ne_zero_of_mul gk.sm.ne'
    rwa [ek] at this
  have sa : sin ta ≠ 0 := by
    have := right_ne_zero_of_mul gk.sa.ne'
    rwa [ek] at this
  have dt := transfer_diff q (ki := ki) (kf := kf) tt sm sa
  have dm := misset_diff (ki := ki) (kf := kf) sm sa
  have ft := fderiv_of_lines dt (transfer_line sm sa hr.q hn.triangle.1 k ek)
  have fm := fderiv_of_lines dm (misset_line hn.waveIn.1.ne' hn.waveOut.1.ne' sm sa k (by rw [ek]) (by rw [ek]))
  have ac : 0 < arcmin := by rw [arcmin_eq]; exact convert1_pos
  have a0 : 0 < m * arcmin := by positivity
  have b0 : 0 < s.sample.vmosaic.getD m * arcmin := mul_pos (getD_pos v0 m0) ac
  rw [hmos] at hRM
  simp only at hRM
  set a := m * arcmin
  set b := s.sample.vmosaic.getD m * arcmin
  refine ⟨r, RM, hcalc, fun d => ?_⟩
  have hlc := least_mosaic (focusH_posDef hc hl gk) _ hM (q := q) a0 b0 d
  rw [← hRM] at hlc
  rw [quad_eq]
  simp only [← costFocus_read hg hv ki kf, ft, fm, costFocus_eq hd hf hg.h2 ki _ gk]
  exact hlc

/-- The instrument with its flag set. -/
def Settings.focusing (s : Settings) : Settings := { s with horifoc := some 1 }

/-- With a flat analyzer, length and direction of the final wavevector are correlated. -/
theorem flat_correlated {c : Conf} {l : Loop} {k : Kin} {q : ℝ} (hc : c.Mosaics) (hl : l.Good) (hk : k.Good q) :
    (matA k * (matG l + (matC k)ᵀ * matF c * matC k)⁻¹ * (matA k)ᵀ) 3 4 ≠ 0 := by
  have hH := cnH_posDef hc hl k
  have uH : IsUnit (matG l + (matC k)ᵀ * matF c * matC k).det := hH.det_pos.ne'.isUnit
  have ta : tan k.thetaa ≠ 0 := left_ne_zero_of_mul hk.sa.ne'
  have hkf := hk.kf.ne'
  have ent : ∀ j : Fin 8, (matG l + (matC k)ᵀ * matF c * matC k) 5 j =
      ![0, 0, 0, 0, 1 / (4 * c.etaa ^ 2), 1 / l.alpha 3 ^ 2 + 1 / (4 * c.etaa ^ 2), 0, 0] j ∧
      (matG l + (matC k)ᵀ * matF c * matC k) 4 j =
      ![0, 0, 0, 0, 1 / l.alpha 2 ^ 2 + 1 / (4 * c.etaa ^ 2), 1 / (4 * c.etaa ^ 2), 0, 0] j := by
    intro j
    have hCF : ∀ i : Fin 8, ((matC k)ᵀ * matF c * matC k) i j = ∑ m, matC k m i * (1 / (![c.etam, c.etamv, c.etaa, c.etaav] m) ^ 2) * matC k m j := by
      intro i
      rw [matF, Matrix.mul_apply]
      refine Finset.sum_congr rfl fun m _ => ?_
      rw [mul_diagonal, transpose_apply]
    rw [Matrix.add_apply, Matrix.add_apply, hCF, hCF]
    fin_cases j <;> simp [matG, matC, Fin.sum_univ_succ] <;> ring_nf <;> trivial
  set H := matG l + (matC k)ᵀ * matF c * matC k
  have hcol (i : Fin 8) : ∑ j, H i j * H⁻¹ j 4 = (1 : Matrix (Fin 8) (Fin 8) ℝ) i 4 := by
    rw [← mul_nonsing_inv H uH, Matrix.mul_apply]
  have c5 := hcol 5
  have c4 := hcol 4
  simp only [fun j => (ent j).1, fun j => (ent j).2] at c4 c5
  simp [Fin.sum_univ_succ] at c4 c5
  have e : (matA k * H⁻¹ * (matA k)ᵀ) 3 4 = k.kf / 2 / tan k.thetaa * k.kf * (H⁻¹ 4 4 - H⁻¹ 5 4) := by
    generalize H⁻¹ = Y
    simp [Matrix.mul_apply, matA, Fin.sum_univ_succ, vecMul, dotProduct]
    ring
  rw [e]
  intro h0
  have h1 : H⁻¹ 4 4 = H⁻¹ 5 4 := by
    rcases mul_eq_zero.1 h0 with h | h
    · exact absurd h (mul_ne_zero (div_ne_zero (div_ne_zero hkf two_ne_zero) ta) hkf)
    · exact sub_eq_zero.1 h
  have he : 0 < c.etaa ^ 2 := sqpos hc.a
  have ha3 : 0 < l.alpha 3 ^ 2 := sqpos (hl.alpha 3)
  have h2 : H⁻¹ 5 4 = 0 := by
    rw [h1] at c5
    have : (1 / (4 * c.etaa ^ 2) + (1 / l.alpha 3 ^ 2 + 1 / (4 * c.etaa ^ 2))) * H⁻¹ 5 4 = 0 := by
      rw [← c5]; field_simp
    rcases mul_eq_zero.1 this with h | h
    · have : 0 < 1 / (4 * c.etaa ^ 2) + (1 / l.alpha 3 ^ 2 + 1 / (4 * c.etaa ^ 2)) := by positivity
      linarith
    · exact h
  rw [h1, h2] at c4
  norm_num at c4

/-- With a focusing analyzer they are not. -/
theorem focus_uncorrelated {c : Conf} {l : Loop} {k : Kin} {q : ℝ} (hc : c.Mosaics) (hl : l.Good) (hk : k.Good q) :
    (matA k * (focusH c l k)⁻¹ * (matA k)ᵀ) 3 4 = 0 := by
  have hH := cnH_posDef hc hl k
  have hN := congr_posDef hH.inv (matA k) (matA_inj hk)
  have hfb := focus_posDef hc hl hk hN.inv (comm_inv hN (cnN_comm 1 1 0 1 hc hl k))
  have comm := comm_inv hN (cnN_comm 1 1 0 1 hc hl k)
  have ta : tan k.thetaa ≠ 0 := left_ne_zero_of_mul hk.sa.ne'
  have apos : (tan k.thetaa / (c.etaa * k.kf)) ^ 2 ≠ 0 :=
    (sqpos (div_ne_zero ta (mul_ne_zero hc.a hk.kf.ne'))).ne'
  rw [← focus_inv hc hl hk]
  have h := congrFun (congrFun (mul_nonsing_inv _ hfb.det_pos.ne'.isUnit) 3) 4
  rw [Matrix.mul_apply] at h
  set P := (focusBlock c l k (matA k * (matG l + (matC k)ᵀ * matF c * matC k)⁻¹ * (matA k)ᵀ)⁻¹)⁻¹
  rw [focus_eq comm] at h
  have row (j : Fin 6) : (d6 * (matA k * (matG l + (matC k)ᵀ * matF c * matC k)⁻¹ * (matA k)ᵀ)⁻¹ * d6 + delta c l k) 3 j =
      ![0, 0, 0, (tan k.thetaa / (c.etaa * k.kf)) ^ 2, 0, 0] j := by
    rw [Matrix.add_apply, d6, mul_diagonal, diagonal_mul, delta, diagonal_apply]
    fin_cases j <;> simp [p6]
  simp only [row] at h
  simp [Fin.sum_univ_succ] at h
  rcases h with h | h
  · exact absurd (by rcases h with h | h | h <;> simp [h]) apos
  · exact h

/-- The two analyzers give different matrices (even with different divergences before the analyzer). -/
theorem focus_differs {c : Conf} {l l' : Loop} {k : Kin} {q : ℝ} (hc : c.Mosaics) (hl : l.Good) (hl' : l'.Good) (hk : k.Good q)
    (same : d6 * (matA k * (matG l + (matC k)ᵀ * matF c * matC k)⁻¹ * (matA k)ᵀ) = d6 * (matA k * (matG l' + (matC k)ᵀ * matF c * matC k)⁻¹ * (matA k)ᵀ)) :
    matB k * matA k * (focusH c l' k)⁻¹ * (matB k * matA k)ᵀ ≠
      matB k * matA k * (matG l + (matC k)ᵀ * matF c * matC k)⁻¹ * (matB k * matA k)ᵀ := by
  intro heq
  have h1 := focus_same hc hl' hk
  have h2 := flat_correlated hc hl hk
  have h3 := focus_uncorrelated hc hl' hk
  have hH := cnH_posDef hc hl k
  have s1 := (congr_posDef hH.inv (matA k) (matA_inj hk)).isHermitian.eq
  have s2 := (congr_posDef (focusH_posDef hc hl' hk).inv (matA k) (matA_inj hk)).isHermitian.eq
  rw [conjTranspose_eq_transpose_of_trivial] at s1 s2
  rw [← same] at h1
  have e (Y : Matrix (Fin 8) (Fin 8) ℝ) : matB k * matA k * Y * (matB k * matA k)ᵀ = matB k * (matA k * Y * (matA k)ᵀ) * (matB k)ᵀ := by
    rw [transpose_mul]; simp only [Matrix.mul_assoc]
  rw [e, e] at heq
  set N' := matA k * (focusH c l' k)⁻¹ * (matA k)ᵀ
  set N := matA k * (matG l + (matC k)ᵀ * matF c * matC k)⁻¹ * (matA k)ᵀ
  have hX : matB k * (N' - N) * (matB k)ᵀ = 0 := by rw [Matrix.mul_sub, Matrix.sub_mul, heq, sub_self]
  have z1 (i j : Fin 6) : p6 1 1 0 1 i * (N' - N) i j = 0 := by
    have := congrFun (congrFun h1 i) j
    rw [d6, diagonal_mul, diagonal_mul] at this
    rw [Matrix.sub_apply, mul_sub, this, sub_self]
  have sX (i j : Fin 6) : (N' - N) i j = (N' - N) j i := by
    have a1 := congrFun (congrFun s1 i) j
    have a2 := congrFun (congrFun s2 i) j
    rw [transpose_apply] at a1 a2
    rw [Matrix.sub_apply, Matrix.sub_apply, a1, a2]
  have h34 : (N' - N) 3 4 = - N 3 4 := by rw [Matrix.sub_apply, h3, zero_sub]
  generalize N' - N = X at *
  have r (i j : Fin 6) (hi : p6 1 1 0 1 i = 1) : X i j = 0 := by
    have := z1 i j
    rwa [hi, one_mul] at this
  have r0 := fun j => r 0 j rfl
  have r1 := fun j => r 1 j rfl
  have r2 := fun j => r 2 j rfl
  have r5 := fun j => r 5 j rfl
  have q0 := fun j => (sX j 0).trans (r0 j)
  have q1 := fun j => (sX j 1).trans (r1 j)
  have q2 := fun j => (sX j 2).trans (r2 j)
  have q5 := fun j => (sX j 5).trans (r5 j)
  have b33 := congrFun (congrFun hX 3) 3
  have b03 := congrFun (congrFun hX 0) 3
  have b13 := congrFun (congrFun hX 1) 3
  have hkf := hk.kf.ne'
  have hc2 : convert2 ≠ 0 := by norm_num [convert2]
  simp [Matrix.mul_apply, vecMul, dotProduct, matB, Fin.sum_univ_succ, r0, r1, r2, r5, q0, q1, q2, q5, hkf, hc2] at b33
  simp [Matrix.mul_apply, vecMul, dotProduct, matB, Fin.sum_univ_succ, r0, r1, r2, r5, q0, q1, q2, q5, hkf, hc2, b33] at b03
  simp [Matrix.mul_apply, vecMul, dotProduct, matB, Fin.sum_univ_succ, r0, r1, r2, r5, q0, q1, q2, q5, hkf, hc2, b33] at b13
  have h43 := sX 4 3
  have h0 : X 3 4 = 0 := by
    rw [← h43]
    rcases b03 with hs | h
    · rcases b13 with hcs | h
      · have := sin_sq_add_cos_sq (k.phi - k.s2theta)
        rw [hs, hcs] at this
        norm_num at this
      · exact h
    · exact h
  rw [h0] at h34
  exact h2 (by linarith)

/-- The divergence before the analyzer matters only to the horizontal angles after the sample. -/
theorem alpha2_same {c : Conf} {l l' : Loop} (hc : c.Mosaics) (hl : l.Good) (hl' : l'.Good) (k : Kin)
    (ha : ∀ i, i ≠ 2 → l.alpha i = l'.alpha i) (hb : ∀ i, l.beta i = l'.beta i) :
    d6 * (matA k * (matG l + (matC k)ᵀ * matF c * matC k)⁻¹ * (matA k)ᵀ) = d6 * (matA k * (matG l' + (matC k)ᵀ * matF c * matC k)⁻¹ * (matA k)ᵀ) := by
  have hH := cnH_posDef hc hl k
  have hH' := cnH_posDef hc hl' k
  have comm : d8 * (matG l + (matC k)ᵀ * matF c * matC k) = (matG l + (matC k)ᵀ * matF c * matC k) * d8 := cnH_comm 1 1 0 1 c l k
  have key : d8 * (matG l' + (matC k)ᵀ * matF c * matC k) = (matG l + (matC k)ᵀ * matF c * matC k) * d8 := by
    rw [← comm, Matrix.mul_add, Matrix.mul_add]
    congr 1
    unfold d8 matG
    rw [diagonal_mul_diagonal, diagonal_mul_diagonal]
    congr 1
    ext i
    fin_cases i <;> simp [p8, ha, hb]
  have uH : IsUnit (matG l + (matC k)ᵀ * matF c * matC k).det := hH.det_pos.ne'.isUnit
  have uH' : IsUnit (matG l' + (matC k)ᵀ * matF c * matC k).det := hH'.det_pos.ne'.isUnit
  set H := matG l + (matC k)ᵀ * matF c * matC k
  set H' := matG l' + (matC k)ᵀ * matF c * matC k
  have e : d8 * H'⁻¹ = d8 * H⁻¹ := by
    have h1 : H⁻¹ * (d8 * H') * H'⁻¹ = H⁻¹ * (H * d8) * H'⁻¹ := by rw [key]
    rw [Matrix.mul_assoc, Matrix.mul_assoc d8, mul_nonsing_inv _ uH', Matrix.mul_one, nonsing_inv_mul_cancel_left _ _ uH] at h1
    rw [← h1]
    exact (comm_inv hH comm).symm
  have f (Y : Matrix (Fin 8) (Fin 8) ℝ) : d6 * (matA k * Y * (matA k)ᵀ) = matA k * (d8 * Y) * (matA k)ᵀ := by
    rw [← Matrix.mul_assoc, ← Matrix.mul_assoc, ← matA_d, Matrix.mul_assoc (matA k) d8]
  rw [f, f, e]

/-- Symmetric matrices with the same form are equal. -/
theorem quad_ext {n : ℕ} {X Y : Matrix (Fin n) (Fin n) ℝ} (hX : X.PosDef) (hY : Y.PosDef) (h : ∀ d, quad X d = quad Y d) : X = Y := by
  have hx := ((posDef_iff_spd X).1 hX).symm
  have hy := ((posDef_iff_spd Y).1 hY).symm
  ext i j
  have e (Z : Matrix (Fin n) (Fin n) ℝ) (hz : ∀ k l, Z k l = Z l k) :
      quad Z (Pi.single i 1 + Pi.single j 1) - quad Z (Pi.single i 1) - quad Z (Pi.single j 1) = 2 * Z i j := by
    rw [quad_eq, quad_eq, quad_eq, mulVec_add, dotProduct_add, add_dotProduct, add_dotProduct]
    simp only [single_one_dotProduct, mulVec_single_one, col_apply]
    rw [hz j i]
    ring
  have h1 := e X hx
  rw [h, h, h, e Y hy] at h1
  linarith

theorem decode_focusing {s : Settings} {c : Conf} (hd : decode s = .ok c) : decode s.focusing = .ok { c with horifoc := 1 } := by
  unfold decode at hd ⊢
  have e : decodeArms s.focusing = decodeArms s := rfl
  rw [e]
  cases h : decodeArms s with
  | error e => rw [h] at hd; exact nomatch hd
  | ok x =>
    rw [h] at hd
    simp only [ok_bind, pure, Except.pure] at hd ⊢
    rw [← Except.ok.inj hd]
    rfl

/-- A triple-axis spectrometer with the attribute `horifoc` of its analyzer (instrument/analyzer.py:66, 73), which is
-1 if it is not given. -/
structure Spectrometer where
  settings : Settings
  anaHorifoc : ℝ

/-- instrument/tas_instrument.py:598, 712-714: `calc_resolution_in_Q_coords` takes `horifoc` from the instrument, not
from `ana`. -/
noncomputable def Spectrometer.calc (o : Spectrometer) (pts : List (ℝ × ℝ)) : Except Fail (List (ℝ × M4)) :=
  calcInQ o.settings pts

/-- C157 is false: if the flag is set where it is documented, on the analyzer, the matrix is not the one of a focusing
analyzer, at no point of no instrument. -/
theorem C157_flag_false {o : Spectrometer} (_ : o.anaHorifoc = 1) (h : o.settings.Valid 1) (hp : o.settings.popovici = false)
    (hf : o.settings.horifoc = none) (hg : o.settings.Collimated)
    (hv : o.settings.mono.vmosaic.getD o.settings.mono.mosaic = o.settings.mono.mosaic) (hmos : o.settings.sample.mosaic = none) {q w : ℝ}
    (hr : Reaches o.settings q w) {ki kf tm ta tt : ℝ} (hn : IsNominal o.settings q w ki kf tm ta tt) :
    ∃ r RM, o.calc [(q, w)] = .ok [(r, RM)] ∧ ∃ d,
      ¬ IsLeast {x | ∃ v, fderiv ℝ (transfer q ki kf tm ta tt) 0 v = d ∧
        x = costFocus o.settings ki kf v (fderiv ℝ (misset ki kf tm ta) 0 v)} (quad RM d) := by
  obtain ⟨s, a⟩ := o
  simp only at h hp hf hg hv hmos hr hn
  obtain ⟨c, k, r, RM, hd, ek, gk, hc, hl, hcalc, hM, hRM⟩ := calc_cn h hp (by rw [hf]; norm_num) hr hn
  have h' : s.focusing.Valid 1 := ⟨h.mono, h.ana, h.guide, h.monitor, h.detector, h.sample, h.hcol, h.vcol, h.arms⟩
  have hr' : Reaches s.focusing q w := ⟨hr.ei, hr.ef, hr.mono, hr.ana, hr.closes, hr.q⟩
  have hn' : IsNominal s.focusing q w ki kf tm ta tt := ⟨hn.waveIn, hn.waveOut, hn.braggIn, hn.braggOut, hn.triangle⟩
  obtain ⟨c', k', r', RM', hd', ek', gk', hc', hl', hcalc', hM', hRM'⟩ := calc_focus h' hp rfl hr' hn'
  rw [show s.focusing.sample.mosaic = none from hmos] at hRM'
  simp only [add_zero] at hRM'
  obtain ⟨r'', RM'', hcalc'', hleast⟩ := C157_focus_partial h' hp rfl ⟨hg.h2, hg.h3, hg.v2, hg.v3⟩ hv hmos hr' hn'
  rw [hcalc'] at hcalc''
  obtain ⟨rfl, rfl⟩ : r' = r'' ∧ RM' = RM'' := by
    have := Except.ok.inj hcalc''
    simpa using this
  refine ⟨r, RM, hcalc, ?_⟩
  by_contra hcon
  push Not at hcon
  have hq : ∀ d, quad RM d = quad RM' d := fun d => (hcon d).unique (hleast d)
  rw [hmos] at hRM
  simp only [add_zero] at hRM
  have heq := quad_ext (hRM ▸ hM.inv) (hRM' ▸ hM'.inv) hq
  rw [hRM, hRM'] at heq
  have hinv := congrArg (fun X : M4 => X⁻¹) heq
  rw [nonsing_inv_nonsing_inv _ hM.det_pos.ne'.isUnit, nonsing_inv_nonsing_inv _ hM'.det_pos.ne'.isUnit] at hinv
  rw [decode_focusing hd] at hd'
  obtain rfl := Except.ok.inj hd'
  obtain rfl : k = k' := ek.trans ek'.symm
  have el : (Loop.start s.focusing).advance { c with horifoc := 1 } ki = (Loop.start s.focusing).advance c ki := rfl
  rw [el] at hl' hinv
  refine focus_differs hc hl hl' gk (alpha2_same hc hl hl' k (fun i hi => ?_) fun i => rfl) hinv.symm
  simp only [Loop.advance, Loop.start]
  rw [if_neg (fun h => hi h.2), if_neg (fun h => hi h.2)]
  rfl

/-- The default instrument with a focusing analyzer 40 minutes wide: by the flag of the instrument … -/
example : ∃ ki kf tm ta tt, IsNominal demo.focusing 1 (1 / 2) ki kf tm ta tt ∧
    ∃ r RM, calcInQ demo.focusing [(1, 1 / 2)] = .ok [(r, RM)] ∧ ∀ d,
      IsLeast {x | ∃ v, fderiv ℝ (transfer 1 ki kf tm ta tt) 0 v = d ∧
        x = costFocus demo.focusing ki kf v (fderiv ℝ (misset ki kf tm ta) 0 v)} (quad RM d) := by
  have hr : Reaches demo 1 (1 / 2) := demo_reaches (by norm_num) (by norm_num) (by norm_num) (by norm_num)
  have h := demo_valid 1
  have h' : demo.focusing.Valid 1 := ⟨h.mono, h.ana, h.guide, h.monitor, h.detector, h.sample, h.hcol, h.vcol, h.arms⟩
  have hr' : Reaches demo.focusing 1 (1 / 2) := ⟨hr.ei, hr.ef, hr.mono, hr.ana, hr.closes, hr.q⟩
  obtain ⟨ki, kf, tm, ta, tt, hn⟩ := nominal_exists h' hr'
  exact ⟨ki, kf, tm, ta, tt, hn, C157_focus_partial h' (by simp [Settings.popovici, Settings.theMethod, Settings.focusing, demo])
    rfl ⟨by norm_num [Settings.focusing, demo], by norm_num [Settings.focusing, demo], by norm_num [Settings.focusing, demo],
      by norm_num [Settings.focusing, demo]⟩ rfl rfl hr' hn⟩

/-- … with a mosaic of the sample … -/
example : ∃ ki kf tm ta tt, ∃ r RM, calcInQ { demo.focusing with sample.mosaic := some 60 } [(1, 1 / 2)] = .ok [(r, RM)] ∧ ∀ d,
      IsLeast {x | ∃ v e, fderiv ℝ (transfer 1 ki kf tm ta tt) 0 v + sampleTurn 1 e = d ∧
        x = costFocus demo.focusing ki kf v (fderiv ℝ (misset ki kf tm ta) 0 v) +
          ((e 0 / (60 * arcmin)) ^ 2 + (e 1 / (60 * arcmin)) ^ 2)} (quad RM d) := by
  have hr : Reaches demo 1 (1 / 2) := demo_reaches (by norm_num) (by norm_num) (by norm_num) (by norm_num)
  have h := demo_valid 1
  have h' : ({ demo.focusing with sample.mosaic := some 60 } : Settings).Valid 1 :=
    ⟨h.mono, h.ana, h.guide, h.monitor, h.detector, ⟨h.sample.width, h.sample.depth, h.sample.height, h.sample.one, h.sample.stack, h.sample.dir⟩,
      h.hcol, h.vcol, h.arms⟩
  have hr' : Reaches { demo.focusing with sample.mosaic := some 60 } 1 (1 / 2) := ⟨hr.ei, hr.ef, hr.mono, hr.ana, hr.closes, hr.q⟩
  obtain ⟨ki, kf, tm, ta, tt, hn⟩ := nominal_exists h' hr'
  exact ⟨ki, kf, tm, ta, tt, C157_focus_mosaic_partial h' (by simp [Settings.popovici, Settings.theMethod, Settings.focusing, demo])
    rfl ⟨by norm_num [Settings.focusing, demo], by norm_num [Settings.focusing, demo], by norm_num [Settings.focusing, demo],
      by norm_num [Settings.focusing, demo]⟩ rfl rfl (by norm_num) (fun _ e => nomatch e) hr' hn⟩

/-- … and by that of the analyzer, which is ignored. -/
example : ∃ r RM, (Spectrometer.mk demo 1).calc [(1, 1 / 2)] = .ok [(r, RM)] ∧ ∃ ki kf tm ta tt d,
    ¬ IsLeast {x | ∃ v, fderiv ℝ (transfer 1 ki kf tm ta tt) 0 v = d ∧
      x = costFocus demo ki kf v (fderiv ℝ (misset ki kf tm ta) 0 v)} (quad RM d) := by
  have hr : Reaches demo 1 (1 / 2) := demo_reaches (by norm_num) (by norm_num) (by norm_num) (by norm_num)
  obtain ⟨ki, kf, tm, ta, tt, hn⟩ := nominal_exists (demo_valid 1) hr
  obtain ⟨r, RM, h1, d, h2⟩ := C157_flag_false (o := ⟨demo, 1⟩) rfl (demo_valid 1)
    (by simp [Settings.popovici, Settings.theMethod, demo]) rfl
    ⟨by norm_num [demo], by norm_num [demo], by norm_num [demo], by norm_num [demo]⟩ rfl rfl hr hn
  exact ⟨r, RM, h1, ki, kf, tm, ta, tt, d, h2⟩

end Verif.Resolution
