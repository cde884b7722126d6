import Verif.Resolution.Paths
import Verif.Resolution.PropsMosaic

/-! # Property theorems: the Popovici matrix describes the flight from the guide to the detector (C124) -/

namespace Verif.Resolution

open Real Matrix
open Verif.Crystal (Fail npSqrt npArcsin npDiv)
open Verif.Tools (arctan2 quad SPD Closes)

/-! ## The derivatives -/

theorem radius_start (dir : ℝ) (r : Option ℝ) : r.getD (10 ^ 6) * dir = radius dir r := by
  unfold radius
  rw [mul_comm]
  norm_num

/-- The deviations of the crystallites, along lines, are the matrix `T` of the code. -/
theorem bent_eq {s : Settings} {c : Conf} {k : Kin} {L : Loop} (hm : sin k.thetam ≠ 0) (ha : sin k.thetaa ≠ 0)
    (mh : L.monorh = radius s.mono.dir s.mono.rh) (mv : L.monorv = radius s.mono.dir s.mono.rv)
    (ah : L.anarh = radius s.ana.dir s.ana.rh) (av : L.anarv = radius s.ana.dir s.ana.rv)
    (h1 : L.monorh ≠ 0) (h2 : L.monorv ≠ 0) (h3 : L.anarh ≠ 0) (h4 : L.anarv ≠ 0) (p : Fin 13 → ℝ) :
    matC k *ᵥ (matD c k *ᵥ p) - bend s p = matT c L k *ᵥ p := by
  have hb : bend s p = ![p 3 / L.monorh, p 4 / L.monorv, p 9 / L.anarh, p 10 / L.anarv] := by
    rw [bend, mh, mv, ah, av]
  rw [hb]
  ext i
  fin_cases i <;> simp [matC, matD, matT, mulVec, dotProduct, Fin.sum_univ_succ] <;> field_simp <;> ring

theorem bend_fderiv (s : Settings) (p : Fin 13 → ℝ) : DifferentiableAt ℝ (bend s) 0 ∧ fderiv ℝ (bend s) 0 p = bend s p := by
  let J : Matrix (Fin 4) (Fin 13) ℝ := Matrix.of fun i j => bend s (Pi.single j 1) i
  have hJ : ∀ p, bend s p = J *ᵥ p := fun p => by
    ext i
    fin_cases i <;> simp [J, bend, mulVec, dotProduct, Fin.sum_univ_succ, Pi.single_apply] <;> ring
  have hd : DifferentiableAt ℝ (bend s) 0 := by
    rw [differentiableAt_pi]
    intro i
    fin_cases i <;> simp [bend] <;> fun_prop
  refine ⟨hd, ?_⟩
  rw [fderiv_of_lines (J := J) hd, hJ]
  intro v i
  have e : (fun t : ℝ => bend s (t • v) i) = fun t => t * (J *ᵥ v) i := by
    ext t
    rw [hJ, mulVec_smul]
    rfl
  rw [e]
  simpa using (hasDerivAt_id (0 : ℝ)).mul_const ((J *ᵥ v) i)

/-! ## The weights -/

theorem variance_eq {w : Option ℝ} (h : Pos w) : variance w = extent w := by
  cases w with
  | none => rfl
  | some w => rw [variance_some (h w rfl)]; rfl

theorem blkdiag_form {m n : ℕ} {X : Matrix (Fin m) (Fin m) ℝ} {Y : Matrix (Fin n) (Fin n) ℝ} (hX : X.PosDef)
    (hY : Y.PosDef) (x : Fin (m + n) → ℝ) :
    x ⬝ᵥ ((blkdiag X Y)⁻¹ *ᵥ x) = (fun i => x (Fin.castAdd n i)) ⬝ᵥ (X⁻¹ *ᵥ fun i => x (Fin.castAdd n i)) +
      (fun i => x (Fin.natAdd m i)) ⬝ᵥ (Y⁻¹ *ᵥ fun i => x (Fin.natAdd m i)) := by
  have hinv : (blkdiag X Y)⁻¹ = blkdiag X⁻¹ Y⁻¹ := by
    refine Matrix.inv_eq_left_inv ?_
    unfold blkdiag
    rw [submatrix_mul_equiv, fromBlocks_multiply]
    simp [nonsing_inv_mul _ hX.det_pos.ne'.isUnit, nonsing_inv_mul _ hY.det_pos.ne'.isUnit]
  rw [hinv]
  simp only [dotProduct, mulVec, blkdiag, Fin.sum_univ_add, submatrix_apply, finSumFinEquiv_symm_apply_castAdd,
    finSumFinEquiv_symm_apply_natAdd, fromBlocks_apply₁₁, fromBlocks_apply₁₂, fromBlocks_apply₂₁, fromBlocks_apply₂₂,
    Matrix.zero_apply, zero_mul, Finset.sum_const_zero, add_zero, zero_add]

theorem diagonal_form {n : ℕ} {d : Fin n → ℝ} (h : ∀ i, 0 < d i) (x : Fin n → ℝ) :
    x ⬝ᵥ ((diagonal d)⁻¹ *ᵥ x) = ∑ i, x i ^ 2 / d i := by
  have : (diagonal d)⁻¹ = diagonal fun i => 1 / d i := by
    refine Matrix.inv_eq_left_inv ?_
    rw [diagonal_mul_diagonal, ← diagonal_one]
    congr 1
    ext i
    have := (h i).ne'
    simp [this]
  rw [this, dotProduct]
  refine Finset.sum_congr rfl fun i _ => ?_
  rw [mulVec_diagonal]
  ring

/-- The form of a turned covariance. -/
theorem turnShape_form {X : M3} (hX : X.PosDef) (k : Kin) (x : Fin 3 → ℝ) :
    x ⬝ᵥ ((turnShape k X)⁻¹ *ᵥ x) =
      (fun j => (![cos (k.s2theta / 2 - k.phi) * x 0 - sin (k.s2theta / 2 - k.phi) * x 1,
        sin (k.s2theta / 2 - k.phi) * x 0 + cos (k.s2theta / 2 - k.phi) * x 1, x 2] : Fin 3 → ℝ) j) ⬝ᵥ (X⁻¹ *ᵥ
        ![cos (k.s2theta / 2 - k.phi) * x 0 - sin (k.s2theta / 2 - k.phi) * x 1,
        sin (k.s2theta / 2 - k.phi) * x 0 + cos (k.s2theta / 2 - k.phi) * x 1, x 2]) := by
  set psi := k.s2theta / 2 - k.phi
  let R : M3 := !![cos psi, sin psi, 0; -sin psi, cos psi, 0; 0, 0, 1]
  have hR : Rᵀ * R = 1 := by
    have := sin_sq_add_cos_sq psi
    ext i j
    fin_cases i <;> fin_cases j <;> simp [R, Matrix.mul_apply, Fin.sum_univ_succ] <;>
      first | linear_combination this | ring
  have hR' : R * Rᵀ = 1 := mul_eq_one_comm.1 hR
  have hinv : (turnShape k X)⁻¹ = R * X⁻¹ * Rᵀ := by
    refine Matrix.inv_eq_left_inv ?_
    change R * X⁻¹ * Rᵀ * (R * X * Rᵀ) = 1
    calc R * X⁻¹ * Rᵀ * (R * X * Rᵀ) = R * X⁻¹ * (Rᵀ * R) * X * Rᵀ := by simp only [Matrix.mul_assoc]
      _ = R * (X⁻¹ * X) * Rᵀ := by rw [hR]; simp only [Matrix.mul_assoc, Matrix.one_mul]
      _ = 1 := by rw [nonsing_inv_mul _ hX.det_pos.ne'.isUnit, Matrix.mul_one, hR']
  have hx : Rᵀ *ᵥ x = ![cos psi * x 0 - sin psi * x 1, sin psi * x 0 + cos psi * x 1, x 2] := by
    ext i
    fin_cases i <;> simp [R, mulVec, dotProduct, Fin.sum_univ_succ] <;> ring
  rw [hinv, ← mulVec_mulVec, ← mulVec_mulVec, dotProduct_mulVec, ← mulVec_transpose, hx]

/-- The sample is a box or given by one matrix. -/
def BoxSample (a : SampleAttrs) : Prop :=
  a.shapeType ≠ some ['c', 'y', 'l', 'i', 'n', 'd', 'r', 'i', 'c', 'a', 'l'] ∧ ∀ l, a.shape ≠ some (.stack l)

theorem sampleCovariance_eq {a : SampleAttrs} {n : ℕ} (h : a.Valid n) (hb : BoxSample a) :
    sshapeAt a 0 = .ok (sampleCovariance a) := by
  unfold sshapeAt sampleCovariance
  rw [if_neg hb.1]
  rcases hw : a.width with _ | w <;> rcases hd : a.depth with _ | d <;> rcases hh : a.height with _ | hgt <;>
    rcases hs : a.shape with _ | (M | l) <;>
    first
    | exact absurd hs (hb.2 l)
    | rfl
    | (simp only [variance_some (h.width w hw), variance_some (h.depth d hd), variance_some (h.height hgt hh)])
    | (simp only [one_div])

/-- The form of the covariance of all points, in terms of the forms of its five blocks. -/
theorem blocks_form {A E : Matrix (Fin 2) (Fin 2) ℝ} {B C D : M3} (hA : A.PosDef) (hB : B.PosDef) (hC : C.PosDef)
    (hD : D.PosDef) (hE : E.PosDef) (S : Matrix (Fin 13) (Fin 13) ℝ)
    (hS : S = blkdiag A (blkdiag B (blkdiag C (blkdiag D E)))) (p : Fin 13 → ℝ) :
    p ⬝ᵥ (S⁻¹ *ᵥ p) =
      ![p 0, p 1] ⬝ᵥ (A⁻¹ *ᵥ ![p 0, p 1]) + (![p 2, p 3, p 4] ⬝ᵥ (B⁻¹ *ᵥ ![p 2, p 3, p 4]) +
        (![p 5, p 6, p 7] ⬝ᵥ (C⁻¹ *ᵥ ![p 5, p 6, p 7]) + (![p 8, p 9, p 10] ⬝ᵥ (D⁻¹ *ᵥ ![p 8, p 9, p 10]) +
          ![p 11, p 12] ⬝ᵥ (E⁻¹ *ᵥ ![p 11, p 12])))) := by
  have h4 := blkdiag_posDef hD hE
  have h3 := blkdiag_posDef hC h4
  have h2 := blkdiag_posDef hB h3
  have e1 := blkdiag_form hA h2 p
  rw [blkdiag_form hB h3, blkdiag_form hC h4, blkdiag_form hD hE] at e1
  rw [hS]
  refine e1.trans ?_
  have a1 : (fun i => p (Fin.castAdd (3 + (3 + (3 + 2))) i)) = ![p 0, p 1] := by
    ext i; fin_cases i <;> rfl
  have a2 : (fun i => (fun i => p (Fin.natAdd 2 i)) (Fin.castAdd (3 + (3 + 2)) i)) = ![p 2, p 3, p 4] := by
    ext i; fin_cases i <;> rfl
  have a3 : (fun i => (fun i => (fun i => p (Fin.natAdd 2 i)) (Fin.natAdd 3 i)) (Fin.castAdd (3 + 2) i)) =
      ![p 5, p 6, p 7] := by
    ext i; fin_cases i <;> rfl
  have a4 : (fun i => (fun i => (fun i => (fun i => p (Fin.natAdd 2 i)) (Fin.natAdd 3 i)) (Fin.natAdd 3 i))
      (Fin.castAdd 2 i)) = ![p 8, p 9, p 10] := by
    ext i; fin_cases i <;> rfl
  have a5 : (fun i => (fun i => (fun i => (fun i => p (Fin.natAdd 2 i)) (Fin.natAdd 3 i)) (Fin.natAdd 3 i))
      (Fin.natAdd 3 i)) = ![p 11, p 12] := by
    ext i; fin_cases i <;> rfl
  rw [a1, a2, a3, a4, a5]

/-- The weight of the points is that of the code. -/
theorem pointCost_eq {s : Settings} (h : s.Valid 1) {c : Conf} (hd : decode s = .ok c) (hc : c.Good)
    {q ki kf tm ta tt : ℝ} (sm : sin tm ≠ 0) (sa : sin ta ≠ 0) (hq : 0 < q)
    (hl : q ^ 2 = ki ^ 2 + kf ^ 2 - 2 * ki * kf * cos tt) {k : Kin}
    (ek : k = ⟨ki, kf, tm, ta, tt, arctan2 (-kf * sin tt) (ki - kf * cos tt)⟩) (p : Fin 13 → ℝ)
    (hX : (sampleCovariance s.sample).PosDef) :
    p ⬝ᵥ ((matSinv c (turnShape k (sampleCovariance s.sample)))⁻¹ *ᵥ p) = pointCost s q ki kf tm ta tt p := by
  have hal := phi_spec tt sm sa hq hl
  have hsh : c.bshape = ![variance s.guide.width, variance s.guide.height] ∧
      c.mshape = ![variance s.mono.depth, variance s.mono.width, variance s.mono.height] ∧
      c.ashape = ![variance s.ana.depth, variance s.ana.width, variance s.ana.height] ∧
      c.dshape = ![variance s.detector.width, variance s.detector.height] := by
    unfold decode at hd
    cases ha : decodeArms s with
    | error e => rw [ha] at hd; exact nomatch hd
    | ok x =>
      rw [ha] at hd
      simp only [ok_bind, pure, Except.pure] at hd
      rw [← Except.ok.inj hd, variance_eq h.guide.width, variance_eq h.guide.height, variance_eq h.mono.depth,
        variance_eq h.mono.width, variance_eq h.mono.height, variance_eq h.ana.depth, variance_eq h.ana.width,
        variance_eq h.ana.height, variance_eq h.detector.width, variance_eq h.detector.height]
      exact ⟨rfl, rfl, rfl, rfl⟩
  have hin : inSample q ki kf tm ta tt p = ![cos (k.s2theta / 2 - k.phi) * p 5 - sin (k.s2theta / 2 - k.phi) * p 6,
        sin (k.s2theta / 2 - k.phi) * p 5 + cos (k.s2theta / 2 - k.phi) * p 6, p 7] := by
    have : k.s2theta / 2 - k.phi = tt / 2 - arctan2 (-kf * sin tt) (ki - kf * cos tt) := by rw [ek]
    rw [this]
    set phi := arctan2 (-kf * sin tt) (ki - kf * cos tt)
    ext i
    fin_cases i
    · simp [inSample, samplePoint, turnedBy, hal, dotProduct, Fin.sum_univ_succ, cos_sub, sin_sub]
      ring
    · simp [inSample, samplePoint, turnedBy, across, hal, dotProduct, Fin.sum_univ_succ, cos_sub, sin_sub]
      ring
    · simp [inSample]
  have e1 := blocks_form (diagonal_posDef hc.bshape) (diagonal_posDef hc.mshape) (turnShape_posDef k hX)
    (diagonal_posDef hc.ashape) (diagonal_posDef hc.dshape)
    (matSinv c (turnShape k (sampleCovariance s.sample))) rfl p
  rw [diagonal_form hc.bshape, diagonal_form hc.mshape, diagonal_form hc.ashape, diagonal_form hc.dshape,
    turnShape_form hX, hsh.1, hsh.2.1, hsh.2.2.1, hsh.2.2.2] at e1
  simp only [Fin.sum_univ_two, Fin.sum_univ_three] at e1
  rw [e1]
  unfold pointCost
  rw [hin]
  simp only [cons_val_zero, cons_val_one, cons_val]
  ring

/-! ## C124 -/

/-- Two steps of minimisation are one. -/
theorem least_nested {α β ε : Type*} {D : α → β} {w : α → ℝ} {g : β → ℝ} {P : β → ε → Prop} {f : β → ε → ℝ} {x : ℝ}
    (hin : ∀ v, IsLeast {c | ∃ p, D p = v ∧ c = w p} (g v)) (hout : IsLeast {c | ∃ v e, P v e ∧ c = g v + f v e} x) :
    IsLeast {c | ∃ p e, P (D p) e ∧ c = w p + f (D p) e} x := by
  obtain ⟨⟨v, e, hP, hx⟩, hlow⟩ := hout
  refine ⟨?_, ?_⟩
  · obtain ⟨p, hp, hg⟩ := (hin v).1
    exact ⟨p, e, hp ▸ hP, by rw [hp, ← hg, hx]⟩
  · rintro c ⟨p, e, hP, rfl⟩
    have h1 := hlow ⟨D p, e, hP, rfl⟩
    have h2 := (hin (D p)).2 ⟨p, rfl, rfl⟩
    linarith

/-- The matrix for one point by Popovici's method, with the matrices of the code. -/
theorem calc_pop {s : Settings} (h : s.Valid 1) (hp : s.popovici = true) (hb : BoxSample s.sample) {q w : ℝ}
    (hr : Reaches s q w) {ki kf tm ta tt : ℝ} (hn : IsNominal s q w ki kf tm ta tt) :
    ∃ c k r RM K, decode s = .ok c ∧ k = ⟨ki, kf, tm, ta, tt, arctan2 (-kf * sin tt) (ki - kf * cos tt)⟩ ∧ k.Good q ∧
      c.Good ∧ ((Loop.start s).advance c ki).Good ∧ ((Loop.start s).advance c ki).Curved ∧ c.sm = s.mono.dir ∧
      c.sa = s.ana.dir ∧ (sampleCovariance s.sample).PosDef ∧ calcInQ s [(q, w)] = .ok [(r, RM)] ∧
      K = (matSinv c (turnShape k (sampleCovariance s.sample)))⁻¹ +
        (matT c ((Loop.start s).advance c ki) k)ᵀ * matF c * matT c ((Loop.start s).advance c ki) k ∧
      K.PosDef ∧ (matD c k * K⁻¹ * (matD c k)ᵀ).PosDef ∧
      (matB k * matA k * ((matD c k * K⁻¹ * (matD c k)ᵀ)⁻¹ + matG ((Loop.start s).advance c ki))⁻¹ *
        (matB k * matA k)ᵀ).PosDef ∧
      RM = (matB k * matA k * ((matD c k * K⁻¹ * (matD c k)ᵀ)⁻¹ + matG ((Loop.start s).advance c ki))⁻¹ *
        (matB k * matA k)ᵀ +
        match s.sample.mosaic with
        | none => 0
        | some m => diagonal ![0, q ^ 2 * (m * arcmin) ^ 2, q ^ 2 * (s.sample.vmosaic.getD m * arcmin) ^ 2, 0])⁻¹ := by
  obtain ⟨c, hd, hc, hea, he, hi, hm, ha, sm, ss, sa⟩ := decode_ok h
  obtain ⟨k, hk, gk, gt⟩ := kinematics_ok he hi hm ha (sm ▸ h.mono.dir) (ss ▸ h.sample.dir) (sa ▸ h.ana.dir)
    h.mono.tau h.ana.tau hr
  have ek := kinematics_nominal he hi hm ha sm ss sa h.mono.dir h.sample.dir h.ana.dir hn hk
  have hki : k.ki = ki := by rw [ek]
  have hdec : c.popovici = s.popovici ∧
      c.etas = s.sample.mosaic.map fun m => (m * convert1, s.sample.vmosaic.getD m * convert1) := by
    have hd' := hd
    unfold decode at hd'
    cases ha : decodeArms s with
    | error e => rw [ha] at hd'; exact nomatch hd'
    | ok x =>
      rw [ha] at hd'
      simp only [ok_bind, pure, Except.pure] at hd'
      rw [← Except.ok.inj hd']
      exact ⟨rfl, rfl⟩
  have hpc : c.popovici = true := hdec.1.trans hp
  have hl : ((Loop.start s).advance c ki).Good := hki ▸ advance_good (start_good h) c gk.ki
  have hv : ((Loop.start s).advance c ki).Curved :=
    advance_curved (start_curved h) (sm ▸ h.mono.dir) (sa ▸ h.ana.dir) ki
  have harm := hc.arms hpc
  obtain ⟨X, hX, pX⟩ := sshapeAt_ok h.sample (i := 0) (by omega)
  have eX : X = sampleCovariance s.sample := by
    rw [sampleCovariance_eq h.sample hb] at hX
    exact (Except.ok.inj hX).symm
  subst eX
  have hS := (matSinv_posDef hc (turnShape_posDef k pX)).inv
  set l := (Loop.start s).advance c ki
  have hK : ((matSinv c (turnShape k (sampleCovariance s.sample)))⁻¹ + (matT c l k)ᵀ * matF c * matT c l k).PosDef :=
    hS.add_posSemidef (gram_posSemidef (matF_posDef hc.mosaics) _)
  obtain ⟨K, eK⟩ : ∃ K, K = (matSinv c (turnShape k (sampleCovariance s.sample)))⁻¹ +
    (matT c l k)ᵀ * matF c * matT c l k := ⟨_, rfl⟩
  rw [← eK] at hK
  have hD := congr_posDef hK.inv (matD c k) (matD_inj harm k)
  have hG := hD.inv.add (matG_posDef hl.alpha hl.beta)
  have hN := congr_posDef hG.inv (matA k) (matA_inj gk)
  have hM := congr_posDef hN (matB k) (matB_inj gk)
  have hcore : coreMatrix c l k (matSinv c (turnShape k (sampleCovariance s.sample)))⁻¹ =
      .ok (matB k * (matA k * ((matD c k * K⁻¹ * (matD c k)ᵀ)⁻¹ + matG l)⁻¹ * (matA k)ᵀ) * (matB k)ᵀ,
        ((matD c k * K⁻¹ * (matD c k)ᵀ)⁻¹ + matG l).det) := by
    unfold coreMatrix popoviciN
    rw [if_pos hpc, if_neg (by simp [harm.l0, harm.l1, harm.l2, harm.l3, hv.monorh, hv.monorv, hv.anarh, hv.anarv])]
    simp only [← eK, npInv_ok hK, npInv_ok hD, npInv_ok hG, pure, Except.pure, bind, Except.bind]
  obtain ⟨r, RM, h1, h2⟩ := pointAt_core hc hl gk gt hea pX hcore hM hG.det_pos
  have e : ∀ Z : Matrix (Fin 8) (Fin 8) ℝ, matB k * (matA k * Z * (matA k)ᵀ) * (matB k)ᵀ =
      matB k * matA k * Z * (matB k * matA k)ᵀ := fun Z => by
    rw [transpose_mul]; simp only [Matrix.mul_assoc]
  rw [e] at hM h2
  refine ⟨c, k, r, RM, K, hd, ek, gk, hc, hl, hv, sm, sa, pX, ?_, eK, hK, hD, hM, ?_⟩
  · unfold calcInQ
    simp only [hd, ok_bind, runLoop, hX, hk, hki]
    simp only [l] at h1
    rw [h1]
    rfl
  · rw [h2, hdec.2]
    cases s.sample.mosaic with
    | none => rfl
    | some m => simp only [Option.map_some, arcmin_eq]; rfl

/-- The two derivatives along the path, and the costs, in terms of the matrices of the code. -/
theorem path_facts {s : Settings} (h : s.Valid 1) (hp : s.theMethod = .number 1) (hf : s.horifoc ≠ some 1)
    {L0 L1 L2 L3 : ℝ} {rest : List ℝ} (harm : s.arms = some (L0 :: L1 :: L2 :: L3 :: rest)) {q w : ℝ}
    (hr : Reaches s q w) {ki kf tm ta tt : ℝ} (hn : IsNominal s q w ki kf tm ta tt) {c : Conf} {k : Kin}
    (hd : decode s = .ok c) (hc : c.Good) (ek : k = ⟨ki, kf, tm, ta, tt, arctan2 (-kf * sin tt) (ki - kf * cos tt)⟩)
    (gk : k.Good q) (hv : ((Loop.start s).advance c ki).Curved) (em : c.sm = s.mono.dir) (ea : c.sa = s.ana.dir)
    (hX : (sampleCovariance s.sample).PosDef) {K : Matrix (Fin 13) (Fin 13) ℝ}
    (eK : K = (matSinv c (turnShape k (sampleCovariance s.sample)))⁻¹ +
        (matT c ((Loop.start s).advance c ki) k)ᵀ * matF c * matT c ((Loop.start s).advance c ki) k) :
    (DifferentiableAt ℝ (angles L0 L1 L2 L3 tm ta tt) 0 ∧
      DifferentiableAt ℝ (fun p => transfer q ki kf tm ta tt (angles L0 L1 L2 L3 tm ta tt p)) 0 ∧
      DifferentiableAt ℝ (bentMisset s L0 L1 L2 L3 ki kf tm ta tt) 0) ∧ ∀ p,
    fderiv ℝ (angles L0 L1 L2 L3 tm ta tt) 0 p = matD c k *ᵥ p ∧
    fderiv ℝ (fun p => transfer q ki kf tm ta tt (angles L0 L1 L2 L3 tm ta tt p)) 0 p =
      (matB k * matA k) *ᵥ (matD c k *ᵥ p) ∧
    pointCost s q ki kf tm ta tt p + cost s.asRead ki ki (fderiv ℝ (angles L0 L1 L2 L3 tm ta tt) 0 p)
        (fderiv ℝ (bentMisset s L0 L1 L2 L3 ki kf tm ta tt) 0 p) =
      p ⬝ᵥ (K *ᵥ p) + (matD c k *ᵥ p) ⬝ᵥ (matG ((Loop.start s).advance c ki) *ᵥ (matD c k *ᵥ p)) := by
  have sm : sin tm ≠ 0 := by
    have := right_ne_zero_of_mul gk.sm.ne'
    rwa [ek] at this
  have sa : sin ta ≠ 0 := by
    have := right_ne_zero_of_mul gk.sa.ne'
    rwa [ek] at this
  obtain ⟨-, hpos⟩ := h.arms _ harm
  have p0 : 0 < L0 := hpos _ (by simp)
  have p1 : 0 < L1 := hpos _ (by simp)
  have p2 : 0 < L2 := hpos _ (by simp)
  have p3 : 0 < L3 := hpos _ (by simp)
  have hL : c.L0 = L0 ∧ c.L1 = L1 ∧ c.L2 = L2 ∧ c.L3 = L3 := by
    have ha : decodeArms s = .ok (L0, L1, rest.headD L1, L2, L3) := by
      unfold decodeArms
      rw [harm]
      simp [hp]
    unfold decode at hd
    rw [ha] at hd
    simp only [ok_bind, pure, Except.pure] at hd
    rw [← Except.ok.inj hd]
    exact ⟨rfl, rfl, rfl, rfl⟩
  have dA := angles_diff tm ta tt p0.ne' p1.ne' p2.ne' p3.ne'
  have fA : ∀ p, fderiv ℝ (angles L0 L1 L2 L3 tm ta tt) 0 p = matD c k *ᵥ p := fun p => by
    refine fderiv_of_lines dA (fun p i => ?_) p
    have := angles_line (c := c) (k := k) (hL.1 ▸ p0) (hL.2.1 ▸ p1) (hL.2.2.1 ▸ p2) (hL.2.2.2 ▸ p3) p i
    rw [hL.1, hL.2.1, hL.2.2.1, hL.2.2.2] at this
    rw [ek] at this ⊢
    exact this
  have dt := transfer_diff q (ki := ki) (kf := kf) tt sm sa
  have dm := misset_diff (ki := ki) (kf := kf) sm sa
  have ft := fderiv_of_lines dt (transfer_line sm sa hr.q hn.triangle.1 k ek)
  have fm := fderiv_of_lines dm (misset_line hn.waveIn.1.ne' hn.waveOut.1.ne' sm sa k (by rw [ek]) (by rw [ek]))
  have z := angles_zero L0 L1 L2 L3 tm ta tt
  rw [← z] at dt dm
  have dc := dt.hasFDerivAt.comp (0 : Fin 13 → ℝ) dA.hasFDerivAt
  have dmc := dm.hasFDerivAt.comp (0 : Fin 13 → ℝ) dA.hasFDerivAt
  rw [z] at dc dmc
  have db := fun p => bend_fderiv s p
  have dbm := dmc.sub (db 0).1.hasFDerivAt
  have fbm : ∀ p, fderiv ℝ (bentMisset s L0 L1 L2 L3 ki kf tm ta tt) 0 p =
      matT c ((Loop.start s).advance c ki) k *ᵥ p := fun p => by
    have e : fderiv ℝ (bentMisset s L0 L1 L2 L3 ki kf tm ta tt) 0 = _ := HasFDerivAt.fderiv dbm
    rw [e]
    change fderiv ℝ (misset ki kf tm ta) 0 (fderiv ℝ (angles L0 L1 L2 L3 tm ta tt) 0 p) - fderiv ℝ (bend s) 0 p = _
    rw [fA, fm, (db p).2]
    refine bent_eq (by rw [ek]; exact sm) (by rw [ek]; exact sa) ?_ ?_ ?_ ?_ hv.monorh hv.monorv hv.anarh hv.anarv p <;>
      simp only [Loop.advance, Loop.start, em, ea, radius_start]
  refine ⟨⟨dA, dc.differentiableAt, dbm.differentiableAt⟩, fun p => ⟨fA p, ?_, ?_⟩⟩
  · have e : fderiv ℝ (fun p => transfer q ki kf tm ta tt (angles L0 L1 L2 L3 tm ta tt p)) 0 = _ := HasFDerivAt.fderiv dc
    rw [e]
    change fderiv ℝ (transfer q ki kf tm ta tt) 0 (fderiv ℝ (angles L0 L1 L2 L3 tm ta tt) 0 p) = _
    rw [fA, ft]
  · rw [fA, fbm, cost_parts hd hf, eK, add_mulVec, dotProduct_add, pointCost_eq h hd hc sm sa hr.q hn.triangle.1 ek p hX,
      ← mulVec_mulVec, ← mulVec_mulVec, dotProduct_mulVec p (matT c ((Loop.start s).advance c ki) k)ᵀ, vecMul_transpose]
    ring

/-- C124, without sample mosaic.  For every valid instrument with arms used with Popovici's method, a flat
analyzer and a sample that is a box or given by one matrix, and every point it reaches: the angles of flight, the
transfer and the deviations of the crystallites are differentiable functions of the points where the neutron meets
the elements, and the form of the resolution matrix at a deviation `d` is the least cost of a neutron that, to
first order, deviates by `d`.  Missing: guides after the sample, to which the wavevector before the sample is
applied (`C155_after_false`). -/
theorem C124_paths_partial {s : Settings} (h : s.Valid 1) (hp : s.theMethod = .number 1) (hf : s.horifoc ≠ some 1)
    (hg : s.Collimated) {L0 L1 L2 L3 : ℝ} {rest : List ℝ} (harm : s.arms = some (L0 :: L1 :: L2 :: L3 :: rest)) (hb : BoxSample s.sample)
    (hmos : s.sample.mosaic = none) {q w : ℝ} (hr : Reaches s q w) {ki kf tm ta tt : ℝ}
    (hn : IsNominal s q w ki kf tm ta tt) :
    angles L0 L1 L2 L3 tm ta tt 0 = 0 ∧
    (DifferentiableAt ℝ (angles L0 L1 L2 L3 tm ta tt) 0 ∧
      DifferentiableAt ℝ (fun p => transfer q ki kf tm ta tt (angles L0 L1 L2 L3 tm ta tt p)) 0 ∧
      DifferentiableAt ℝ (bentMisset s L0 L1 L2 L3 ki kf tm ta tt) 0) ∧
    ∃ r RM, calcInQ s [(q, w)] = .ok [(r, RM)] ∧ ∀ d,
      IsLeast {x | ∃ p, fderiv ℝ (fun p => transfer q ki kf tm ta tt (angles L0 L1 L2 L3 tm ta tt p)) 0 p = d ∧
        x = pointCost s q ki kf tm ta tt p + cost s ki kf (fderiv ℝ (angles L0 L1 L2 L3 tm ta tt) 0 p)
          (fderiv ℝ (bentMisset s L0 L1 L2 L3 ki kf tm ta tt) 0 p)} (quad RM d) := by
  obtain ⟨c, k, r, RM, K, hd, ek, gk, hc, hl, hv, em, ea, hX, hcalc, eK, hK, hD, hM, hRM⟩ :=
    calc_pop h (by simp [Settings.popovici, hp]) hb hr hn
  obtain ⟨hdiff, hall⟩ := path_facts h hp hf harm hr hn hd hc ek gk hv em ea hX eK
  refine ⟨angles_zero .., hdiff, r, RM, hcalc, fun d => ?_⟩
  have hlc := least_cost (hD.inv.add (matG_posDef hl.alpha hl.beta)) _ hM d
  rw [hmos] at hRM
  simp only [add_zero] at hRM
  rw [← hRM] at hlc
  simp only [add_mulVec, dotProduct_add] at hlc
  have hnest := least_nested (ε := Unit) (P := fun v _ => (matB k * matA k) *ᵥ v = d)
    (f := fun v _ => v ⬝ᵥ (matG ((Loop.start s).advance c ki) *ᵥ v)) (fun v => least_cost hK (matD c k) hD v)
    (x := d ⬝ᵥ (RM *ᵥ d)) (by simpa using hlc)
  rw [quad_eq]
  simp only [← cost_read hg (Or.inl (by simp [Settings.vmosaicUsed, hp])) ki kf, (hall _).2.2, (hall _).2.1]
  simpa using hnest

/-- C124 with a sample mosaic.  Missing: as in `C124_paths_partial`. -/
theorem C124_paths_mosaic_partial {s : Settings} (h : s.Valid 1) (hp : s.theMethod = .number 1) (hf : s.horifoc ≠ some 1)
    (hg : s.Collimated) {L0 L1 L2 L3 : ℝ} {rest : List ℝ} (harm : s.arms = some (L0 :: L1 :: L2 :: L3 :: rest)) (hb : BoxSample s.sample)
    {m : ℝ} (hmos : s.sample.mosaic = some m) (m0 : 0 < m) (v0 : Pos s.sample.vmosaic) {q w : ℝ} (hr : Reaches s q w)
    {ki kf tm ta tt : ℝ} (hn : IsNominal s q w ki kf tm ta tt) :
    ∃ r RM, calcInQ s [(q, w)] = .ok [(r, RM)] ∧ ∀ d,
      IsLeast {x | ∃ p e, fderiv ℝ (fun p => transfer q ki kf tm ta tt (angles L0 L1 L2 L3 tm ta tt p)) 0 p +
          sampleTurn q e = d ∧
        x = pointCost s q ki kf tm ta tt p + cost s ki kf (fderiv ℝ (angles L0 L1 L2 L3 tm ta tt) 0 p)
          (fderiv ℝ (bentMisset s L0 L1 L2 L3 ki kf tm ta tt) 0 p) +
          ((e 0 / (m * arcmin)) ^ 2 + (e 1 / (s.sample.vmosaic.getD m * arcmin)) ^ 2)} (quad RM d) := by
  obtain ⟨c, k, r, RM, K, hd, ek, gk, hc, hl, hv, em, ea, hX, hcalc, eK, hK, hD, hM, hRM⟩ :=
    calc_pop h (by simp [Settings.popovici, hp]) hb hr hn
  obtain ⟨hdiff, hall⟩ := path_facts h hp hf harm hr hn hd hc ek gk hv em ea hX eK
  have ac : 0 < arcmin := by rw [arcmin_eq]; exact convert1_pos
  have a0 : 0 < m * arcmin := by positivity
  have b0 : 0 < s.sample.vmosaic.getD m * arcmin := mul_pos (getD_pos v0 m0) ac
  rw [hmos] at hRM
  simp only at hRM
  refine ⟨r, RM, hcalc, fun d => ?_⟩
  have hlc := least_mosaic (hD.inv.add (matG_posDef hl.alpha hl.beta)) _ hM (q := q) a0 b0 d
  rw [← hRM] at hlc
  simp only [add_mulVec, dotProduct_add] at hlc
  have hnest := least_nested (P := fun v e => (matB k * matA k) *ᵥ v + sampleTurn q e = d)
    (f := fun v e => v ⬝ᵥ (matG ((Loop.start s).advance c ki) *ᵥ v) +
      ((e 0 / (m * arcmin)) ^ 2 + (e 1 / (s.sample.vmosaic.getD m * arcmin)) ^ 2))
    (fun v => least_cost hK (matD c k) hD v)
    (x := d ⬝ᵥ (RM *ᵥ d)) (by simpa only [add_assoc] using hlc)
  rw [quad_eq]
  simp only [← cost_read hg (Or.inl (by simp [Settings.vmosaicUsed, hp])) ki kf, (hall _).2.2, (hall _).2.1]
  simpa only [add_assoc] using hnest

/-- An instrument for Popovici's method: the default one with arms, windows, and focusing crystals and a sample of
finite size. -/
noncomputable def focused : Settings where
  efixed := 14.7
  infin := none
  method := some (.number 1)
  moncor := none
  horifoc := none
  hcol _ := 40
  vcol _ := 120
  arms := some [150, 200, 100, 80]
  mono := ⟨1.87325, 25, some 35, some 10, some 12, some 0.2, some 160, some 300, -1, none, none⟩
  ana := ⟨1.87325, 25, none, some 15, some 10, some 0.3, none, some 200, -1, none, none⟩
  sample := ⟨none, none, some 1, some 2, some 3, some ['r'], none, 1⟩
  guide := ⟨some 5, some 10⟩
  monitor := ⟨none, none⟩
  detector := ⟨some 3, some 12⟩

theorem Pos.some {x : ℝ} (h : 0 < x) : Pos (some x) := fun v hv => by rwa [← Option.some.inj hv]

theorem focused_valid (n : ℕ) : focused.Valid n where
  mono := ⟨by norm_num [focused], by norm_num [focused], .some (by norm_num), .some (by norm_num), .some (by norm_num),
    .some (by norm_num), fun r h => by rw [← Option.some.inj h]; norm_num,
    fun r h => by rw [← Option.some.inj h]; norm_num, Or.inr rfl, .none, .none⟩
  ana := ⟨by norm_num [focused], by norm_num [focused], .none, .some (by norm_num), .some (by norm_num),
    .some (by norm_num), fun _ h => (nomatch h), fun r h => by rw [← Option.some.inj h]; norm_num, Or.inr rfl, .none, .none⟩
  guide := ⟨.some (by norm_num), .some (by norm_num)⟩
  monitor := ⟨.none, .none⟩
  detector := ⟨.some (by norm_num), .some (by norm_num)⟩
  sample := ⟨.some (by norm_num), .some (by norm_num), .some (by norm_num), fun _ h => (nomatch h), fun _ h => (nomatch h), Or.inl rfl⟩
  hcol _ := by norm_num [focused]
  vcol _ := by norm_num [focused]
  arms L h := by
    rw [← Option.some.inj h]
    refine ⟨le_rfl, fun x hx => ?_⟩
    simp at hx
    rcases hx with rfl | rfl | rfl | rfl <;> norm_num

theorem focused_reaches {q w : ℝ} (hq0 : 1 / 2 ≤ q) (hq : q ≤ 1) (hw0 : 0 ≤ w) (hw : w ≤ 1) : Reaches focused q w := by
  have h := demo_reaches hq0 hq hw0 hw
  exact ⟨h.ei, h.ef, h.mono, h.ana, h.closes, h.q⟩

/-- A focusing instrument at an inelastic point, without and with a sample mosaic. -/
example : (∃ ki kf tm ta tt, ∃ r RM, calcInQ focused [(1, 1 / 2)] = .ok [(r, RM)] ∧ ∀ d,
    IsLeast {x | ∃ p, fderiv ℝ (fun p => transfer 1 ki kf tm ta tt (angles 150 200 100 80 tm ta tt p)) 0 p = d ∧
        x = pointCost focused 1 ki kf tm ta tt p + cost focused ki kf (fderiv ℝ (angles 150 200 100 80 tm ta tt) 0 p)
          (fderiv ℝ (bentMisset focused 150 200 100 80 ki kf tm ta tt) 0 p)} (quad RM d)) := by
  have hr : Reaches focused 1 (1 / 2) := focused_reaches (by norm_num) (by norm_num) (by norm_num) (by norm_num)
  obtain ⟨ki, kf, tm, ta, tt, hn⟩ := nominal_exists (focused_valid 1) hr
  obtain ⟨-, -, h⟩ := C124_paths_partial (focused_valid 1) rfl (fun h => nomatch h)
    ⟨by norm_num [focused], by norm_num [focused], by norm_num [focused], by norm_num [focused]⟩ rfl
    ⟨by decide, fun _ h => nomatch h⟩ rfl hr hn
  exact ⟨ki, kf, tm, ta, tt, h⟩

example : ∃ ki kf tm ta tt, ∃ r RM,
    calcInQ { focused with sample.mosaic := some 30, sample.vmosaic := some 60 } [(1, 1 / 2)] = .ok [(r, RM)] ∧
    IsLeast {x | ∃ p e, fderiv ℝ (fun p => transfer 1 ki kf tm ta tt (angles 150 200 100 80 tm ta tt p)) 0 p +
          sampleTurn 1 e = ![1, 2, 3, 4] ∧
        x = pointCost focused 1 ki kf tm ta tt p + cost focused ki kf (fderiv ℝ (angles 150 200 100 80 tm ta tt) 0 p)
          (fderiv ℝ (bentMisset focused 150 200 100 80 ki kf tm ta tt) 0 p) +
          ((e 0 / (30 * arcmin)) ^ 2 + (e 1 / (60 * arcmin)) ^ 2)} (quad RM ![1, 2, 3, 4]) := by
  have hv := focused_valid 1
  let s : Settings := { focused with sample.mosaic := some 30, sample.vmosaic := some 60 }
  have hs : s.Valid 1 := ⟨hv.mono, hv.ana, hv.guide, hv.monitor, hv.detector, ⟨hv.sample.width, hv.sample.depth, hv.sample.height,
    hv.sample.one, hv.sample.stack, hv.sample.dir⟩, hv.hcol, hv.vcol, hv.arms⟩
  have h := focused_reaches (q := 1) (w := 1 / 2) (by norm_num) (by norm_num) (by norm_num) (by norm_num)
  have hr : Reaches s 1 (1 / 2) := ⟨h.ei, h.ef, h.mono, h.ana, h.closes, h.q⟩
  obtain ⟨ki, kf, tm, ta, tt, hn⟩ := nominal_exists hs hr
  obtain ⟨r, RM, h1, h2⟩ := C124_paths_mosaic_partial hs rfl (fun h => nomatch h)
    ⟨by norm_num [s, focused], by norm_num [s, focused], by norm_num [s, focused], by norm_num [s, focused]⟩ rfl ⟨by decide, fun _ h => nomatch h⟩ rfl
    (by norm_num) (.some (by norm_num)) hr hn
  exact ⟨ki, kf, tm, ta, tt, r, RM, h1, h2 ![1, 2, 3, 4]⟩

end Verif.Resolution
