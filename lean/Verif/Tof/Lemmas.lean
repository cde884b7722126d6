import Verif.Tof.Derivs
import Verif.Resolution.PropsMirror
import Verif.Crystal.PropsPhi
import Verif.Tools.PropsKin

/-! # Helper lemmas on the time-of-flight calculation -/

namespace Verif.Tof

open Real Matrix
open Verif.Crystal (Fail Vec Mat Lattice npSqrt npArcsin npDiv deg2rad ubmatrix getPhi)
open Verif.Resolution (M4 npInv hkls quad_eq posDef_iff_spd)
open Verif.Tools (arctan2 Arg cleanArgs quad SPD getKfree getAngleKiQ)
open Verif.Energy (Num)

theorem lift_ok {α : Type} {x : Except Fail α} {a : α} (h : lift x = .ok a) : x = .ok a := by
  cases x with
  | ok b => cases h; rfl
  | error e => cases h

theorem npDiv_eq {x y z : ℝ} (h : npDiv x y = .ok z) : y ≠ 0 ∧ z = x / y := by
  unfold npDiv at h
  split_ifs at h with h1 h2
  exact ⟨h1, (Except.ok.inj h).symm⟩

theorem npInv_eq {M R : M4} (h : npInv M = .ok R) : M.det ≠ 0 ∧ R = M⁻¹ := by
  unfold npInv at h
  split_ifs at h with h1
  exact ⟨h1, (Except.ok.inj h).symm⟩

theorem number_ok {n : Num} {x : ℝ} (h : number n = .ok x) : n = .num x := by
  cases n with
  | num r => cases h; rfl
  | nan => cases h
  | inf => cases h

/-- The parts of a successful calculation. -/
structure Steps (c : Consts) (i : Inst) (Q : Vec) (W : ℝ) (m : Measures) (k : Kin) (f : Form) (q a r0 : ℝ) (RM : M4) : Prop where
  dec : ∃ lam, (Verif.Energy.derive c.scipy i.ei).wavelen = .num lam ∧ decode i lam = .ok m
  kin : kinematics c i Q W = .ok k
  form : formOf i.detector = .ok f
  vi : k.vi ≠ 0
  vf : k.vf ≠ 0
  pm : m.lPm ≠ 0
  sd : m.lSd ≠ 0
  tan : f = .cylinder → cos k.phi ≠ 0
  det : (covariance (jacobi c f m k (m.lPm / k.vi) (m.lSd / k.vf)) (sigmas m)).det ≠ 0
  len : i.sample.lattice.getQ Q = .ok q
  angle : getAngleKiQ k.ki k.kf q (-1) false = .ok a
  rm : RM = (rotation a)ᵀ * (covariance (jacobi c f m k (m.lPm / k.vi) (m.lSd / k.vf)) (sigmas m))⁻¹ * rotation a
  fwhm : quad RM ![Q 0, Q 1, Q 2, W] ≠ 0
  r0 : r0 = 2 * log 2 / quad RM ![Q 0, Q 1, Q 2, W]

theorem steps {c : Consts} {i : Inst} {Q : Vec} {W r0 : ℝ} {RM : M4} (h : calcInQ c i Q W = .ok (r0, RM)) :
    ∃ m k f q a, Steps c i Q W m k f q a r0 RM := by
  unfold calcInQ at h
  obtain ⟨lam, hlam, h⟩ := bind_eq_ok.1 h
  obtain ⟨m, hm, h⟩ := bind_eq_ok.1 h
  obtain ⟨k, hk, h⟩ := bind_eq_ok.1 h
  obtain ⟨ti, hti, h⟩ := bind_eq_ok.1 h
  obtain ⟨tf, htf, h⟩ := bind_eq_ok.1 h
  obtain ⟨f, hf, h⟩ := bind_eq_ok.1 h
  dsimp only at h
  obtain ⟨nvi, rfl⟩ := npDiv_eq (lift_ok hti)
  obtain ⟨nvf, rfl⟩ := npDiv_eq (lift_ok htf)
  by_cases h1 : f = .cylinder ∧ cos k.phi = 0
  · rw [if_pos h1] at h
    cases h
  rw [if_neg h1] at h
  by_cases h2 : m.lPm / k.vi = 0 ∨ m.lSd / k.vf = 0
  · rw [if_pos h2] at h
    cases h
  rw [if_neg h2] at h
  obtain ⟨reso, hr, h⟩ := bind_eq_ok.1 h
  obtain ⟨q, hq, h⟩ := bind_eq_ok.1 h
  obtain ⟨a, ha, h⟩ := bind_eq_ok.1 h
  obtain ⟨r, hr0, h⟩ := bind_eq_ok.1 h
  obtain ⟨nd, rfl⟩ := npInv_eq (lift_ok hr)
  obtain ⟨nf, rfl⟩ := npDiv_eq (lift_ok hr0)
  cases h
  rw [not_or] at h2
  refine ⟨m, k, f, q, a, ⟨lam, number_ok hlam, hm⟩, hk, hf, nvi, nvf, fun h => h2.1 (by rw [h, zero_div]),
    fun h => h2.2 (by rw [h, zero_div]), fun hc h0 => h1 ⟨hc, h0⟩, nd, lift_ok hq, lift_ok ha, rfl, nf, rfl⟩

/-- Conversely. -/
theorem calcInQ_of {c : Consts} {i : Inst} {Q : Vec} {W lam : ℝ} {m : Measures} {k : Kin} {f : Form} {q a : ℝ}
    (hlam : (Verif.Energy.derive c.scipy i.ei).wavelen = .num lam) (hm : decode i lam = .ok m) (hk : kinematics c i Q W = .ok k)
    (hf : formOf i.detector = .ok f) (hvi : k.vi ≠ 0) (hvf : k.vf ≠ 0) (hpm : m.lPm ≠ 0) (hsd : m.lSd ≠ 0)
    (htan : f = .cylinder → cos k.phi ≠ 0)
    (hdet : (covariance (jacobi c f m k (m.lPm / k.vi) (m.lSd / k.vf)) (sigmas m)).det ≠ 0)
    (hq : i.sample.lattice.getQ Q = .ok q) (ha : getAngleKiQ k.ki k.kf q (-1) false = .ok a)
    (hfw : quad ((rotation a)ᵀ * (covariance (jacobi c f m k (m.lPm / k.vi) (m.lSd / k.vf)) (sigmas m))⁻¹ * rotation a)
      ![Q 0, Q 1, Q 2, W] ≠ 0) :
    ∃ r0 RM, calcInQ c i Q W = .ok (r0, RM) := by
  have e1 : npDiv m.lPm k.vi = .ok (m.lPm / k.vi) := by unfold npDiv; rw [if_neg hvi]
  have e2 : npDiv m.lSd k.vf = .ok (m.lSd / k.vf) := by unfold npDiv; rw [if_neg hvf]
  obtain ⟨R, hR⟩ : ∃ R, R = (covariance (jacobi c f m k (m.lPm / k.vi) (m.lSd / k.vf)) (sigmas m))⁻¹ := ⟨_, rfl⟩
  rw [← hR] at hfw
  have e3 : npInv (covariance (jacobi c f m k (m.lPm / k.vi) (m.lSd / k.vf)) (sigmas m)) = .ok R := by
    unfold npInv; rw [if_neg hdet, hR]
  have e4 : npDiv (2 * log 2) (quad ((rotation a)ᵀ * R * rotation a) ![Q 0, Q 1, Q 2, W]) =
      .ok (2 * log 2 / quad ((rotation a)ᵀ * R * rotation a) ![Q 0, Q 1, Q 2, W]) := by unfold npDiv; rw [if_neg hfw]
  unfold calcInQ
  rw [hlam]
  simp only [number, ok_bind, hm, hk, e1, e2, lift, hf]
  rw [if_neg (fun h => htan h.1 h.2), if_neg (by
    rw [not_or]
    exact ⟨div_ne_zero hpm hvi, div_ne_zero hsd hvf⟩), e3]
  simp only [ok_bind, hq, ha, e4]
  exact ⟨_, _, rfl⟩

/-! ## The covariance -/

theorem covariance_symm (J : Matrix (Fin 4) (Fin 9) ℝ) (s : Fin 9 → ℝ) : (covariance J s)ᵀ = covariance J s := by
  unfold covariance
  rw [transpose_mul, transpose_mul, transpose_transpose, diagonal_transpose, Matrix.mul_assoc]

theorem covariance_quad (J : Matrix (Fin 4) (Fin 9) ℝ) (s : Fin 9 → ℝ) (v : Fin 4 → ℝ) :
    v ⬝ᵥ (covariance J s *ᵥ v) = ∑ j, (s j * (v ᵥ* J) j) ^ 2 := by
  unfold covariance
  rw [← mulVec_mulVec, ← mulVec_mulVec, dotProduct_mulVec, mulVec_transpose]
  simp only [dotProduct, mulVec_diagonal]
  exact Finset.sum_congr rfl fun j _ => by ring

theorem covariance_posDef {J : Matrix (Fin 4) (Fin 9) ℝ} {s : Fin 9 → ℝ}
    (h : ∀ v, (∀ j, s j * (v ᵥ* J) j = 0) → v = 0) : (covariance J s).PosDef := by
  refine PosDef.of_dotProduct_mulVec_pos ?_ fun {v} hv => ?_
  · rw [IsHermitian, conjTranspose_eq_transpose_of_trivial, covariance_symm]
  · rw [star_trivial, covariance_quad]
    refine lt_of_le_of_ne (Finset.sum_nonneg fun j _ => sq_nonneg _) fun h0 => hv (h v fun j => ?_)
    have := (Finset.sum_eq_zero_iff_of_nonneg fun j _ => sq_nonneg (s j * (v ᵥ* J) j)).1 h0.symm j (Finset.mem_univ j)
    exact pow_eq_zero_iff (two_ne_zero) |>.1 this

theorem covariance_posDef_of_det {J : Matrix (Fin 4) (Fin 9) ℝ} {s : Fin 9 → ℝ} (h : (covariance J s).det ≠ 0) :
    (covariance J s).PosDef := by
  refine covariance_posDef fun v hv => ?_
  have h0 : covariance J s *ᵥ v = 0 := by
    unfold covariance
    rw [← mulVec_mulVec, ← mulVec_mulVec, mulVec_transpose]
    have : diagonal (fun j => s j ^ 2) *ᵥ (v ᵥ* J) = 0 := by
      funext j
      rw [mulVec_diagonal, sq, mul_assoc, hv j, mul_zero]
      rfl
    rw [this, mulVec_zero]
  exact eq_zero_of_mulVec_eq_zero h h0

theorem rotation_orth (a : ℝ) : (rotation a)ᵀ * rotation a = 1 := by
  have := sin_sq_add_cos_sq a
  ext x y
  fin_cases x <;> fin_cases y <;> simp [rotation, Matrix.mul_apply, Fin.sum_univ_four] <;> linarith

theorem rotation_orth' (a : ℝ) : rotation a * (rotation a)ᵀ = 1 := mul_eq_one_comm.1 (rotation_orth a)

theorem turned_posDef {C : M4} (h : C.PosDef) (a : ℝ) : ((rotation a)ᵀ * C⁻¹ * rotation a).PosDef := by
  have := Verif.Resolution.congr_posDef h.inv (rotation a)ᵀ fun v hv => by
    have : v = v ᵥ* ((rotation a)ᵀ * rotation a) := by rw [rotation_orth, vecMul_one]
    rw [this, ← vecMul_vecMul, hv, zero_vecMul]
  rwa [transpose_transpose] at this

end Verif.Tof
