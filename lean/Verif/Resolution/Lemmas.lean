import Mathlib.Analysis.Matrix.PosDef
import Mathlib.Algebra.Order.Star.Real
import Mathlib.Analysis.SpecialFunctions.Trigonometric.Bounds
import Verif.Resolution.Model
import Verif.Tools.PropsProj

/-! # Helper lemmas on the matrices of the resolution calculation -/

namespace Verif.Resolution

open Real Matrix
open Verif.Crystal (Fail npSqrt npArcsin npDiv)
open Verif.Tools (arctan2 quad SPD)

theorem quad_eq {n : ℕ} (M : Matrix (Fin n) (Fin n) ℝ) (x : Fin n → ℝ) : quad M x = x ⬝ᵥ (M *ᵥ x) := by
  simp only [quad, dotProduct, mulVec, Finset.mul_sum]
  exact Finset.sum_congr rfl fun i _ => Finset.sum_congr rfl fun j _ => by ring

theorem posDef_iff_spd {n : ℕ} (M : Matrix (Fin n) (Fin n) ℝ) : M.PosDef ↔ SPD M := by
  constructor
  · intro h
    refine ⟨fun k l => ?_, fun x hx => ?_⟩
    · have := congrFun (congrFun h.isHermitian.eq k) l
      simpa using this.symm
    · rw [quad_eq]
      have := h.dotProduct_mulVec_pos (x := x) (fun hx0 => by obtain ⟨k, hk⟩ := hx; exact hk (by rw [hx0]; rfl))
      simpa using this
  · intro h
    refine PosDef.of_dotProduct_mulVec_pos ?_ fun {x} hx => ?_
    · ext i j
      simp [h.symm j i]
    · have := h.pos x (Function.ne_iff.mp hx)
      rw [quad_eq] at this
      simpa using this

theorem npInv_ok {n : ℕ} {M : Matrix (Fin n) (Fin n) ℝ} (h : M.PosDef) : npInv M = .ok M⁻¹ := by
  unfold npInv
  rw [if_neg h.det_pos.ne']

theorem congr_posDef {m n : ℕ} {X : Matrix (Fin n) (Fin n) ℝ} (hX : X.PosDef) (Y : Matrix (Fin m) (Fin n) ℝ)
    (hY : ∀ v : Fin m → ℝ, v ᵥ* Y = 0 → v = 0) : (Y * X * Yᵀ).PosDef := by
  rw [← conjTranspose_eq_transpose_of_trivial]
  refine hX.mul_mul_conjTranspose_same ?_
  intro v w hvw
  rw [← sub_eq_zero]
  exact hY _ (by rw [sub_vecMul]; exact sub_eq_zero.2 hvw)

theorem gram_posSemidef {m n : ℕ} {X : Matrix (Fin n) (Fin n) ℝ} (hX : X.PosDef) (Y : Matrix (Fin n) (Fin m) ℝ) :
    (Yᵀ * X * Y).PosSemidef := by
  rw [← conjTranspose_eq_transpose_of_trivial]
  exact hX.posSemidef.conjTranspose_mul_mul_same Y

theorem blkdiag_posDef {m n : ℕ} {X : Matrix (Fin m) (Fin m) ℝ} {Y : Matrix (Fin n) (Fin n) ℝ}
    (hX : X.PosDef) (hY : Y.PosDef) : (blkdiag X Y).PosDef := by
  unfold blkdiag
  refine PosDef.submatrix (e := finSumFinEquiv.symm) ?_ finSumFinEquiv.symm.injective
  refine PosDef.of_dotProduct_mulVec_pos ?_ fun {x} hx => ?_
  · rw [IsHermitian, fromBlocks_conjTranspose, hX.isHermitian.eq, hY.isHermitian.eq]
    simp
  · rw [fromBlocks_mulVec]
    simp only [zero_mulVec, add_zero, zero_add, star_trivial]
    have e : x ⬝ᵥ Sum.elim (X *ᵥ (x ∘ Sum.inl)) (Y *ᵥ (x ∘ Sum.inr)) =
        (x ∘ Sum.inl) ⬝ᵥ (X *ᵥ (x ∘ Sum.inl)) + (x ∘ Sum.inr) ⬝ᵥ (Y *ᵥ (x ∘ Sum.inr)) := by
      simp [dotProduct]
    rw [e]
    have h1 := hX.posSemidef.dotProduct_mulVec_nonneg (x ∘ Sum.inl)
    have h2 := hY.posSemidef.dotProduct_mulVec_nonneg (x ∘ Sum.inr)
    simp only [star_trivial] at h1 h2
    by_cases hl : x ∘ Sum.inl = 0
    · have hr : x ∘ Sum.inr ≠ 0 := by
        intro hr
        apply hx
        ext i
        cases i with
        | inl i => exact congrFun hl i
        | inr i => exact congrFun hr i
      have := hY.dotProduct_mulVec_pos hr
      simp only [star_trivial] at this
      linarith
    · have := hX.dotProduct_mulVec_pos hl
      simp only [star_trivial] at this
      linarith

theorem diagonal_posDef {n : ℕ} {d : Fin n → ℝ} (h : ∀ i, 0 < d i) : (diagonal d).PosDef := PosDef.diagonal h

theorem matG_posDef {l : Loop} (ha : ∀ i, l.alpha i ≠ 0) (hb : ∀ i, l.beta i ≠ 0) : (matG l).PosDef := by
  refine diagonal_posDef fun i => ?_
  have : (![l.alpha 0, l.alpha 1, l.beta 0, l.beta 1, l.alpha 2, l.alpha 3, l.beta 2, l.beta 3] i) ≠ 0 := by
    fin_cases i <;> simp [ha, hb]
  positivity

/-- The mosaics are not zero. -/
structure Conf.Mosaics (c : Conf) : Prop where
  m : c.etam ≠ 0
  mv : c.etamv ≠ 0
  a : c.etaa ≠ 0
  av : c.etaav ≠ 0

theorem matF_posDef {c : Conf} (h : c.Mosaics) : (matF c).PosDef := by
  refine diagonal_posDef fun i => ?_
  have : (![c.etam, c.etamv, c.etaa, c.etaav] i) ≠ 0 := by
    fin_cases i <;> simp [h.m, h.mv, h.a, h.av]
  positivity

/-- A point with a closed triangle, away from backscattering. -/
structure Kin.Good (k : Kin) (q : ℝ) : Prop where
  ki : 0 < k.ki
  kf : 0 < k.kf
  sm : 0 < tan k.thetam * sin k.thetam
  sa : 0 < tan k.thetaa * sin k.thetaa
  law : q ^ 2 = k.ki ^ 2 + k.kf ^ 2 - 2 * k.ki * k.kf * cos k.s2theta
  q : q ≠ 0

theorem matA_inj {k : Kin} {q : ℝ} (h : k.Good q) (v : Fin 6 → ℝ) (hv : v ᵥ* matA k = 0) : v = 0 := by
  have tm : tan k.thetam ≠ 0 := left_ne_zero_of_mul h.sm.ne'
  have ta : tan k.thetaa ≠ 0 := left_ne_zero_of_mul h.sa.ne'
  have hi := h.ki.ne'
  have hf := h.kf.ne'
  have e (j : Fin 8) : (v ᵥ* matA k) j = 0 := by rw [hv]; rfl
  have e0 := e 0
  have e1 := e 1
  have e3 := e 3
  have e4 := e 4
  have e5 := e 5
  have e6 := e 6
  simp [matA, vecMul, dotProduct, Fin.sum_univ_succ] at e0 e1 e3 e4 e5 e6
  have v0 : v 0 = 0 := by rcases e0 with h | h | h <;> [exact h; exact absurd h hi; exact absurd h tm]
  have v3 : v 3 = 0 := by rcases e5 with h | h | h <;> [exact h; exact absurd h hf; exact absurd h ta]
  have v2 : v 2 = 0 := by rcases e3 with h | h <;> [exact h; exact absurd h hi]
  have v5 : v 5 = 0 := by rcases e6 with h | h <;> [exact h; exact absurd h hf]
  have v1 : v 1 = 0 := by
    rw [v0] at e1
    simpa [hi] using e1
  have v4 : v 4 = 0 := by
    rw [v3] at e4
    simpa [hf] using e4
  ext i
  fin_cases i <;> assumption

theorem matB_inj {k : Kin} {q : ℝ} (h : k.Good q) (v : Fin 4 → ℝ) (hv : v ᵥ* matB k = 0) : v = 0 := by
  have e (j : Fin 6) : (v ᵥ* matB k) j = 0 := by rw [hv]; rfl
  have e0 := e 0
  have e1 := e 1
  have e2 := e 2
  have e3 := e 3
  have e4 := e 4
  simp [matB, vecMul, dotProduct, Fin.sum_univ_succ] at e0 e1 e2 e3 e4
  rw [cos_sub] at e3 e4
  rw [sin_sub] at e3 e4
  have hφ := sin_sq_add_cos_sq k.phi
  have hs := sin_sq_add_cos_sq k.s2theta
  set cp := cos k.phi
  set sp := sin k.phi
  set cs := cos k.s2theta
  set sn := sin k.s2theta
  set t := 2 * convert2 * v 3
  have hu0 : v 0 = (v 0 * cp - v 1 * sp) * cp := by linear_combination (-v 0) * hφ + sp * e1
  have hu1 : v 1 = -(v 0 * cp - v 1 * sp) * sp := by linear_combination (-v 1) * hφ + cp * e1
  set u := v 0 * cp - v 1 * sp
  have h0 : u = -(k.ki * t) := by linear_combination e0
  have h1 : u * sn = 0 := by
    have : v 0 * (sp * cs - cp * sn) + v 1 * (cp * cs + sp * sn) = 0 := by linear_combination -e4
    rw [hu0, hu1] at this
    linear_combination -this - u * sn * hφ
  have h2 : u * cs = -(k.kf * t) := by
    have : v 0 * (cp * cs + sp * sn) - v 1 * (sp * cs - cp * sn) = -(k.kf * t) := by linear_combination -e3
    rw [hu0, hu1] at this
    linear_combination this - u * cs * hφ
  have key : (t * q) ^ 2 = 0 := by
    have l := h.law
    have : (t * q) ^ 2 = (t * k.ki) ^ 2 + (t * k.kf) ^ 2 - 2 * (t * k.ki) * (t * k.kf) * cs := by
      rw [mul_pow, l]; ring
    rw [this]
    have a : t * k.ki = -u := by linear_combination h0
    have b : t * k.kf = -(u * cs) := by linear_combination h2
    rw [a, b]
    linear_combination (-u ^ 2) * hs + u * sn * h1
  have ht : t = 0 := by
    rcases mul_eq_zero.1 (pow_eq_zero_iff (by norm_num) |>.1 key) with h' | h'
    · exact h'
    · exact absurd h' h.q
  have hu : u = 0 := by rw [h0, ht]; ring
  have c2 : (2 * convert2 : ℝ) ≠ 0 := by norm_num [convert2]
  have v3 : v 3 = 0 := by
    rcases mul_eq_zero.1 ht with h' | h'
    · exact absurd h' c2
    · exact h'
  have v0 : v 0 = 0 := by rw [hu0, hu]; ring
  have v1 : v 1 = 0 := by rw [hu1, hu]; ring
  ext i
  fin_cases i <;> assumption

/-- The distances are not zero. -/
structure Conf.Arms (c : Conf) : Prop where
  l0 : c.L0 ≠ 0
  l1 : c.L1 ≠ 0
  l2 : c.L2 ≠ 0
  l3 : c.L3 ≠ 0
  mon : c.L1mon ≠ 0

theorem matD_inj {c : Conf} (hc : c.Arms) (k : Kin) (v : Fin 8 → ℝ) (hv : v ᵥ* matD c k = 0) : v = 0 := by
  have e (j : Fin 13) : (v ᵥ* matD c k) j = 0 := by rw [hv]; rfl
  have e0 := e 0
  have e1 := e 1
  have e2 := e 2
  have e3 := e 3
  have e4 := e 4
  have e8 := e 8
  have e9 := e 9
  have e10 := e 10
  have e11 := e 11
  have e12 := e 12
  simp [matD, vecMul, dotProduct, Fin.sum_univ_succ] at e0 e1 e2 e3 e4 e8 e9 e10 e11 e12
  have v0 : v 0 = 0 := by simpa [hc.l0] using e0
  have v2 : v 2 = 0 := by simpa [hc.l0] using e1
  have v5 : v 5 = 0 := by simpa [hc.l3] using e11
  have v7 : v 7 = 0 := by simpa [hc.l3] using e12
  have v3 : v 3 = 0 := by rw [v2] at e4; simpa [hc.l1] using e4
  have v6 : v 6 = 0 := by rw [v7] at e10; simpa [hc.l2] using e10
  have v1 : v 1 = 0 := by
    rw [v0] at e2 e3
    by_contra hne
    have a : cos k.thetam = 0 := by simpa [hne, hc.l1] using e2
    have b : sin k.thetam = 0 := by simpa [hne, hc.l1] using e3
    have := sin_sq_add_cos_sq k.thetam
    rw [a, b] at this
    norm_num at this
  have v4 : v 4 = 0 := by
    rw [v5] at e8 e9
    by_contra hne
    have a : cos k.thetaa = 0 := by simpa [hne, hc.l2] using e8
    have b : sin k.thetaa = 0 := by simpa [hne, hc.l2] using e9
    have := sin_sq_add_cos_sq k.thetaa
    rw [a, b] at this
    norm_num at this
  ext i
  fin_cases i <;> assumption

end Verif.Resolution
