import Verif.Convolution.Spec

/-! # The transformation between variables and displacements -/

namespace Verif.Convolution

open Real Matrix MeasureTheory Filter Topology
open Verif.Crystal (Fail Vec npSqrt npDiv npDiv_ok npSqrt_ok)
open Verif.Resolution (M4 Decoupled)
open Verif.Tools (quad SPD)

/-- The displacements for the values `t` of the variables. -/
def displacement (c : Coeffs) (tx ty tz tw : ℝ) : Fin 4 → ℝ :=
  ![c.tqx * tx, c.tqyy * ty + c.tqyx * tx, c.tqz * tz, c.tqwx * tx + c.tqwy * ty + c.tqww * tw]

theorem sampled_eq (c : Coeffs) (ax : Vec × Vec × Vec) (p : Point) (tx ty tz tw : ℝ) :
    sampled c ax p tx ty tz tw = displaced ax p (displacement c tx ty tz tw) := rfl

/-- The matrix that the code works with: what couples the vertical component is left out. -/
def cut (R : M4) : M4 := fun k l => if (k = 2) = (l = 2) then R k l else 0

theorem cut_decoupled (R : M4) : Decoupled (cut R) := fun k hk => by
  constructor <;> simp [cut, hk]

theorem cut_of_decoupled {R : M4} (h : Decoupled R) : cut R = R := by
  ext k l
  unfold cut
  split_ifs with e
  · rfl
  · by_cases hk : k = 2
    · subst hk
      have hl : l ≠ 2 := fun hl => e (by simp [hl])
      exact (h l hl).2.symm
    · have hl : l = 2 := by
        by_contra hl
        exact e (by simp [hk, hl])
      rw [hl]
      exact (h k hk).1.symm

theorem quad4 (R : M4) (h : ∀ k l, R k l = R l k) (x y z w : ℝ) : quad R ![x, y, z, w] = R 0 0 * x ^ 2 + R 1 1 * y ^ 2 + R 2 2 * z ^ 2 +
    R 3 3 * w ^ 2 + 2 * R 0 1 * (x * y) + 2 * R 0 2 * (x * z) + 2 * R 0 3 * (x * w) + 2 * R 1 2 * (y * z) + 2 * R 1 3 * (y * w) +
    2 * R 2 3 * (z * w) := by
  simp only [quad, Fin.sum_univ_four, Matrix.cons_val]
  rw [h 1 0, h 2 0, h 3 0, h 2 1, h 3 1, h 3 2]
  ring

theorem cut_spd {R : M4} (h : SPD R) : SPD (cut R) := by
  have hs : ∀ k l, cut R k l = cut R l k := fun k l => by
    unfold cut
    rw [h.symm k l]
    congr 1
    exact propext ⟨Eq.symm, Eq.symm⟩
  refine ⟨hs, fun v hv => ?_⟩
  have e : v = ![v 0, v 1, v 2, v 3] := by ext i; fin_cases i <;> rfl
  have q1 : quad (cut R) v = quad R ![v 0, v 1, 0, v 3] + quad R ![0, 0, v 2, 0] := by
    rw [e, quad4 _ hs, quad4 _ h.symm, quad4 _ h.symm]
    simp [cut]
    ring
  rw [q1]
  by_cases h2 : v 2 = 0
  · obtain ⟨k, hk⟩ := hv
    have : 0 < quad R ![v 0, v 1, 0, v 3] := h.pos _ ⟨k, by
      fin_cases k
      · exact hk
      · exact hk
      · exact absurd h2 hk
      · exact hk⟩
    rw [h2]
    have z : quad R ![0, 0, (0 : ℝ), 0] = 0 := by simp [quad4 _ h.symm]
    rw [z]
    linarith
  · have p1 : 0 < quad R ![0, 0, v 2, 0] := h.pos _ ⟨2, h2⟩
    have p2 : 0 ≤ quad R ![v 0, v 1, 0, v 3] := by
      by_cases hz : v 0 = 0 ∧ v 1 = 0 ∧ v 3 = 0
      · obtain ⟨a, b, c⟩ := hz
        rw [a, b, c]
        simp [quad4 _ h.symm]
      · refine (h.pos _ ?_).le
        by_contra hn
        push Not at hn
        exact hz ⟨hn 0, hn 1, hn 3⟩
    linarith

/-- The coefficients exist for a positive definite matrix, and what they satisfy. -/
theorem coeffs_ok {R : M4} (h : SPD R) : ∃ c, coeffs R = .ok c ∧ 0 < c.tqx ∧ 0 < c.tqyy ∧ 0 < c.tqz ∧ 0 < c.tqww ∧
    c.detM = (cut R).det ∧ 0 < c.detM ∧ c.tqx * c.tqyy * c.tqz * c.tqww * √c.detM = 1 ∧
    ∀ tx ty tz tw, quad (cut R) (displacement c tx ty tz tw) = tx ^ 2 + ty ^ 2 + tz ^ 2 + tw ^ 2 := by
  have hz : 0 < R 2 2 := h.diag 2
  have hw : 0 < R 3 3 := h.diag 3
  obtain ⟨Myy, hMyy⟩ : ∃ m, m = R 1 1 - R 1 3 ^ 2 / R 3 3 := ⟨_, rfl⟩
  obtain ⟨Mxx, hMxx⟩ : ∃ m, m = R 0 0 - R 0 3 ^ 2 / R 3 3 := ⟨_, rfl⟩
  obtain ⟨Mxy, hMxy⟩ : ∃ m, m = R 0 1 - R 0 3 * R 1 3 / R 3 3 := ⟨_, rfl⟩
  have hy : 0 < Myy := by
    have := h.pos ![0, 1, 0, -R 1 3 / R 3 3] ⟨1, by simp⟩
    rw [quad4 _ h.symm] at this
    have e : Myy = R 0 0 * (0 : ℝ) ^ 2 + R 1 1 * 1 ^ 2 + R 2 2 * 0 ^ 2 + R 3 3 * (-R 1 3 / R 3 3) ^ 2 + 2 * R 0 1 * (0 * 1) + 2 * R 0 2 * (0 * 0) +
        2 * R 0 3 * (0 * (-R 1 3 / R 3 3)) + 2 * R 1 2 * (1 * 0) + 2 * R 1 3 * (1 * (-R 1 3 / R 3 3)) + 2 * R 2 3 * (0 * (-R 1 3 / R 3 3)) := by
      rw [hMyy]
      field_simp
      ring
    rw [e]
    exact this
  obtain ⟨MM, hMM⟩ : ∃ m, m = Mxx - Mxy ^ 2 / Myy := ⟨_, rfl⟩
  have sq : ∀ x y z w : ℝ, quad (cut R) ![x, y, z, w] = MM * x ^ 2 + Myy * (y + Mxy / Myy * x) ^ 2 + R 2 2 * z ^ 2 +
      R 3 3 * (w + (R 0 3 * x + R 1 3 * y) / R 3 3) ^ 2 := fun x y z w => by
    rw [quad4 _ (cut_spd h).symm]
    have e0 : R 0 0 = Mxx + R 0 3 ^ 2 / R 3 3 := by rw [hMxx]; ring
    have e1 : R 0 1 = Mxy + R 0 3 * R 1 3 / R 3 3 := by rw [hMxy]; ring
    have e2 : R 1 1 = Myy + R 1 3 ^ 2 / R 3 3 := by rw [hMyy]; ring
    simp [cut]
    rw [hMM, e0, e1, e2]
    field_simp
    ring
  have hx : 0 < MM := by
    have := (cut_spd h).pos ![1, -(Mxy / Myy), 0, -((R 0 3 * 1 + R 1 3 * -(Mxy / Myy)) / R 3 3)] ⟨0, by simp⟩
    rw [sq] at this
    have e : MM * 1 ^ 2 + Myy * (-(Mxy / Myy) + Mxy / Myy * 1) ^ 2 + R 2 2 * 0 ^ 2 +
      R 3 3 * (-((R 0 3 * 1 + R 1 3 * -(Mxy / Myy)) / R 3 3) + (R 0 3 * 1 + R 1 3 * -(Mxy / Myy)) / R 3 3) ^ 2 = MM := by ring
    rwa [e] at this
  have sx : √MM ≠ 0 := (sqrt_pos.2 hx).ne'
  have sy : √Myy ≠ 0 := (sqrt_pos.2 hy).ne'
  have sz : √(R 2 2) ≠ 0 := (sqrt_pos.2 hz).ne'
  have sw : √(R 3 3) ≠ 0 := (sqrt_pos.2 hw).ne'
  have hdet : MM * Myy * R 2 2 * R 3 3 = (cut R).det := by
    rw [Matrix.det_succ_row_zero]
    simp [Fin.sum_univ_four, Matrix.det_fin_three, Fin.succAbove, cut]
    rw [h.symm 1 0, h.symm 3 0, h.symm 3 1, hMM, hMxx]
    have hy' : Myy * R 3 3 = R 1 1 * R 3 3 - R 1 3 ^ 2 := by rw [hMyy]; field_simp
    have : (R 0 0 - R 0 3 ^ 2 / R 3 3 - Mxy ^ 2 / Myy) * Myy * R 2 2 * R 3 3 =
      R 2 2 * ((R 0 0 - R 0 3 ^ 2 / R 3 3) * (Myy * R 3 3) - Mxy ^ 2 * R 3 3) := by field_simp
    rw [this, hy', hMxy]
    field_simp
    ring
  refine ⟨⟨1 / √MM, -Mxy / Myy / √MM, 1 / √Myy, -(R 0 3 / R 3 3 - R 1 3 / R 3 3 * Mxy / Myy) / √MM, -R 1 3 / R 3 3 / √Myy, 1 / √(R 3 3),
    1 / √(R 2 2), MM * Myy * R 2 2 * R 3 3⟩, ?_, by positivity, by positivity, by positivity, by positivity, hdet, by positivity, ?_, ?_⟩
  · unfold coeffs
    simp only [npDiv_ok hw.ne', ok_bind, ← hMxx, ← hMxy, ← hMyy, npDiv_ok hy.ne', ← hMM, npSqrt_ok hx.le, npSqrt_ok hy.le,
      npSqrt_ok hz.le, npSqrt_ok hw.le, npDiv_ok sx, npDiv_ok sy, npDiv_ok sz, npDiv_ok sw]
    rfl
  · rw [sqrt_mul (by positivity), sqrt_mul (by positivity), sqrt_mul (by positivity)]
    field_simp
  · intro tx ty tz tw
    unfold displacement
    rw [sq]
    have q1 := sq_sqrt hx.le
    have q2 := sq_sqrt hy.le
    have q3 := sq_sqrt hz.le
    have q4 := sq_sqrt hw.le
    dsimp only
    have e1 : MM * (1 / √MM * tx) ^ 2 = tx ^ 2 := by
      rw [mul_pow, div_pow, q1]; field_simp
    have e2 : Myy * (1 / √Myy * ty + -Mxy / Myy / √MM * tx + Mxy / Myy * (1 / √MM * tx)) ^ 2 = ty ^ 2 := by
      have : 1 / √Myy * ty + -Mxy / Myy / √MM * tx + Mxy / Myy * (1 / √MM * tx) = 1 / √Myy * ty := by ring
      rw [this, mul_pow, div_pow, q2]; field_simp
    have e3 : R 2 2 * (1 / √(R 2 2) * tz) ^ 2 = tz ^ 2 := by
      rw [mul_pow, div_pow, q3]; field_simp
    have e4 : R 3 3 * (-(R 0 3 / R 3 3 - R 1 3 / R 3 3 * Mxy / Myy) / √MM * tx + -R 1 3 / R 3 3 / √Myy * ty + 1 / √(R 3 3) * tw +
        (R 0 3 * (1 / √MM * tx) + R 1 3 * (1 / √Myy * ty + -Mxy / Myy / √MM * tx)) / R 3 3) ^ 2 = tw ^ 2 := by
      have : -(R 0 3 / R 3 3 - R 1 3 / R 3 3 * Mxy / Myy) / √MM * tx + -R 1 3 / R 3 3 / √Myy * ty + 1 / √(R 3 3) * tw +
        (R 0 3 * (1 / √MM * tx) + R 1 3 * (1 / √Myy * ty + -Mxy / Myy / √MM * tx)) / R 3 3 = 1 / √(R 3 3) * tw := by ring
      rw [this, mul_pow, div_pow, q4]; field_simp
    rw [e1, e2, e3, e4]

end Verif.Convolution
