import Verif.Crystal.PropsOrient
import Mathlib.Tactic.LinearCombination

/-!
# Property C94: the out-of-plane angle of a scattering vector
-/

namespace Verif.Crystal

open Real Matrix

theorem cross_ne_zero {u v : Vec} (h : Indep u v) : crossProduct u v ≠ 0 := by
  intro hc
  have key : (u ⬝ᵥ v) • u - (u ⬝ᵥ u) • v = 0 := by
    have h0 := congrFun hc 0
    have h1 := congrFun hc 1
    have h2 := congrFun hc 2
    simp only [cross_apply, cons_val_zero, cons_val_one, cons_val, Pi.zero_apply] at h0 h1 h2
    ext i
    fin_cases i
    · simp [dotProduct, Fin.sum_univ_three]
      linear_combination u 1 * h2 - u 2 * h1
    · simp [dotProduct, Fin.sum_univ_three]
      linear_combination u 2 * h0 - u 0 * h2
    · simp [dotProduct, Fin.sum_univ_three]
      linear_combination u 0 * h1 - u 1 * h0
  have := h (u ⬝ᵥ v) (-(u ⬝ᵥ u)) (by rw [neg_smul, ← sub_eq_add_neg]; exact key)
  exact h.left.ne' (by linarith [this.2])

/-- **C94** (partial) for a cell with right angles the out-of-plane angle exists for every scattering vector
other than zero, lies in `[0, 180]`, and is `90` exactly if a weighted sum vanishes.  Missing: the sum
should vanish exactly for the vectors in the plane of `u` and `v`, which is so for cubic cells only. -/
theorem C94_orthogonal_partial {a b c : ℝ} (ha : 0 < a) (hb : 0 < b) (hc : 0 < c) {u v Q : Vec} (hi : Indep u v)
    (hQ : Q ≠ 0) :
    ∃ φ, getPhi ⟨a, b, c, 90, 90, 90⟩ u v Q = .ok φ ∧ 0 ≤ φ ∧ φ ≤ 180 ∧
      (φ = 90 ↔ Q 0 * crossProduct u v 0 / a ^ 2 + Q 1 * crossProduct u v 1 / b ^ 2 +
        Q 2 * crossProduct u v 2 / c ^ 2 = 0) := by
  have h : Valid ⟨a, b, c, 90, 90, 90⟩ := by constructor <;> first | assumption | norm_num
  have hn := cross_ne_zero hi
  have hp := pi_pos
  obtain ⟨E, F, hE, hF⟩ := valid_realised h
  obtain ⟨φ, h1, h2, h3, _⟩ := C42_range h hQ hn
  refine ⟨φ, h1, h2, h3, ?_⟩
  rw [C42_angle h hE hF hQ hn] at h1
  have hφ : angleDeg (vecOf F Q) (vecOf F (crossProduct u v)) = φ := Except.ok.inj h1
  have hp1 : 0 < len (vecOf F Q) := sqrt_pos.2 (vecOf_ne_zero h hE hF hQ)
  have hp2 : 0 < len (vecOf F (crossProduct u v)) := sqrt_pos.2 (vecOf_ne_zero h hE hF hn)
  have hdot : vecOf F Q ⬝ᵥ vecOf F (crossProduct u v) = 4 * π ^ 2 * (Q 0 * crossProduct u v 0 / a ^ 2 +
      Q 1 * crossProduct u v 1 / b ^ 2 + Q 2 * crossProduct u v 2 / c ^ 2) := by
    have c0 : cos (deg2rad 90) = 0 := by
      rw [show deg2rad 90 = π / 2 by unfold deg2rad; ring]; exact cos_pi_div_two
    have s1 : sin (deg2rad 90) = 1 := by
      rw [show deg2rad 90 = π / 2 by unfold deg2rad; ring]; exact sin_pi_div_two
    rw [vecOf_dot (dual_gram h hE hF)]
    generalize crossProduct u v = n
    simp only [gstarOf, disc, Lattice.alphaRad, Lattice.betaRad, Lattice.gammaRad, c0, s1]
    simp [mulVec, dotProduct, Fin.sum_univ_three]
    field_simp
  rw [← hφ, angleDeg, hdot]
  constructor
  · intro h90
    have h4 : arccos (4 * π ^ 2 * (Q 0 * crossProduct u v 0 / a ^ 2 +
        Q 1 * crossProduct u v 1 / b ^ 2 + Q 2 * crossProduct u v 2 / c ^ 2) /
        (len (vecOf F Q) * len (vecOf F (crossProduct u v)))) = π / 2 := by
      rw [div_eq_iff hp.ne'] at h90
      linarith
    rw [arccos_eq_pi_div_two, div_eq_zero_iff] at h4
    rcases h4 with h4 | h4
    · exact (mul_eq_zero.1 h4).resolve_left (by positivity)
    · exact absurd h4 (by positivity)
  · intro h0
    rw [h0, mul_zero, zero_div, arccos_zero]
    field_simp
    norm_num

/-- **C94** (partial) in a cubic cell every scattering vector in the plane of `u` and `v` makes a right angle
with its normal, and no other does. -/
theorem C94_cubic_partial {a : ℝ} (ha : 0 < a) {u v : Vec} (hi : Indep u v) (s t r : ℝ)
    (hQ : s • u + t • v + r • crossProduct u v ≠ 0) :
    ∃ φ, getPhi ⟨a, a, a, 90, 90, 90⟩ u v (s • u + t • v + r • crossProduct u v) = .ok φ ∧ (φ = 90 ↔ r = 0) := by
  obtain ⟨φ, h1, _, _, h2⟩ := C94_orthogonal_partial ha ha ha hi hQ
  refine ⟨φ, h1, h2.trans ?_⟩
  have hn := cross_ne_zero hi
  have hpos : crossProduct u v ⬝ᵥ crossProduct u v ≠ 0 := fun h => hn (dotProduct_self_eq_zero.1 h)
  have key : (s • u + t • v + r • crossProduct u v) 0 * crossProduct u v 0 / a ^ 2 +
      (s • u + t • v + r • crossProduct u v) 1 * crossProduct u v 1 / a ^ 2 +
      (s • u + t • v + r • crossProduct u v) 2 * crossProduct u v 2 / a ^ 2 =
      r * (crossProduct u v ⬝ᵥ crossProduct u v) / a ^ 2 := by
    simp only [cross_apply, dotProduct, Fin.sum_univ_three, Pi.add_apply, Pi.smul_apply, smul_eq_mul, cons_val_zero,
      cons_val_one, cons_val]
    field_simp
    ring
  rw [key, div_eq_zero_iff, mul_eq_zero]
  constructor
  · rintro ((h | h) | h)
    · exact h
    · exact absurd h hpos
    · exact absurd h (by positivity)
  · intro h
    exact .inl (.inl h)

/-- **C94** is false otherwise: in a tetragonal cell the second orientation vector itself is reported to be out
of the plane it defines. -/
theorem C94_tetragonal_false : ∃ (l : Lattice) (u v : Vec), Valid l ∧ Indep u v ∧
    ∃ φ, getPhi l u v v = .ok φ ∧ φ ≠ 90 := by
  have h : Valid ⟨1, 1, 2, 90, 90, 90⟩ := by constructor <;> norm_num
  have hi : Indep ![1, 0, 0] ![0, 1, 1] := by
    intro s t h
    have h0 := congrFun h 0
    have h1 := congrFun h 1
    simp at h0 h1
    exact ⟨h0, h1⟩
  have hQ : (![0, 1, 1] : Vec) ≠ 0 := by
    intro h0
    have := congrFun h0 1
    simp at this
  obtain ⟨φ, h1, _, _, h2⟩ := C94_orthogonal_partial (a := 1) (b := 1) (c := 2) one_pos one_pos two_pos hi hQ
  refine ⟨_, _, _, h, hi, φ, h1, fun h3 => ?_⟩
  have := h2.1 h3
  simp [cross_apply] at this
  norm_num at this

/-- Example: the hypotheses of the cubic theorem are met by a vector outside the plane. -/
example : Indep ![1, 1, 0] ![0, 0, 1] ∧
    (1 : ℝ) • (![1, 1, 0] : Vec) + (0 : ℝ) • ![0, 0, 1] + (2 : ℝ) • crossProduct ![1, 1, 0] ![0, 0, 1] ≠ 0 := by
  constructor
  · intro s t h
    have h0 := congrFun h 0
    have h2 := congrFun h 2
    simp at h0 h2
    exact ⟨h0, h2⟩
  · intro h
    have h1 := congrFun h 1
    simp [cross_apply] at h1
    norm_num at h1

end Verif.Crystal
