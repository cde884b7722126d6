import Verif.Tools.PropsWidths

/-!
# Property C222: a projection is the shadow of the ellipsoid, and never narrower than a cut
-/

namespace Verif.Tools

open Real Matrix MeasureTheory
open Verif.Crystal (Fail npSqrt npArccos npDiv)

/-- **C222** the ellipse of a projection is the shadow of the ellipsoid: a point lies in it exactly if some point of
the ellipsoid lies above or below, whatever the size of the ellipsoid. -/
theorem C222_shadow {n : ℕ} {M : Matrix (Fin (n + 1)) (Fin (n + 1)) ℝ} (h : SPD M) (i : Fin (n + 1)) (r0 : ℝ) :
    ∃ r P, projectIntoPlane i r0 M = .ok (r, P) ∧
      ∀ c y, quad P y ≤ c ↔ ∃ t, quad M (i.insertNth (α := fun _ => ℝ) t y) ≤ c := by
  have hd := h.diag i
  refine ⟨_, _, project_ok hd, fun c y => ⟨fun hc => ?_, ?_⟩⟩
  · refine ⟨-(∑ k, (M (i.succAbove k) i + M i (i.succAbove k)) * y k) / (2 * M i i), ?_⟩
    rw [quad_project hd _ _ y rfl, ← add_div, neg_add_cancel, zero_div, zero_pow two_ne_zero, mul_zero, zero_add]
    exact hc
  · rintro ⟨t, ht⟩
    rw [quad_project hd _ _ y rfl] at ht
    refine le_trans ?_ ht
    have : 0 ≤ M i i * (t + (∑ k, (M (i.succAbove k) i + M i (i.succAbove k)) * y k) / (2 * M i i)) ^ 2 := by positivity
    linarith

/-- **C222** the cut through the ellipsoid lies inside its projection, and the two are the same exactly if the
component that was projected out is not correlated with any of the others. -/
theorem C222_cut {n : ℕ} {M : Matrix (Fin (n + 1)) (Fin (n + 1)) ℝ} (h : SPD M) (i : Fin (n + 1)) (r0 : ℝ) :
    ∃ r P, projectIntoPlane i r0 M = .ok (r, P) ∧
      (∀ y, quad P y ≤ quad M (i.insertNth (α := fun _ => ℝ) 0 y)) ∧
      ((∀ y, quad P y = quad M (i.insertNth (α := fun _ => ℝ) 0 y)) ↔ ∀ k, k ≠ i → M k i = 0) := by
  have hd := h.diag i
  obtain ⟨r, P, hP, hs⟩ := C222_shadow h i r0
  refine ⟨r, P, hP, fun y => (hs _ y).2 ⟨0, le_rfl⟩, ?_⟩
  have hPe := (Prod.mk.inj (Except.ok.inj ((project_ok (r0 := r0) hd).symm.trans hP))).2
  have hq : ∀ y, quad M (i.insertNth (α := fun _ => ℝ) 0 y) =
      M i i * ((∑ k, (M (i.succAbove k) i + M i (i.succAbove k)) * y k) / (2 * M i i)) ^ 2 + quad P y := by
    intro y
    rw [quad_project hd _ 0 y rfl, hPe, zero_add]
  constructor
  · intro he k hk
    obtain ⟨j, rfl⟩ := Fin.exists_succAbove_eq hk
    have h1 := he (Pi.single j 1)
    rw [hq] at h1
    have h2 : M i i * ((∑ k, (M (i.succAbove k) i + M i (i.succAbove k)) * (Pi.single j 1 : Fin n → ℝ) k) / (2 * M i i)) ^ 2 = 0 := by
      linarith
    rw [mul_eq_zero, or_iff_right hd.ne', sq_eq_zero_iff, div_eq_zero_iff, or_iff_left (by positivity)] at h2
    simp only [Pi.single_apply, mul_ite, mul_one, mul_zero, Finset.sum_ite_eq', Finset.mem_univ, if_true] at h2
    rw [h.symm i] at h2
    linarith
  · intro h0 y
    rw [hq]
    have : ∑ k, (M (i.succAbove k) i + M i (i.succAbove k)) * y k = 0 := by
      refine Finset.sum_eq_zero fun k _ => ?_
      rw [h.symm i, h0 _ (Fin.succAbove_ne i k)]
      ring
    rw [this, zero_div, zero_pow two_ne_zero, mul_zero, zero_add]

/-- The entries of a successful projection along the first axis of a symmetric matrix. -/
theorem shadow_entry {n : ℕ} {M : Matrix (Fin (n + 1)) (Fin (n + 1)) ℝ} (h : SPD M) (r0 : ℝ) :
    ∃ r P, projectIntoPlane 0 r0 M = .ok (r, P) ∧ SPD P ∧
      ∀ k l : Fin n, P k l = M k.succ l.succ - M k.succ 0 * M l.succ 0 / M 0 0 := by
  obtain ⟨r, P, hP, -, hs, -⟩ := C55_marginal h 0 r0
  refine ⟨r, P, hP, hs, fun k l => ?_⟩
  have hd := h.diag 0
  rw [← (Prod.mk.inj (Except.ok.inj ((project_ok (r0 := r0) hd).symm.trans hP))).2]
  simp only [Matrix.sub_apply, Matrix.smul_apply, vecMulVec_apply, submatrix_apply, smul_eq_mul, Fin.succAbove_zero]
  rw [h.symm 0 k.succ, h.symm 0 l.succ]
  field_simp
  ring

theorem phononT_last : phononT ![0, 0, 0, 1] = 1 := by
  unfold phononT
  ext a b
  fin_cases a <;> fin_cases b <;> simp [updateRow_apply]

theorem widths_le {a b : ℝ} (ha : 0 < a) (hab : a ≤ b) {c : ℝ} (hc : 0 < c) :
    √c / √b ≤ √c / √a ∧ (√c / √b = √c / √a ↔ a = b) := by
  have hb := ha.trans_le hab
  have sa := sqrt_pos.2 ha
  have sb := sqrt_pos.2 hb
  have sc := sqrt_pos.2 hc
  refine ⟨div_le_div_of_nonneg_left sc.le sa (sqrt_le_sqrt hab), fun he => ?_, fun he => by rw [he]⟩
  rw [div_eq_div_iff sb.ne' sa.ne'] at he
  exact (sqrt_inj ha.le hb.le).1 (mul_left_cancel₀ sc.ne' he)

/-- **C222** the width that `get_bragg_widths` gives for vanadium is never smaller than the one it gives for the energy at
a Bragg peak, and the two are equal exactly if the energy is not correlated with the momentum. -/
theorem C222_vanadium {M : Matrix (Fin 4) (Fin 4) ℝ} (h : SPD M) : ∃ w, getBraggWidths M = .ok w ∧ w 4 ≤ w 3 ∧
    (w 4 = w 3 ↔ M 0 3 = 0 ∧ M 1 3 = 0 ∧ M 2 3 = 0) := by
  have hl : 0 < log 2 := log_pos one_lt_two
  obtain ⟨r1, P1, e1, s1, f1⟩ := shadow_entry h 0
  obtain ⟨r2, P2, e2, s2, f2⟩ := shadow_entry s1 r1
  obtain ⟨r3, P3, e3, s3, f3⟩ := shadow_entry s2 r2
  have hp := s3.diag 0
  have hv : getPhononWidth 0 M ![0, 0, 0, 1] = .ok (r3, √(8 * log 2) / √(P3 0 0)) := by
    unfold getPhononWidth
    rw [if_neg (by rw [phononT_det]; simp), phononT_last]
    simp only [inv_one, transpose_one, one_mul, mul_one]
    rw [e1, ok_bind, e2, ok_bind, e3, ok_bind, npSqrt, if_pos hp.le, ok_bind, npDiv, if_neg (sqrt_pos.2 hp).ne', ok_bind]
    rfl
  have hw : getBraggWidths M = .ok ![√(8 * log 2) / √(M 0 0) * 2, √(8 * log 2) / √(M 1 1) * 2, √(8 * log 2) / √(M 2 2) * 2,
      √(8 * log 2) / √(P3 0 0) * 2, √(8 * log 2) / √(M 3 3) * 2] := by
    unfold getBraggWidths
    rw [widthOf_ok (h.diag 0), widthOf_ok (h.diag 1), widthOf_ok (h.diag 2), widthOf_ok (h.diag 3), hv]
    rfl
  have hm := h.diag 0
  have hm1 := s1.diag 0
  have hm2 := s2.diag 0
  -- the three complements one after the other
  have g3 : P3 0 0 = P2 1 1 - P2 1 0 ^ 2 / P2 0 0 := by
    rw [f3, sq]
    rfl
  have g2 : P2 1 1 = P1 2 2 - P1 2 0 ^ 2 / P1 0 0 := by
    rw [f2, sq]
    rfl
  have g1 : P1 2 2 = M 3 3 - M 3 0 ^ 2 / M 0 0 := by
    rw [f1, sq]
    rfl
  have q1 : P1 2 0 = M 3 1 - M 3 0 * M 1 0 / M 0 0 := f1 2 0
  have q2 : P1 2 1 = M 3 2 - M 3 0 * M 2 0 / M 0 0 := f1 2 1
  have q3 : P2 1 0 = P1 2 1 - P1 2 0 * P1 1 0 / P1 0 0 := f2 1 0
  have n1 : 0 ≤ M 3 0 ^ 2 / M 0 0 := by positivity
  have n2 : 0 ≤ P1 2 0 ^ 2 / P1 0 0 := by positivity
  have n3 : 0 ≤ P2 1 0 ^ 2 / P2 0 0 := by positivity
  obtain ⟨hle, heq⟩ := widths_le hp (b := M 3 3) (by linarith) (c := 8 * log 2) (by positivity)
  refine ⟨_, hw, ?_, ?_⟩
  · change √(8 * log 2) / √(M 3 3) * 2 ≤ √(8 * log 2) / √(P3 0 0) * 2
    linarith
  · change √(8 * log 2) / √(M 3 3) * 2 = √(8 * log 2) / √(P3 0 0) * 2 ↔ _
    rw [mul_left_inj' (two_ne_zero (α := ℝ)), heq, h.symm 0 3, h.symm 1 3, h.symm 2 3]
    constructor
    · intro he
      have z1 : M 3 0 ^ 2 / M 0 0 = 0 := by linarith
      have z2 : P1 2 0 ^ 2 / P1 0 0 = 0 := by linarith
      have z3 : P2 1 0 ^ 2 / P2 0 0 = 0 := by linarith
      rw [div_eq_zero_iff, or_iff_left hm.ne', sq_eq_zero_iff] at z1
      rw [div_eq_zero_iff, or_iff_left hm1.ne', sq_eq_zero_iff] at z2
      rw [div_eq_zero_iff, or_iff_left hm2.ne', sq_eq_zero_iff] at z3
      rw [z2, z1, zero_mul, zero_div, sub_zero] at q1
      rw [z1, zero_mul, zero_div, sub_zero] at q2
      rw [z3, z2, zero_mul, zero_div, sub_zero, q2] at q3
      exact ⟨z1, q1.symm, q3.symm⟩
    · rintro ⟨z1, z2, z3⟩
      rw [z1, z2, zero_mul, zero_div, sub_zero] at q1
      rw [z1, z3, zero_mul, zero_div, sub_zero] at q2
      rw [q1, q2, zero_mul, zero_div, sub_zero] at q3
      rw [g3, g2, g1, z1, q1, q3]
      simp

/-- **C222** the half width of `fproject` along an axis is never smaller than that of the cut along the axis, half of the full
width at half maximum there, and the two are equal exactly if the quantity on the axis is not correlated with the
other two. -/
theorem C222_fproject {M : Matrix (Fin 3) (Fin 3) ℝ} (h : SPD M) (i : Fin 3) {u : ℝ}
    (hu : IsFWHM (fun x => exp (-quad M (Pi.single i x) / 2)) u) :
    ∃ w, fproject M (i : ℕ) = .ok w ∧ u / 2 ≤ w ∧ (u / 2 = w ↔ ∀ k, k ≠ i → M k i = 0) := by
  have hl : 0 < log 2 := log_pos one_lt_two
  have hc : u = √(8 * log 2) / √(M i i) := by
    refine hu.unique ?_
    simp only [quad_axis]
    simpa using gauss_fwhm one_pos (h.diag i)
  have hu2 : u / 2 = √(2 * log 2) / √(M i i) := by
    rw [hc, show 8 * log 2 = 2 ^ 2 * (2 * log 2) by ring, sqrt_mul (by norm_num), sqrt_sq (by norm_num)]
    ring
  have minor : ∀ a b : Fin 3, a ≠ b → 0 < M a a * M b b - M b a ^ 2 := by
    intro a b hab
    have := h.pos (fun k => if k = a then -M b a else if k = b then M a a else 0)
      ⟨b, by simpa [hab.symm] using (h.diag a).ne'⟩
    have e : quad M (fun k => if k = a then -M b a else if k = b then M a a else 0) = M a a * (M a a * M b b - M b a ^ 2) := by
      have s10 := h.symm 1 0
      have s20 := h.symm 2 0
      have s21 := h.symm 2 1
      fin_cases a <;> fin_cases b <;> first | exact absurd rfl hab | skip
      all_goals
        simp [quad, Fin.sum_univ_three, s10, s20, s21]
        ring
    rw [e] at this
    exact pos_of_mul_pos_right this (h.diag a).le
  have hinv : fproject M (i : ℕ) = .ok √(2 * log 2 * M⁻¹ i i) := C90_fproject h i
  have hnum : 0 < √(2 * log 2) := by positivity
  have key : ∀ v j : Fin 3, v ≠ j → (∀ k, k ≠ i ↔ k = v ∨ k = j) →
      fproject M (i : ℕ) = (do
        let a ← npDiv (M i v ^ 2) (M v v)
        let b ← npDiv (M i v * M j v) (M v v)
        let c ← npDiv (M j v ^ 2) (M v v)
        let d ← npDiv ((M i j - b) ^ 2) (M j j - c)
        npDiv (√(2 * log 2)) (← npSqrt (M i i - a - d))) →
      ∃ w, fproject M (i : ℕ) = .ok w ∧ u / 2 ≤ w ∧ (u / 2 = w ↔ ∀ k, k ≠ i → M k i = 0) := by
    intro v j hvj hki hf
    have dv := h.diag v
    have hj : 0 < M j j - M j v ^ 2 / M v v := by
      have e : M j j - M j v ^ 2 / M v v = (M v v * M j j - M j v ^ 2) / M v v := by field_simp
      rw [e]
      exact div_pos (minor v j hvj) dv
    unfold npDiv npSqrt at hf
    simp only [if_neg dv.ne', ok_bind, if_neg hj.ne'] at hf
    have n1 : 0 ≤ M i v ^ 2 / M v v := by positivity
    have n2 : 0 ≤ (M i j - M i v * M j v / M v v) ^ 2 / (M j j - M j v ^ 2 / M v v) := by positivity
    have hpos : 0 < M i i - M i v ^ 2 / M v v - (M i j - M i v * M j v / M v v) ^ 2 / (M j j - M j v ^ 2 / M v v) := by
      by_contra hn
      rw [hinv] at hf
      by_cases h1 : 0 ≤ M i i - M i v ^ 2 / M v v - (M i j - M i v * M j v / M v v) ^ 2 / (M j j - M j v ^ 2 / M v v)
      · rw [if_pos h1, ok_bind, if_pos (by rw [le_antisymm (not_lt.1 hn) h1, sqrt_zero]), if_neg hnum.ne'] at hf
        cases hf
      · rw [if_neg h1] at hf
        cases hf
    rw [if_pos hpos.le, ok_bind, if_neg (sqrt_pos.2 hpos).ne'] at hf
    obtain ⟨hle, heq⟩ := widths_le hpos (b := M i i) (by linarith) (c := 2 * log 2) (by positivity)
    refine ⟨_, hf, by rw [hu2]; exact hle, ?_⟩
    rw [hu2, heq]
    constructor
    · intro he k hk
      have z1 : M i v ^ 2 / M v v = 0 := by linarith
      have z2 : (M i j - M i v * M j v / M v v) ^ 2 / (M j j - M j v ^ 2 / M v v) = 0 := by linarith
      rw [div_eq_zero_iff, or_iff_left dv.ne', sq_eq_zero_iff] at z1
      rw [div_eq_zero_iff, or_iff_left hj.ne', sq_eq_zero_iff, z1, zero_mul, zero_div, sub_zero] at z2
      rcases (hki k).1 hk with rfl | rfl
      · rw [h.symm, z1]
      · rw [h.symm, z2]
    · intro h0
      have z1 : M i v = 0 := by rw [h.symm, h0 v ((hki v).2 (.inl rfl))]
      have z2 : M i j = 0 := by rw [h.symm, h0 j ((hki j).2 (.inr rfl))]
      rw [z1, z2]
      simp
  fin_cases i
  · exact key 2 1 (by decide) (by decide) rfl
  · exact key 0 2 (by decide) (by decide) rfl
  · exact key 0 1 (by decide) (by decide) rfl

/-- A matrix with correlations that meets the hypotheses: the cut and the projection differ. -/
example : SPD (!![2, 1, 0; 1, 3, -1; 0, -1, 4] : Matrix (Fin 3) (Fin 3) ℝ) := by
  constructor
  · intro k l
    fin_cases k <;> fin_cases l <;> rfl
  · rintro x ⟨k, hk⟩
    have e : quad (!![2, 1, 0; 1, 3, -1; 0, -1, 4] : Matrix (Fin 3) (Fin 3) ℝ) x =
        (x 0 + x 1) ^ 2 + x 0 ^ 2 + x 1 ^ 2 + (x 1 - x 2) ^ 2 + 3 * x 2 ^ 2 := by
      simp [quad, Fin.sum_univ_three]
      ring
    rw [e]
    have hp : 0 < x k ^ 2 := by positivity
    fin_cases k
    · change 0 < x 0 ^ 2 at hp
      positivity
    · change 0 < x 1 ^ 2 at hp
      positivity
    · change 0 < x 2 ^ 2 at hp
      positivity

end Verif.Tools
