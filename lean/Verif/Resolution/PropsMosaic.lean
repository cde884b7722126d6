import Mathlib.Data.Matrix.ColumnRowPartitioned
import Verif.Resolution.PropsFlight

/-! # Property theorems: the sample mosaic (C122, C123) -/

namespace Verif.Resolution

open Real Matrix
open Verif.Crystal (Fail npSqrt npArcsin npDiv)
open Verif.Tools (arctan2 quad SPD Closes)

/-! ## Every reachable point has a nominal setting -/

theorem nominal_exists {s : Settings} {n : ℕ} (h : s.Valid n) {q w : ℝ} (hr : Reaches s q w) :
    ∃ ki kf tm ta tt, IsNominal s q w ki kf tm ta tt := by
  have hki : 0 < wavevector (incident s w) := Real.sqrt_pos.2 (div_pos hr.ei (by norm_num))
  have hkf : 0 < wavevector (final s w) := Real.sqrt_pos.2 (div_pos hr.ef (by norm_num))
  have ei : 2.072 * wavevector (incident s w) ^ 2 = incident s w := by
    rw [wavevector, Real.sq_sqrt (div_pos hr.ei (by norm_num)).le, mul_div_cancel₀ _ (by norm_num)]
  have ef : 2.072 * wavevector (final s w) ^ 2 = final s w := by
    rw [wavevector, Real.sq_sqrt (div_pos hr.ef (by norm_num)).le, mul_div_cancel₀ _ (by norm_num)]
  set ki := wavevector (incident s w)
  set kf := wavevector (final s w)
  have bragg : ∀ {k d tau : ℝ}, 0 < k → 0 < tau → tau < 2 * k → (d = 1 ∨ d = -1) →
      |arcsin (d * (tau / (2 * k)))| < π / 2 ∧ 2 * k * sin (arcsin (d * (tau / (2 * k)))) = d * tau := by
    intro k d tau hk ht hlt hd
    have h0 : 0 < tau / (2 * k) := by positivity
    have h1 : tau / (2 * k) < 1 := by rw [div_lt_one (by positivity)]; exact hlt
    have hb : -1 < d * (tau / (2 * k)) ∧ d * (tau / (2 * k)) < 1 := by
      rcases hd with rfl | rfl <;> constructor <;> linarith
    refine ⟨abs_lt.2 ⟨neg_pi_div_two_lt_arcsin.2 hb.1, arcsin_lt_pi_div_two.2 hb.2⟩, ?_⟩
    rw [sin_arcsin hb.1.le hb.2.le]
    field_simp
  obtain ⟨u, v, hu, hv, huv⟩ := hr.closes
  have h1 := norm_sub_le u v
  have h2 := abs_norm_sub_norm_le u v
  rw [hu, hv, huv] at h1 h2
  rw [abs_le] at h2
  have hq := hr.q
  have z1 : -1 ≤ (ki ^ 2 + kf ^ 2 - q ^ 2) / (2 * ki * kf) := by
    rw [le_div_iff₀ (by positivity)]; nlinarith
  have z2 : (ki ^ 2 + kf ^ 2 - q ^ 2) / (2 * ki * kf) ≤ 1 := by
    rw [div_le_iff₀ (by positivity)]
    nlinarith [sq_nonneg (q - (ki - kf)), sq_nonneg (q + (ki - kf))]
  refine ⟨ki, kf, _, _, s.sample.dir * arccos ((ki ^ 2 + kf ^ 2 - q ^ 2) / (2 * ki * kf)), ⟨hki, ei⟩, ⟨hkf, ef⟩,
    bragg hki h.mono.tau hr.mono h.mono.dir, bragg hkf h.ana.tau hr.ana h.ana.dir, ?_, ?_⟩
  · have hc : cos (s.sample.dir * arccos ((ki ^ 2 + kf ^ 2 - q ^ 2) / (2 * ki * kf))) =
        (ki ^ 2 + kf ^ 2 - q ^ 2) / (2 * ki * kf) := by
      rcases h.sample.dir with h | h <;> rw [h]
      · rw [one_mul, cos_arccos z1 z2]
      · rw [neg_one_mul, cos_neg, cos_arccos z1 z2]
    rw [hc]
    field_simp
    ring
  · have : s.sample.dir * (s.sample.dir * arccos ((ki ^ 2 + kf ^ 2 - q ^ 2) / (2 * ki * kf))) =
        arccos ((ki ^ 2 + kf ^ 2 - q ^ 2) / (2 * ki * kf)) := by
      rcases h.sample.dir with h | h <;> rw [h] <;> ring
    rw [this]
    exact ⟨arccos_nonneg _, arccos_le_pi _⟩

/-- The default instrument at an inelastic point. -/
example : ∃ ki kf tm ta tt, transfer 1 ki kf tm ta tt 0 = ![1, 0, 0, 1 / 2] ∧
    ∃ r RM, calcInQ demo [(1, 1 / 2)] = .ok [(r, RM)] ∧ ∀ d,
      IsLeast {x | ∃ v, fderiv ℝ (transfer 1 ki kf tm ta tt) 0 v = d ∧
        x = cost demo ki kf v (fderiv ℝ (misset ki kf tm ta) 0 v)} (quad RM d) := by
  have hr : Reaches demo 1 (1 / 2) := demo_reaches (by norm_num) (by norm_num) (by norm_num) (by norm_num)
  obtain ⟨ki, kf, tm, ta, tt, hn⟩ := nominal_exists (demo_valid 1) hr
  obtain ⟨h0, -, -, h⟩ := C122_flight_partial (demo_valid 1) (by simp [Settings.popovici, Settings.theMethod, demo])
    (by norm_num [demo]) ⟨by norm_num [demo], by norm_num [demo], by norm_num [demo], by norm_num [demo]⟩ rfl rfl hr hn
  exact ⟨ki, kf, tm, ta, tt, h0, h⟩

/-! ## With a sample mosaic -/

/-- The two angles by which a crystallite of the sample is turned, as deviations of the momentum. -/
def sampleTurn (q : ℝ) (e : Fin 2 → ℝ) : Fin 4 → ℝ := ![0, q * e 0, q * e 1, 0]

theorem fromBlocks_posDef {m n : Type} [Fintype m] [Fintype n] [DecidableEq m] [DecidableEq n] {X : Matrix m m ℝ}
    {Y : Matrix n n ℝ} (hX : X.PosDef) (hY : Y.PosDef) : (fromBlocks X 0 0 Y).PosDef := by
  refine PosDef.of_dotProduct_mulVec_pos ?_ fun {x} hx => ?_
  · rw [IsHermitian, fromBlocks_conjTranspose, hX.isHermitian.eq, hY.isHermitian.eq]
    simp
  · rw [fromBlocks_mulVec]
    simp only [zero_mulVec, add_zero, zero_add, star_trivial]
    have e : x ⬝ᵥ Sum.elim (X *ᵥ (x ∘ Sum.inl)) (Y *ᵥ (x ∘ Sum.inr)) =
        (x ∘ Sum.inl) ⬝ᵥ (X *ᵥ (x ∘ Sum.inl)) + (x ∘ Sum.inr) ⬝ᵥ (Y *ᵥ (x ∘ Sum.inr)) := by
      simp [dotProduct]
    rw [e]
    have h1 := hX.posSemidef.dotProduct_mulVec_nonneg (x ∘ Sum.inl)
    have h2 := hY.posSemidef.dotProduct_mulVec_nonneg (x ∘ Sum.inr)
    simp only [star_trivial] at h1 h2
    by_cases hl : x ∘ Sum.inl = 0
    · have hr : x ∘ Sum.inr ≠ 0 := by
        intro hr
        apply hx
        ext i
        cases i with
        | inl i => exact congrFun hl i
        | inr i => exact congrFun hr i
      have := hY.dotProduct_mulVec_pos hr
      simp only [star_trivial] at this
      linarith
    · have := hX.dotProduct_mulVec_pos hl
      simp only [star_trivial] at this
      linarith

/-- Two independent sources of deviations. -/
theorem least_cost_add {m n p : ℕ} {H : Matrix (Fin m) (Fin m) ℝ} (hH : H.PosDef) {D : Matrix (Fin n) (Fin n) ℝ}
    (hD : D.PosDef) (J : Matrix (Fin p) (Fin m) ℝ) (S : Matrix (Fin p) (Fin n) ℝ)
    (hM : (J * H⁻¹ * Jᵀ + S * D⁻¹ * Sᵀ).PosDef) (d : Fin p → ℝ) :
    IsLeast {c | ∃ v e, J *ᵥ v + S *ᵥ e = d ∧ c = v ⬝ᵥ (H *ᵥ v) + e ⬝ᵥ (D *ᵥ e)}
      (d ⬝ᵥ ((J * H⁻¹ * Jᵀ + S * D⁻¹ * Sᵀ)⁻¹ *ᵥ d)) := by
  have hB := fromBlocks_posDef hH hD
  have uH : IsUnit H := (isUnit_iff_isUnit_det _).2 hH.det_pos.ne'.isUnit
  have uD : IsUnit D := (isUnit_iff_isUnit_det _).2 hD.det_pos.ne'.isUnit
  have hinv : (fromBlocks H 0 0 D)⁻¹ = fromBlocks H⁻¹ 0 0 D⁻¹ := by
    refine Matrix.inv_eq_left_inv ?_
    rw [fromBlocks_multiply]
    simp [nonsing_inv_mul _ hH.det_pos.ne'.isUnit, nonsing_inv_mul _ hD.det_pos.ne'.isUnit]
  have hJ : fromCols J S * (fromBlocks H 0 0 D)⁻¹ * (fromCols J S)ᵀ = J * H⁻¹ * Jᵀ + S * D⁻¹ * Sᵀ := by
    rw [hinv, transpose_fromCols, fromCols_mul_fromBlocks, fromCols_mul_fromRows]
    simp
  have := least_cost hB (fromCols J S) (by rw [hJ]; exact hM) d
  rw [hJ] at this
  convert this using 1
  ext c
  constructor
  · rintro ⟨v, e, h1, h2⟩
    refine ⟨Sum.elim v e, ?_, ?_⟩
    · rw [← h1, fromCols_mulVec_sumElim]
    · rw [h2, fromBlocks_mulVec]
      simp [dotProduct]
  · rintro ⟨x, h1, h2⟩
    refine ⟨x ∘ Sum.inl, x ∘ Sum.inr, ?_, ?_⟩
    · rw [← h1, ← fromCols_mulVec_sumElim, Sum.elim_comp_inl_inr]
    · rw [h2, fromBlocks_mulVec]
      simp [dotProduct]

/-- Deviations by the angles of flight or by crystallites of the sample that are turned. -/
theorem least_mosaic {m : ℕ} {H : Matrix (Fin m) (Fin m) ℝ} (hH : H.PosDef) (J : Matrix (Fin 4) (Fin m) ℝ)
    (hM : (J * H⁻¹ * Jᵀ).PosDef) {q a b : ℝ} (a0 : 0 < a) (b0 : 0 < b) (d : Fin 4 → ℝ) :
    IsLeast {x | ∃ v e, J *ᵥ v + sampleTurn q e = d ∧ x = v ⬝ᵥ (H *ᵥ v) + ((e 0 / a) ^ 2 + (e 1 / b) ^ 2)}
      (d ⬝ᵥ ((J * H⁻¹ * Jᵀ + diagonal ![0, q ^ 2 * a ^ 2, q ^ 2 * b ^ 2, 0])⁻¹ *ᵥ d)) := by
  have hD : (diagonal ![1 / a ^ 2, 1 / b ^ 2]).PosDef := by
    refine diagonal_posDef fun i => ?_
    fin_cases i <;> simp <;> positivity
  have hDi : (diagonal ![1 / a ^ 2, 1 / b ^ 2])⁻¹ = diagonal ![a ^ 2, b ^ 2] := by
    refine Matrix.inv_eq_left_inv ?_
    rw [diagonal_mul_diagonal, ← diagonal_one]
    congr 1
    ext i
    fin_cases i <;> simp <;> field_simp
  let S : Matrix (Fin 4) (Fin 2) ℝ := !![0, 0; q, 0; 0, q; 0, 0]
  have hS : S * (diagonal ![1 / a ^ 2, 1 / b ^ 2])⁻¹ * Sᵀ = diagonal ![0, q ^ 2 * a ^ 2, q ^ 2 * b ^ 2, 0] := by
    have hSD : S * diagonal ![a ^ 2, b ^ 2] = !![0, 0; q * a ^ 2, 0; 0, q * b ^ 2; 0, 0] := by
      ext i j
      rw [mul_diagonal]
      fin_cases i <;> fin_cases j <;> simp [S]
    rw [hDi, hSD]
    ext i j
    fin_cases i <;> fin_cases j <;> simp [S, Matrix.mul_apply, Fin.sum_univ_succ] <;> ring
  have hpos : (J * H⁻¹ * Jᵀ + S * (diagonal ![1 / a ^ 2, 1 / b ^ 2])⁻¹ * Sᵀ).PosDef := by
    rw [hS]
    refine hM.add_posSemidef (PosSemidef.diagonal fun i => ?_)
    fin_cases i <;> simp <;> positivity
  have hlc := least_cost_add hH hD J S hpos d
  rw [hS] at hlc
  have hSe : ∀ e, S *ᵥ e = sampleTurn q e := fun e => by
    ext i
    fin_cases i <;> simp [sampleTurn, S, mulVec, dotProduct, Fin.sum_univ_succ]
  have hDe : ∀ e, e ⬝ᵥ (diagonal ![1 / a ^ 2, 1 / b ^ 2] *ᵥ e) = (e 0 / a) ^ 2 + (e 1 / b) ^ 2 := fun e => by
    simp [mulVec_diagonal, dotProduct, Fin.sum_univ_succ]
    ring
  simp only [hSe, hDe] at hlc
  exact hlc

/-- C122 with a sample mosaic: a neutron may deviate by its angles of flight or because it meets a
crystallite of the sample that is turned; the cost of turning is that of the two mosaics.  Missing: as in
`C122_flight_partial`. -/
theorem C122_flight_mosaic_partial {s : Settings} (h : s.Valid 1) (hp : s.popovici = false) (hf : s.horifoc.getD (-1) ≤ 0)
    (hg : s.Collimated) (hv : s.mono.vmosaic.getD s.mono.mosaic = s.mono.mosaic)
    {m : ℝ} (hmos : s.sample.mosaic = some m) (m0 : 0 < m) (v0 : Pos s.sample.vmosaic) {q w : ℝ} (hr : Reaches s q w)
    {ki kf tm ta tt : ℝ} (hn : IsNominal s q w ki kf tm ta tt) :
    ∃ r RM, calcInQ s [(q, w)] = .ok [(r, RM)] ∧ ∀ d,
      IsLeast {x | ∃ v e, fderiv ℝ (transfer q ki kf tm ta tt) 0 v + sampleTurn q e = d ∧
        x = cost s ki kf v (fderiv ℝ (misset ki kf tm ta) 0 v) +
          ((e 0 / (m * arcmin)) ^ 2 + (e 1 / (s.sample.vmosaic.getD m * arcmin)) ^ 2)} (quad RM d) := by
  obtain ⟨c, k, r, RM, hd, ek, gk, hc, hl, hcalc, hM, hRM⟩ := calc_cn h hp hf hr hn
  have sm : sin tm ≠ 0 := by
    have := right_ne_zero_of_mul gk.sm.ne'
    rwa [ek] at this
  have sa : sin ta ≠ 0 := by
    have := right_ne_zero_of_mul gk.sa.ne'
    rwa [ek] at this
  have dt := transfer_diff q (ki := ki) (kf := kf) tt sm sa
  have dm := misset_diff (ki := ki) (kf := kf) sm sa
  have ft := fderiv_of_lines dt (transfer_line sm sa hr.q hn.triangle.1 k ek)
  have fm := fderiv_of_lines dm (misset_line hn.waveIn.1.ne' hn.waveOut.1.ne' sm sa k (by rw [ek]) (by rw [ek]))
  have ac : 0 < arcmin := by rw [arcmin_eq]; exact convert1_pos
  have hf' : s.horifoc ≠ some 1 := by
    intro h1
    rw [h1] at hf
    norm_num at hf
  have a0 : 0 < m * arcmin := by positivity
  have b0 : 0 < s.sample.vmosaic.getD m * arcmin := mul_pos (getD_pos v0 m0) ac
  rw [hmos] at hRM
  simp only at hRM
  set a := m * arcmin
  set b := s.sample.vmosaic.getD m * arcmin
  refine ⟨r, RM, hcalc, fun d => ?_⟩
  have hlc := least_mosaic (cnH_posDef hc hl k) _ hM (q := q) a0 b0 d
  rw [← hRM] at hlc
  rw [quad_eq]
  simp only [← cost_read hg (Or.inr hv) ki kf, ft, fm, cost_eq hd hf']
  exact hlc

/-- The default instrument with a sample of 60 minutes mosaic. -/
example : ∃ ki kf tm ta tt, ∃ r RM, calcInQ { demo with sample.mosaic := some 60 } [(1, 1 / 2)] = .ok [(r, RM)] ∧ ∀ d,
      IsLeast {x | ∃ v e, fderiv ℝ (transfer 1 ki kf tm ta tt) 0 v + sampleTurn 1 e = d ∧
        x = cost demo ki kf v (fderiv ℝ (misset ki kf tm ta) 0 v) +
          ((e 0 / (60 * arcmin)) ^ 2 + (e 1 / (60 * arcmin)) ^ 2)} (quad RM d) := by
  have hr : Reaches demo 1 (1 / 2) := demo_reaches (by norm_num) (by norm_num) (by norm_num) (by norm_num)
  have h := demo_valid 1
  have h' : ({ demo with sample.mosaic := some 60 } : Settings).Valid 1 :=
    ⟨h.mono, h.ana, h.guide, h.monitor, h.detector, ⟨h.sample.width, h.sample.depth, h.sample.height, h.sample.one, h.sample.stack, h.sample.dir⟩,
      h.hcol, h.vcol, h.arms⟩
  have hr' : Reaches { demo with sample.mosaic := some 60 } 1 (1 / 2) := ⟨hr.ei, hr.ef, hr.mono, hr.ana, hr.closes, hr.q⟩
  obtain ⟨ki, kf, tm, ta, tt, hn⟩ := nominal_exists h' hr'
  exact ⟨ki, kf, tm, ta, tt, C122_flight_mosaic_partial h' (by simp [Settings.popovici, Settings.theMethod, demo])
    (by norm_num [demo]) ⟨by norm_num [demo], by norm_num [demo], by norm_num [demo], by norm_num [demo]⟩ rfl rfl (by norm_num)
    (fun _ e => nomatch e) hr' hn⟩

end Verif.Resolution
