import Verif.Data.Balance
import Verif.Energy.Props

/-!
# Properties C26 and C81: detailed balance and the scattering function
-/

namespace Verif.Data

open Real Verif.Energy

/-- **C26** the detailed balance factor has the sign of the energy transfer and is
less than one. -/
theorem C26_sign {kB T : ℝ} (hk : 0 < kB) (hT : 0 < T) (e : ℝ) :
    (0 < balance kB T e ↔ 0 < e) ∧ (balance kB T e < 0 ↔ e < 0) ∧ balance kB T e < 1 := by
  unfold balance
  have h : -e / kB / T = -(e / (kB * T)) := by field_simp
  have hkT : 0 < kB * T := by positivity
  refine ⟨?_, ?_, by linarith [exp_pos (-e / kB / T)]⟩
  · rw [sub_pos, exp_lt_one_iff, h, neg_lt_zero, div_pos_iff_of_pos_right hkT]
  · rw [sub_neg, one_lt_exp_iff, h, neg_pos, div_neg_iff]
    constructor
    · rintro (⟨_, h⟩ | ⟨h, _⟩)
      · linarith
      · exact h
    · intro h; exact .inr ⟨h, hkT⟩

/-- **C26** the detailed balance relation. -/
theorem C26_detailed_balance {kB T : ℝ} (hk : 0 < kB) (hT : 0 < T) (e : ℝ) :
    balance kB T (-e) = -exp (e / (kB * T)) * balance kB T e := by
  unfold balance
  have h1 : - -e / kB / T = e / (kB * T) := by field_simp
  have h2 : -e / kB / T = -(e / (kB * T)) := by field_simp
  rw [h1, h2, exp_neg]
  have := (exp_pos (e / (kB * T))).ne'
  field_simp
  ring

theorem wavevec_eq (c : Consts) {e : ℝ} (he : 0 < e) :
    (derive c e).wavevec = .num (√(2 * c.m * e / c.J) / c.hbar / 10 ^ 10) := by
  obtain ⟨_, k, _, _, hk, _, _, _, hk0, _, _, _, _, _, hrel, _⟩ := derive_consistent c he
  rw [hk]
  congr 1
  have hb := hbar_pos c
  have hm := c.m_pos
  have hJ := c.J_pos
  have h10 : (1e10 : ℝ) = 10 ^ 10 := by norm_num
  rw [h10] at hrel
  have : 2 * c.m * e / c.J = (c.hbar * (k * 10 ^ 10)) ^ 2 := by
    have : e / c.J = (c.hbar * (k * 10 ^ 10)) ^ 2 / (2 * c.m) := hrel
    rw [mul_div_assoc, this]
    field_simp
  rw [this, sqrt_sq (by positivity)]
  field_simp

/-- **C81** if the final energy is positive at every point, the scattering function
at a point is 4π/σ · √(Ei/Ef) · counts: it depends on that point only.
Missing: points with zero final energy (`C81_zero_final_energy`). -/
theorem C81_scattering_function_partial (c : Consts) {sigma ei : ℝ} (hei : 0 < ei) {es det : List ℝ}
    (hl : det.length = es.length) (hf : ∀ e ∈ es, e < ei) {i : Nat} (hi : i < es.length) :
    (scatteringFunction c sigma ei es det)[i]? =
      some (.num (4 * π / sigma * √(ei / (ei - es[i])) * det[i])) := by
  have h0 : (0 : ℝ) ∉ es.map (ei - ·) := by
    intro h
    obtain ⟨e, he, h⟩ := List.mem_map.1 h
    have := hf e he
    linarith
  have hfi := hf es[i] (List.getElem_mem hi)
  have hkf : (deriveArr c (es.map (ei - ·))).wavevec =
      (es.map (ei - ·)).map (fun e => (derive c e).wavevec) :=
    (C31_arrays_partial c _).2.2.2.2.2 h0
  have hb := hbar_pos c
  have hm := c.m_pos
  have hJ := c.J_pos
  have hp1 : 0 < √(2 * c.m * ei / c.J) := sqrt_pos.2 (by positivity)
  have hd : 0 < ei - es[i] := by linarith
  have hp2 : 0 < √(2 * c.m * (ei - es[i]) / c.J) := sqrt_pos.2 (by positivity)
  unfold scatteringFunction
  simp only [hkf, wavevec_eq c hei]
  rw [List.getElem?_zipWith, List.getElem?_map, List.getElem?_map, List.getElem?_eq_getElem hi,
    List.getElem?_eq_getElem (by omega)]
  simp only [Option.map_some, wavevec_eq c hd, divBy, mulNum]
  rw [if_neg (by positivity)]
  simp only [Option.some.injEq, Num.num.injEq]
  congr 1
  have : √(ei / (ei - es[i])) = √(2 * c.m * ei / c.J) / √(2 * c.m * (ei - es[i]) / c.J) := by
    rw [← sqrt_div (by positivity)]
    congr 1
    field_simp
  rw [this]
  field_simp

example : ∀ e ∈ ([0, 1, 4] : List ℝ), e < 14.7 := by
  intro e he; simp at he; rcases he with rfl | rfl | rfl <;> norm_num

/-- **C81 is false**: one point at which the neutron loses all its energy makes the
scattering function of all other points zero, whatever their counts. -/
theorem C81_zero_final_energy (c : Consts) {sigma ei : ℝ} (hei : 0 < ei) {es det : List ℝ}
    (hl : det.length = es.length) (h0 : ei ∈ es) {i : Nat} (hi : i < es.length) (hfi : es[i] < ei) :
    (scatteringFunction c sigma ei es det)[i]? = some (.num 0) ∧
      (sigma ≠ 0 → det[i] ≠ 0 → 4 * π / sigma * √(ei / (ei - es[i])) * det[i] ≠ 0) := by
  constructor
  · have h0' : (0 : ℝ) ∈ es.map (ei - ·) := List.mem_map.2 ⟨ei, h0, by ring⟩
    have hinf := (C31_zero_spoils_wavevectors c (es.map (ei - ·)) h0' (i := i) (e := ei - es[i])
      (by simp [List.getElem?_eq_getElem hi]) (by linarith)).1
    unfold scatteringFunction
    simp only [wavevec_eq c hei]
    rw [List.getElem?_zipWith, hinf, List.getElem?_eq_getElem (by omega : i < det.length)]
    simp [divBy, mulNum]
  · intro hs hd
    have hd' : 0 < ei - es[i] := by linarith
    have h1 := pi_pos
    have h2 : √(ei / (ei - es[i])) ≠ 0 := (sqrt_pos.2 (by positivity)).ne'
    have h3 : 4 * π / sigma ≠ 0 := div_ne_zero (by positivity) hs
    exact mul_ne_zero (mul_ne_zero h3 h2) hd

example : (5 : ℝ) ∈ ([1, 5] : List ℝ) ∧ ([1, 5] : List ℝ)[0] < 5 := by norm_num

/-- **C26** if the scattering function obeys detailed balance between two points with
opposite energy transfer and equal temperature, the dynamic susceptibility is odd. -/
theorem C26_odd_susceptibility (c : Consts) {kB sigma ei T : ℝ} (hk : 0 < kB) (hT : 0 < T)
    {es temps det : List ℝ} {i j : Nat} {e si sj : ℝ}
    (hei : es[i]? = some e) (hej : es[j]? = some (-e))
    (hti : temps[i]? = some T) (htj : temps[j]? = some T)
    (hsi : (scatteringFunction c sigma ei es det)[i]? = some (.num si))
    (hsj : (scatteringFunction c sigma ei es det)[j]? = some (.num sj))
    (hdb : sj = exp (-e / (kB * T)) * si) :
    ∃ x, (susceptibility c kB sigma ei es temps det)[i]? = some (.num x) ∧
      (susceptibility c kB sigma ei es temps det)[j]? = some (.num (-x)) := by
  refine ⟨si * balance kB T e, ?_, ?_⟩
  · simp [susceptibility, List.getElem?_zipWith, hsi, hei, hti, mulNum]
  · simp only [susceptibility, List.getElem?_zipWith, hsj, hej, htj, mulNum]
    rw [C26_detailed_balance hk hT, hdb, neg_div, exp_neg]
    have := (exp_pos (e / (kB * T))).ne'
    congr 2
    field_simp

example : ([2, -2] : List ℝ)[0]? = some (2 : ℝ) ∧
    ([2, -2] : List ℝ)[1]? = some (-2 : ℝ) := by simp

end Verif.Data
