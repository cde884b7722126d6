import Verif.Resolution.PropsIntegral
import Verif.Resolution.PropsMirror
import Verif.Resolution.PropsPaths

/-! # Property theorems: the sample mosaic conserves the integrated intensity, for all methods (C123) -/

namespace Verif.Resolution

open Real Matrix

/-- C123, exactly when it holds, for every method, flat and focusing analyzers and samples of every shape: giving the sample
mosaics `a` in and `b` out of the plane conserves the integrated intensity if and only if the elements of the resolution matrix
satisfy this equation. -/
theorem C123_any_iff {s : Settings} (h : s.Valid 1) (hm : s.sample.mosaic = none) (a : ℝ) (v : Option ℝ) {q w : ℝ} (hr : Reaches s q w) :
    ∃ r r', calcInQ s [(q, w)] = .ok [r] ∧ calcInQ (s.mosaicSample a v) [(q, w)] = .ok [r'] ∧
      (integrated r' = integrated r ↔
        (a ^ 2 - v.getD a ^ 2) * (r.2 1 1 - r.2 2 2) = (q * arcmin) ^ 2 * a ^ 2 * v.getD a ^ 2 * r.2 1 2 ^ 2) := by
  obtain ⟨r, r', h1, h2, r0, hR, e1, e2⟩ := calc_widen h hm a v hr
  have ac : 0 < arcmin := by rw [arcmin_eq]; exact convert1_pos
  have hq := hr.q
  refine ⟨r, r', h1, h2, ?_⟩
  rw [integrated_iff r0 hR (x := (q * (a * arcmin)) ^ 2) (y := (q * (v.getD a * arcmin)) ^ 2) (by positivity) (by positivity)
    e1 (by rw [e2, mul_pow q, mul_pow q])]
  have hne : (q * arcmin) ^ 2 ≠ 0 := by positivity
  constructor
  · intro e
    apply mul_left_cancel₀ hne
    linear_combination e
  · intro e
    linear_combination (q * arcmin) ^ 2 * e

/-- C123, for every method and both kinds of analyzer, for samples that look the same from above and below: the integrated
intensity is conserved if and only if the two mosaics are equal or the resolution is equal across the scattering vector in the plane
and out of it. -/
theorem C123_level_iff {s : Settings} (h : s.Valid 1) (hs : FlatShape s.sample.shape) (hm : s.sample.mosaic = none) {a : ℝ} (a0 : 0 < a)
    {v : Option ℝ} (v0 : Pos v) {q w : ℝ} (hr : Reaches s q w) :
    ∃ r r', calcInQ s [(q, w)] = .ok [r] ∧ calcInQ (s.mosaicSample a v) [(q, w)] = .ok [r'] ∧
      (integrated r' = integrated r ↔ v.getD a = a ∨ r.2 1 1 = r.2 2 2) := by
  obtain ⟨r, r', h1, h2, h3⟩ := C123_any_iff h hm a v hr
  have b0 := getD_pos v0 a0
  refine ⟨r, r', h1, h2, ?_⟩
  rw [h3, (C133_Q hs h1 r (by simp) 1 (by decide)).1]
  have : a ^ 2 - v.getD a ^ 2 = (a + v.getD a) * (a - v.getD a) := by ring
  have hne : a + v.getD a ≠ 0 := by positivity
  rw [this, zero_pow two_ne_zero, mul_zero, mul_assoc, mul_eq_zero, or_iff_right hne, mul_eq_zero, sub_eq_zero, sub_eq_zero, eq_comm]

/-- C123, the part that holds, for every method and both kinds of analyzer: equal mosaics (the default when no vertical one is given)
of a sample that looks the same from above and below conserve the integrated intensity.  Missing: different mosaics, for which
it is not conserved (`C123_false`), and samples with a tilted shape (`C123_any_iff` says when). -/
theorem C123_level_partial {s : Settings} (h : s.Valid 1) (hs : FlatShape s.sample.shape) (hm : s.sample.mosaic = none) {a : ℝ} (a0 : 0 < a)
    {v : Option ℝ} (hv : v = none ∨ v = some a) {q w : ℝ} (hr : Reaches s q w) :
    ∃ r r', calcInQ s [(q, w)] = .ok [r] ∧ calcInQ (s.mosaicSample a v) [(q, w)] = .ok [r'] ∧ integrated r' = integrated r := by
  have v0 : Pos v := by
    intro x hx
    rcases hv with rfl | rfl
    · exact nomatch hx
    · rw [← Option.some.inj hx]; exact a0
  obtain ⟨r, r', h1, h2, h3⟩ := C123_level_iff h hs hm a0 v0 hr
  exact ⟨r, r', h1, h2, h3.2 (Or.inl (by rcases hv with rfl | rfl <;> rfl))⟩

/-- An instrument with bent crystals, used with the Popovici method. -/
example : focused.popovici = true ∧ ∃ r r', calcInQ focused [(1, 1 / 2)] = .ok [r] ∧ calcInQ (focused.mosaicSample 30 none) [(1, 1 / 2)] = .ok [r'] ∧
    integrated r' = integrated r :=
  ⟨rfl, C123_level_partial (focused_valid 1) trivial rfl (by norm_num) (.inl rfl)
    (focused_reaches (by norm_num) (by norm_num) (by norm_num) (by norm_num))⟩

end Verif.Resolution
