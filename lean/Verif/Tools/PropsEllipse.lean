import Verif.Tools.PropsProj
import Mathlib.Analysis.SpecialFunctions.Trigonometric.Bounds
import Mathlib.Algebra.Order.Floor.Ring

/-! # Addition to property C56: the drawn points go all the way round the ellipse -/

namespace Verif.Tools

open Real

theorem exists_sample {n : ℕ} (hn : 2 ≤ n) {s : ℝ} (h0 : 0 ≤ s) (h1 : s ≤ 2 * π) :
    ∃ t ∈ linspaceCircle n, |t - s| ≤ 2 * π / (n - 1) := by
  have hp := pi_pos
  have hn' : (0 : ℝ) < n - 1 := by
    have : (2 : ℝ) ≤ n := by exact_mod_cast hn
    linarith
  set x := s * (n - 1) / (2 * π) with hx
  have hx0 : 0 ≤ x := by positivity
  have hx1 : x ≤ n - 1 := by
    rw [hx, div_le_iff₀ (by positivity)]
    nlinarith
  have hk : ⌊x⌋₊ < n := by
    have := Nat.floor_le hx0
    have h2 : (⌊x⌋₊ : ℝ) < n := by linarith
    exact_mod_cast h2
  refine ⟨2 * π * (⌊x⌋₊ : ℝ) / (n - 1), ?_, ?_⟩
  · unfold linspaceCircle
    refine List.mem_map.2 ⟨⌊x⌋₊, List.mem_range.2 hk, ?_⟩
    rw [if_neg (by omega)]
  · have hs : s = 2 * π * x / (n - 1) := by rw [hx]; field_simp
    have h2 := Nat.floor_le hx0
    have h3 := Nat.lt_floor_add_one x
    rw [hs, ← sub_div, ← mul_sub, abs_div, abs_mul, abs_of_pos (show 0 < 2 * π by positivity), abs_of_pos hn']
    have : |(⌊x⌋₊ : ℝ) - x| ≤ 1 := by
      rw [abs_le]
      constructor <;> linarith
    have h4 : 2 * π * |(⌊x⌋₊ : ℝ) - x| ≤ 2 * π * 1 := by gcongr
    rw [mul_one] at h4
    exact div_le_div_of_nonneg_right h4 hn'.le

theorem cos_near (s t : ℝ) : |cos s - cos t| ≤ |s - t| := by
  have h := cos_sub_cos s t
  rw [h, abs_mul, abs_mul]
  have h1 := abs_sin_le_one ((s + t) / 2)
  have h2 : |sin ((s - t) / 2)| ≤ |(s - t) / 2| := abs_sin_le_abs
  have h3 : |(s - t) / 2| = |s - t| / 2 := by rw [abs_div]; norm_num
  rw [h3] at h2
  have : |(-2 : ℝ)| = 2 := by norm_num
  rw [this]
  nlinarith [abs_nonneg (sin ((s + t) / 2)), abs_nonneg (sin ((s - t) / 2)), abs_nonneg (s - t)]

theorem sin_near (s t : ℝ) : |sin s - sin t| ≤ |s - t| := by
  have h := sin_sub_sin s t
  rw [h, abs_mul, abs_mul]
  have h1 := abs_cos_le_one ((s + t) / 2)
  have h2 : |sin ((s - t) / 2)| ≤ |(s - t) / 2| := abs_sin_le_abs
  have h3 : |(s - t) / 2| = |s - t| / 2 := by rw [abs_div]; norm_num
  rw [h3] at h2
  have : |(2 : ℝ)| = 2 := by norm_num
  rw [this]
  nlinarith [abs_nonneg (cos ((s + t) / 2)), abs_nonneg (sin ((s - t) / 2)), abs_nonneg (s - t)]

/-- **C56** the drawn points follow the whole ellipse: `npts` of them, the first equal to the last, and
every point of the ellipse, given by the angle `s`, has a drawn point nearby. -/
theorem C56_whole_ellipse (s1 s2 phi : ℝ) (origin : ℝ × ℝ) {npts : ℕ} (hn : 2 ≤ npts) :
    (ellipse s1 s2 phi origin npts).length = npts ∧
    (ellipse s1 s2 phi origin npts).head? = (ellipse s1 s2 phi origin npts).getLast? ∧
    ∀ s, 0 ≤ s → s ≤ 2 * π → ∃ p ∈ ellipse s1 s2 phi origin npts,
      |p.1 - (origin.1 + s1 * cos s * cos phi - s2 * sin s * sin phi)| ≤ (|s1| + |s2|) * (2 * π / (npts - 1)) ∧
      |p.2 - (origin.2 + s1 * cos s * sin phi + s2 * sin s * cos phi)| ≤ (|s1| + |s2|) * (2 * π / (npts - 1)) := by
  refine ⟨by simp [ellipse, linspaceCircle], ?_, ?_⟩
  · obtain ⟨m, rfl⟩ : ∃ m, npts = m + 2 := ⟨npts - 2, by omega⟩
    have h1 : (ellipse s1 s2 phi origin (m + 2)).head? = some (ellipsePoint s1 s2 phi origin 0) := by
      simp [ellipse, linspaceCircle, List.range_succ_eq_map]
    have h2 : (ellipse s1 s2 phi origin (m + 2)).getLast? = some (ellipsePoint s1 s2 phi origin (2 * π)) := by
      unfold ellipse linspaceCircle
      rw [List.range_succ]
      simp only [List.map_append, List.map_cons, List.map_nil, List.getLast?_append, List.getLast?_singleton]
      have : (2 * π * ((m + 1 : ℕ) : ℝ) / (((m + 2 : ℕ) : ℝ) - 1)) = 2 * π := by
        push_cast
        have : (m : ℝ) + 2 - 1 = m + 1 := by ring
        rw [this]
        have : (m : ℝ) + 1 ≠ 0 := by positivity
        field_simp
      rw [if_neg (by omega), this]
      rfl
    rw [h1, h2]
    simp [ellipsePoint]
  · intro s h0 h1
    obtain ⟨t, ht, hd⟩ := exists_sample hn h0 h1
    refine ⟨_, List.mem_map_of_mem ht, ?_, ?_⟩
    all_goals
      have hc := (cos_near t s).trans hd
      have hs := (sin_near t s).trans hd
      set e := 2 * π / ((npts : ℝ) - 1) with he
      have he0 : 0 ≤ e := (abs_nonneg _).trans hd
      have hcp := abs_cos_le_one phi
      have hsp := abs_sin_le_one phi
      unfold ellipsePoint
    · rw [show s1 * cos t * cos phi - s2 * sin t * sin phi + origin.1 -
          (origin.1 + s1 * cos s * cos phi - s2 * sin s * sin phi) =
          s1 * (cos t - cos s) * cos phi + -(s2 * (sin t - sin s) * sin phi) by ring]
      refine (abs_add_le _ _).trans ?_
      rw [abs_neg, abs_mul, abs_mul, abs_mul, abs_mul, add_mul]
      refine add_le_add ?_ ?_
      · calc |s1| * |cos t - cos s| * |cos phi| ≤ |s1| * e * 1 := by gcongr
          _ = _ := by ring
      · calc |s2| * |sin t - sin s| * |sin phi| ≤ |s2| * e * 1 := by gcongr
          _ = _ := by ring
    · rw [show s1 * cos t * sin phi + s2 * sin t * cos phi + origin.2 -
          (origin.2 + s1 * cos s * sin phi + s2 * sin s * cos phi) =
          s1 * (cos t - cos s) * sin phi + s2 * (sin t - sin s) * cos phi by ring]
      refine (abs_add_le _ _).trans ?_
      rw [abs_mul, abs_mul, abs_mul, abs_mul, add_mul]
      refine add_le_add ?_ ?_
      · calc |s1| * |cos t - cos s| * |sin phi| ≤ |s1| * e * 1 := by gcongr
          _ = _ := by ring
      · calc |s2| * |sin t - sin s| * |cos phi| ≤ |s2| * e * 1 := by gcongr
          _ = _ := by ring

end Verif.Tools
