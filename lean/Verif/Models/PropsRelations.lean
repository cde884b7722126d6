import Verif.Models.Props

/-!
# How the oscillators and dispersions follow their parameters
-/

namespace Verif.Models

open Real

/-! ## C235 -/

/-- **C235** starting the clock later is the same as a smaller phase; the amplitude with the opposite sign
is a phase of half a turn; frequency and phase can both be reversed. -/
theorem C235_phase (p0 p1 p2 p3 s t : ℝ) (rest : List ℝ) :
    sho (p0 :: p1 :: p2 :: p3 :: rest) (t + s) = sho (p0 :: p1 :: p2 :: (p3 - p2 * s) :: rest) t ∧
    sho (p0 :: -p1 :: p2 :: p3 :: rest) t = sho (p0 :: p1 :: p2 :: (p3 + π) :: rest) t ∧
    sho (p0 :: p1 :: -p2 :: -p3 :: rest) t = sho (p0 :: p1 :: p2 :: p3 :: rest) t := by
  simp only [sho, Except.ok.injEq]
  refine ⟨?_, ?_, ?_⟩
  · congr 3
    ring
  · rw [← sub_sub, cos_sub_pi]
    ring
  · rw [show -p2 * t - -p3 = -(p2 * t - p3) by ring, cos_neg]

/-- **C235** the damped oscillator is smaller by the same factor after every turn. -/
theorem C235_decrement (p0 p1 p3 p4 : ℝ) {p2 : ℝ} (h2 : p2 ≠ 0) (rest : List ℝ) (t : ℝ) (n : ℕ) :
    ∃ x y, dho (p0 :: p1 :: p2 :: p3 :: p4 :: rest) t = .ok x ∧
      dho (p0 :: p1 :: p2 :: p3 :: p4 :: rest) (t + n * (2 * π / p2)) = .ok y ∧
      y - p0 = exp (-p4 * (π / p2)) ^ n * (x - p0) := by
  refine ⟨_, _, rfl, rfl, ?_⟩
  have e1 : p2 * (t + n * (2 * π / p2)) - p3 = p2 * t - p3 + n * (2 * π) := by
    field_simp
    ring
  have e2 : -p4 * (t + n * (2 * π / p2)) / 2 = n * (-p4 * (π / p2)) + -p4 * t / 2 := by ring
  rw [e1, e2, cos_add_nat_mul_two_pi, exp_add, exp_nat_mul]
  ring

/-- **C235** two oscillators with the same frequency and friction together are one of that frequency and
friction. -/
theorem C235_superposition (a b p1 q1 p2 p3 q3 p4 : ℝ) (rest : List ℝ) :
    ∃ r1 r3 : ℝ, r1 ^ 2 = p1 ^ 2 + q1 ^ 2 + 2 * p1 * q1 * cos (p3 - q3) ∧ 0 ≤ r1 ∧
      ∀ t, ∃ x y, dho (a :: p1 :: p2 :: p3 :: p4 :: rest) t = .ok x ∧
        dho (b :: q1 :: p2 :: q3 :: p4 :: rest) t = .ok y ∧
        dho ((a + b) :: r1 :: p2 :: r3 :: p4 :: rest) t = .ok (x + y) := by
  let z : ℂ := ⟨p1 * cos p3 + q1 * cos q3, p1 * sin p3 + q1 * sin q3⟩
  have hre : ‖z‖ * cos z.arg = p1 * cos p3 + q1 * cos q3 := Complex.norm_mul_cos_arg z
  have him : ‖z‖ * sin z.arg = p1 * sin p3 + q1 * sin q3 := Complex.norm_mul_sin_arg z
  refine ⟨‖z‖, z.arg, ?_, norm_nonneg z, fun t => ⟨_, _, rfl, rfl, ?_⟩⟩
  · have h : ‖z‖ ^ 2 = (‖z‖ * cos z.arg) ^ 2 + (‖z‖ * sin z.arg) ^ 2 := by
      linear_combination (-‖z‖ ^ 2) * sin_sq_add_cos_sq z.arg
    rw [h, hre, him, cos_sub]
    linear_combination p1 ^ 2 * sin_sq_add_cos_sq p3 + q1 ^ 2 * sin_sq_add_cos_sq q3
  · show Except.ok _ = Except.ok _
    rw [Except.ok.injEq, cos_sub, cos_sub, cos_sub]
    linear_combination exp (-p4 * t / 2) * (cos (p2 * t) * hre + sin (p2 * t) * him)

/-- **C235** the unit of the wavevector does not matter, and the values follow the first parameter:
proportionally, as the root for phonons. -/
theorem C235_units (p0 p1 x : ℝ) {k m : ℝ} (hk : k ≠ 0) (hm : 0 ≤ m) (rest : List ℝ) :
    acoustic (p0 :: (p1 / k) :: rest) (k * x) = acoustic (p0 :: p1 :: rest) x ∧
    ferro (p0 :: (p1 / k) :: rest) (k * x) = ferro (p0 :: p1 :: rest) x ∧
    antiferro (p0 :: (p1 / k) :: rest) (k * x) = antiferro (p0 :: p1 :: rest) x ∧
    ferro ((m * p0) :: p1 :: rest) x = (ferro (p0 :: p1 :: rest) x).map (m * ·) ∧
    antiferro ((m * p0) :: p1 :: rest) x = (antiferro (p0 :: p1 :: rest) x).map (m * ·) ∧
    (0 ≤ p0 → acoustic ((m * p0) :: p1 :: rest) x = (acoustic (p0 :: p1 :: rest) x).map (√m * ·)) := by
  have e : p1 / k * (k * x) = p1 * x := by field_simp
  refine ⟨?_, ?_, ?_, ?_, ?_, fun h0 => ?_⟩
  · simp only [acoustic, e]
  · simp only [ferro, e]
  · simp only [antiferro, e]
  · simp only [ferro, Except.map, Except.ok.injEq]
    ring
  · simp only [antiferro, Except.map, Except.ok.injEq]
    ring
  · have h1 : ¬ 4 * (m * p0) < 0 := by
      have := mul_nonneg hm h0
      linarith
    have h2 : ¬ 4 * p0 < 0 := by linarith
    simp only [acoustic, if_neg h1, if_neg h2, Except.map, Except.ok.injEq]
    rw [show 4 * (m * p0) = m * (4 * p0) by ring, sqrt_mul hm]
    ring

/-- **C235** the three dispersions compared: the phonon is an antiferromagnet with `2 √p[0]`, and the
ferromagnet twice the square of a phonon with half of `p[1]`. -/
theorem C235_compared {p0 : ℝ} (h0 : 0 ≤ p0) (p1 x : ℝ) (rest : List ℝ) :
    acoustic (p0 :: p1 :: rest) x = antiferro ((2 * √p0) :: p1 :: rest) x ∧
    ferro (p0 :: p1 :: rest) x = (acoustic (p0 :: (p1 / 2) :: rest) x).map (fun w => 2 * w ^ 2) := by
  have h : ¬ 4 * p0 < 0 := by linarith
  have e : √(4 * p0) = 2 * √p0 := by
    rw [sqrt_mul (by norm_num), show (4 : ℝ) = 2 ^ 2 by norm_num, sqrt_sq (by norm_num)]
  constructor
  · simp only [acoustic, antiferro, if_neg h, e]
  · simp only [acoustic, ferro, if_neg h, Except.map, Except.ok.injEq, mul_pow, sq_abs]
    rw [sq_sqrt (by linarith), sin_sq_eq_half_sub, show 2 * (p1 / 2 * x) = p1 * x by ring]
    ring

/-- **C235** the dispersions rise from the zone centre to the first maximum. -/
theorem C235_rising {p0 p1 : ℝ} (h0 : 0 < p0) (h1 : 0 < p1) (rest : List ℝ) {x y : ℝ} (hx : 0 ≤ x) (hxy : x < y) :
    (p1 * y ≤ π / 2 → ∃ v w, acoustic (p0 :: p1 :: rest) x = .ok v ∧ acoustic (p0 :: p1 :: rest) y = .ok w ∧ v < w) ∧
    (p1 * y ≤ π / 2 → ∃ v w, antiferro (p0 :: p1 :: rest) x = .ok v ∧ antiferro (p0 :: p1 :: rest) y = .ok w ∧ v < w) ∧
    (p1 * y ≤ π → ∃ v w, ferro (p0 :: p1 :: rest) x = .ok v ∧ ferro (p0 :: p1 :: rest) y = .ok w ∧ v < w) := by
  have hlt : p1 * x < p1 * y := mul_lt_mul_of_pos_left hxy h1
  have hx' : 0 ≤ p1 * x := mul_nonneg h1.le hx
  have hpi := pi_pos
  have hsin : p1 * y ≤ π / 2 → |sin (p1 * x)| < |sin (p1 * y)| := fun h => by
    rw [abs_of_nonneg (sin_nonneg_of_nonneg_of_le_pi hx' (by linarith)),
      abs_of_nonneg (sin_nonneg_of_nonneg_of_le_pi (by linarith) (by linarith))]
    exact sin_lt_sin_of_lt_of_le_pi_div_two (by linarith) h hlt
  refine ⟨fun h => ?_, fun h => ?_, fun h => ?_⟩
  · have hn : ¬ 4 * p0 < 0 := by linarith
    exact ⟨_, _, if_neg hn, if_neg hn, mul_lt_mul_of_pos_left (hsin h) (sqrt_pos.2 (by linarith))⟩
  · exact ⟨_, _, rfl, rfl, mul_lt_mul_of_pos_left (hsin h) h0⟩
  · refine ⟨_, _, rfl, rfl, mul_lt_mul_of_pos_left ?_ (by linarith)⟩
    have := cos_lt_cos_of_nonneg_of_le_pi hx' h hlt
    linarith

/-- Two equal oscillators in phase have twice the amplitude, in opposite phase they cancel. -/
example : ((2 : ℝ)) ^ 2 = 1 ^ 2 + 1 ^ 2 + 2 * 1 * 1 * cos (0 - 0) ∧ (0 : ℝ) ^ 2 = 1 ^ 2 + 1 ^ 2 + 2 * 1 * 1 * cos (π - 0) := by
  constructor
  · norm_num
  · simp
    norm_num

end Verif.Models
