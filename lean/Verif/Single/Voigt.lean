import Mathlib.Analysis.Complex.Exponential
import Mathlib.Analysis.Complex.Trigonometric
import Mathlib.Analysis.SpecialFunctions.Exp
import Mathlib.Tactic.Positivity
import Verif.Single.Model

/-! # The profile for lines of zero width, and its symmetry -/

namespace Verif.Single

open Real
open Complex (I)

/-- Numerator of the real part of `approx3` on the imaginary axis. -/
noncomputable def num3 (s : ℝ) : ℝ := (16.4955 - 11.96482 * s + 0.5642236 * s ^ 2) * (16.4955 - 39.27121 * s + 6.699398 * s ^ 2) +
  s * ((20.20933 - 3.778987 * s) * (38.82363 - 21.69274 * s + s ^ 2))

/-- Its denominator. -/
noncomputable def den3 (s : ℝ) : ℝ := (16.4955 - 39.27121 * s + 6.699398 * s ^ 2) ^ 2 + s * (38.82363 - 21.69274 * s + s ^ 2) ^ 2

/-- The sum of the exponential series. -/
noncomputable def series (s : ℝ) : ℝ := 1 - s + s ^ 2 / 2 - s ^ 3 / 6 + s ^ 4 / 24 - s ^ 5 / 120 + s ^ 6 / 720 - s ^ 7 / 5040

theorem upper {s : ℝ} (h0 : 0 ≤ s) (h1 : s ≤ 83 / 100) : 0 ≤ den3 s / 20000 - (num3 s - den3 s * series s) - den3 s * (s ^ 8 * (9 / 322560)) := by
  have h : 0 ≤ 83 / 100 - s := by linarith
  have e : den3 s / 20000 - (num3 s - den3 s * series s) - den3 s * (s ^ 8 * (9 / 322560)) = (1360507601250000000000000/8871870642308873326043363) * (s ^ 0 * (83 / 100 - s) ^ 13) + (30236472870907635000000000/8871870642308873326043363) * (s ^ 1 * (83 / 100 - s) ^ 12) + (164584797909464341650000000/8871870642308873326043363) * (s ^ 2 * (83 / 100 - s) ^ 11) + (420523376024848417421400000/8871870642308873326043363) * (s ^ 3 * (83 / 100 - s) ^ 10) + (592722096273019355997384200/8871870642308873326043363) * (s ^ 4 * (83 / 100 - s) ^ 9) + (1518405228678190190038888400/26615611926926619978130089) * (s ^ 5 * (83 / 100 - s) ^ 8) + (407379756815934498912923500/8871870642308873326043363) * (s ^ 6 * (83 / 100 - s) ^ 7) + (7359880007008320328516814539/106462447707706479912520356) * (s ^ 7 * (83 / 100 - s) ^ 6) + (367088372883855093073913764105283/3577138242978937725060683961600) * (s ^ 8 * (83 / 100 - s) ^ 5) + (234838633301834772313867176297501667/2384758828652625150040455974400000) * (s ^ 9 * (83 / 100 - s) ^ 4) + (42123502053287555620903310597531370367/715427648595787545012136792320000000) * (s ^ 10 * (83 / 100 - s) ^ 3) + (766095430161603904346258845101587659441/35771382429789377250606839616000000000) * (s ^ 11 * (83 / 100 - s) ^ 2) + (4396190968318744444461877104131802870793/1022039497993982207160195417600000000000) * (s ^ 12 * (83 / 100 - s) ^ 1) + (360906018497215368917524337930327268193/1022039497993982207160195417600000000000) * (s ^ 13 * (83 / 100 - s) ^ 0) := by
    unfold den3 num3 series
    ring
  rw [e]
  positivity

theorem lower {s : ℝ} (h0 : 0 ≤ s) (h1 : s ≤ 83 / 100) : 0 ≤ den3 s / 20000 + (num3 s - den3 s * series s) - den3 s * (s ^ 8 * (9 / 322560)) := by
  have h : 0 ≤ 83 / 100 - s := by linarith
  have e : den3 s / 20000 + (num3 s - den3 s * series s) - den3 s * (s ^ 8 * (9 / 322560)) = (1360507601250000000000000/8871870642308873326043363) * (s ^ 0 * (83 / 100 - s) ^ 13) + (6893650146907635000000000/8871870642308873326043363) * (s ^ 1 * (83 / 100 - s) ^ 12) + (69280800048442541650000000/8871870642308873326043363) * (s ^ 2 * (83 / 100 - s) ^ 11) + (479746425216374545021400000/8871870642308873326043363) * (s ^ 3 * (83 / 100 - s) ^ 10) + (1770476324503543703186984200/8871870642308873326043363) * (s ^ 4 * (83 / 100 - s) ^ 9) + (11882618786406572761661058400/26615611926926619978130089) * (s ^ 5 * (83 / 100 - s) ^ 8) + (5848065300911007752452338900/8871870642308873326043363) * (s ^ 6 * (83 / 100 - s) ^ 7) + (71490140274435123752958532661/106462447707706479912520356) * (s ^ 7 * (83 / 100 - s) ^ 6) + (1720263398833344304368902911718467/3577138242978937725060683961600) * (s ^ 8 * (83 / 100 - s) ^ 5) + (576989554964300672845372245528157283/2384758828652625150040455974400000) * (s ^ 9 * (83 / 100 - s) ^ 4) + (8566039983478626608870833310480432969/102203949799398220716019541760000000) * (s ^ 10 * (83 / 100 - s) ^ 3) + (681990751135690483157779958157505775729/35771382429789377250606839616000000000) * (s ^ 11 * (83 / 100 - s) ^ 2) + (18382703794076540679298492334767446130751/7154276485957875450121367923200000000000) * (s ^ 12 * (83 / 100 - s) ^ 1) + (158641398438282833183911202070178544993/1022039497993982207160195417600000000000) * (s ^ 13 * (83 / 100 - s) ^ 0) := by
    unfold den3 num3 series
    ring
  rw [e]
  positivity

theorem den3_pos {s : ℝ} (h0 : 0 ≤ s) : 0 < den3 s := by
  have e : den3 s = 1088406081/4000000 + (2116777572669/10000000000) * s ^ 1 + (788659513897/10000000000) * s ^ 2 + (550882431111/25000000000) * s ^ 3 + (374113390601/250000000000) * s ^ 4 + s ^ 5 := by
    unfold den3
    ring
  rw [e]
  positivity

theorem series_near {s : ℝ} (h0 : 0 ≤ s) (h1 : s ≤ 1) : |exp (-s) - series s| ≤ s ^ 8 * (9 / 322560) := by
  have h := Real.exp_bound (x := -s) (by rw [abs_neg, abs_of_nonneg h0]; exact h1) (n := 8) (by norm_num)
  rw [abs_neg, abs_of_nonneg h0] at h
  have e : ∑ m ∈ Finset.range 8, (-s) ^ m / (m.factorial : ℝ) = series s := by
    unfold series
    simp [Finset.sum_range_succ, Nat.factorial]
    ring
  rw [e] at h
  norm_num [Nat.factorial] at h ⊢
  exact h

theorem quotient_near {s : ℝ} (h0 : 0 ≤ s) (h1 : s ≤ 83 / 100) : |num3 s / den3 s - exp (-s)| ≤ 5e-5 := by
  have hd := den3_pos h0
  have hs := abs_le.1 (series_near h0 (h1.trans (by norm_num)))
  have hu := upper h0 h1
  have hl := lower h0 h1
  have e : num3 s / den3 s - exp (-s) = (num3 s - den3 s * series s - den3 s * (exp (-s) - series s)) / den3 s := by
    field_simp
    ring
  rw [e, abs_div, abs_of_pos hd, div_le_iff₀ hd, abs_le]
  have a := mul_le_mul_of_nonneg_left hs.1 hd.le
  have b := mul_le_mul_of_nonneg_left hs.2 hd.le
  constructor <;> linarith

theorem approx3_axis (x : ℝ) : (approx3 (((0 : ℝ) : ℂ) - I * x)).re = num3 (x ^ 2) / den3 (x ^ 2) := by
  unfold approx3
  have hn : (16.4955 + (((0 : ℝ) : ℂ) - I * x) * (20.20933 + (((0 : ℝ) : ℂ) - I * x) * (11.96482 + (((0 : ℝ) : ℂ) - I * x) * (3.778987 + 0.5642236 * (((0 : ℝ) : ℂ) - I * x)))) : ℂ) =
      ⟨16.4955 - 11.96482 * x ^ 2 + 0.5642236 * (x ^ 2) ^ 2, -(x * (20.20933 - 3.778987 * x ^ 2))⟩ := by
    apply Complex.ext <;> simp [pow_succ] <;> norm_num <;> ring_nf <;> simp
  have hd : (16.4955 + (((0 : ℝ) : ℂ) - I * x) * (38.82363 + (((0 : ℝ) : ℂ) - I * x) * (39.27121 + (((0 : ℝ) : ℂ) - I * x) * (21.69274 + (((0 : ℝ) : ℂ) - I * x) * (6.699398 + (((0 : ℝ) : ℂ) - I * x))))) : ℂ) =
      ⟨16.4955 - 39.27121 * x ^ 2 + 6.699398 * (x ^ 2) ^ 2, -(x * (38.82363 - 21.69274 * x ^ 2 + (x ^ 2) ^ 2))⟩ := by
    apply Complex.ext <;> simp [pow_succ] <;> norm_num <;> ring_nf <;> simp
  rw [hn, hd, Complex.div_re, Complex.normSq_mk, ← add_div]
  dsimp only
  unfold num3 den3
  congr 1 <;> ring

theorem approx4_axis (x : ℝ) : (approx4 (((0 : ℝ) : ℂ) - I * x) ((((0 : ℝ) : ℂ) - I * x) ^ 2)).re = 0 := by
  have hu : (((0 : ℝ) : ℂ) - I * x) ^ 2 = ((-x ^ 2 : ℝ) : ℂ) := by
    push_cast
    ring_nf
    simp
  unfold approx4
  rw [hu]
  obtain ⟨v, hv⟩ : ∃ v : ℝ, v = -x ^ 2 := ⟨_, rfl⟩
  rw [← hv]
  have e : ∀ a b : ℝ, ((((0 : ℝ) : ℂ) - I * x) * (a : ℂ) / (b : ℂ)).re = 0 := fun a b => by
    rw [Complex.div_ofReal_re]
    simp
  have := e (36183.31 - v * (3321.99 - v * (1540.787 - v * (219.031 - v * (35.7668 - v * (1.320522 - v * 0.56419))))))
    (32066.6 - v * (24322.8 - v * (9022.23 - v * (2186.18 - v * (364.219 - v * (61.5704 - v * (1.84144 - v)))))))
  push_cast at this
  exact this

/-- The denominator of the last formula on the imaginary axis is not zero. -/
theorem den4_pos (x : ℝ) : 0 < (fun v : ℝ => 32066.6 - v * (24322.8 - v * (9022.23 - v * (2186.18 - v * (364.219 - v * (61.5704 - v * (1.84144 - v))))))) (-x ^ 2) := by
  have e : (fun v : ℝ => 32066.6 - v * (24322.8 - v * (9022.23 - v * (2186.18 - v * (364.219 - v * (61.5704 - v * (1.84144 - v))))))) (-x ^ 2) =
      32066.6 + x ^ 2 * (24322.8 + x ^ 2 * (9022.23 + x ^ 2 * (2186.18 + x ^ 2 * (364.219 + x ^ 2 * (61.5704 + x ^ 2 * (1.84144 + x ^ 2)))))) := by
    dsimp only
    ring
  rw [e]
  positivity

/-- Outside the core the profile of a line without width is exactly the Gaussian. -/
theorem voigt_outside {x : ℝ} (h : 176 / 195 < |x|) : voigt x 0 = exp (-x ^ 2) := by
  have hu : (((0 : ℝ) : ℂ) - I * x) ^ 2 = ((-x ^ 2 : ℝ) : ℂ) := by
    push_cast
    ring_nf
    simp
  have h1 : ¬ (0.195 * |x| - 0.176 ≤ (0 : ℝ)) := by
    norm_num
    linarith
  unfold voigt
  dsimp only
  rw [if_pos ⟨fun h => h1 h.2, by norm_num⟩, Complex.sub_re, approx4_axis, sub_zero, hu, ← Complex.ofReal_exp, Complex.ofReal_re]

theorem voigt_core {x : ℝ} (h : |x| ≤ 176 / 195) : voigt x 0 = num3 (x ^ 2) / den3 (x ^ 2) := by
  have h1 : 0.195 * |x| - 0.176 ≤ (0 : ℝ) := by
    norm_num
    linarith
  have h2 : |x| + 0 < 5.5 := by
    norm_num
    linarith
  unfold voigt
  dsimp only
  rw [if_neg (fun h => h.1 ⟨h2, h1⟩), if_pos ⟨h2, h1, by norm_num⟩, approx3_axis]

/-- The profile of a line without width is the Gaussian, within 5e-5. -/
theorem voigt_zero (x : ℝ) : |voigt x 0 - exp (-x ^ 2)| ≤ 5e-5 := by
  by_cases h : |x| ≤ 176 / 195
  · rw [voigt_core h]
    refine quotient_near (sq_nonneg x) ?_
    rw [← sq_abs]
    have := abs_nonneg x
    calc |x| ^ 2 ≤ (176 / 195) ^ 2 := pow_le_pow_left₀ this h 2
      _ ≤ _ := by norm_num
  · rw [voigt_outside (not_le.1 h), sub_self, abs_zero]
    norm_num

theorem conj1 (t : ℂ) : approx1 ((starRingEnd ℂ) t) = (starRingEnd ℂ) (approx1 t) := by
  norm_num [approx1]
  simp only [map_ofNat]
  norm_num

theorem conj2 (t u : ℂ) : approx2 ((starRingEnd ℂ) t) ((starRingEnd ℂ) u) = (starRingEnd ℂ) (approx2 t u) := by
  norm_num [approx2]
  simp only [map_ofNat]

theorem conj3 (t : ℂ) : approx3 ((starRingEnd ℂ) t) = (starRingEnd ℂ) (approx3 t) := by
  norm_num [approx3]
  simp only [map_ofNat]

theorem conj4 (t u : ℂ) : approx4 ((starRingEnd ℂ) t) ((starRingEnd ℂ) u) = (starRingEnd ℂ) (approx4 t u) := by
  norm_num [approx4]
  simp only [map_ofNat]

/-- The profile is symmetric. -/
theorem voigt_neg (x a : ℝ) : voigt (-x) a = voigt x a := by
  have ht : ((a : ℂ) - I * ((-x : ℝ) : ℂ)) = (starRingEnd ℂ) ((a : ℂ) - I * x) := by
    simp
  have hx : Complex.exp (-((-x : ℝ) : ℂ) ^ 2) = (starRingEnd ℂ) (Complex.exp (-(x : ℂ) ^ 2)) := by
    rw [← Complex.exp_conj]
    simp
  have h0 : (0 : ℂ) = (starRingEnd ℂ) 0 := (map_zero _).symm
  have hi : ∀ (P : Prop) [Decidable P] (z w : ℂ), (if P then (starRingEnd ℂ) z else (starRingEnd ℂ) w) = (starRingEnd ℂ) (if P then z else w) :=
    fun P _ z w => by split_ifs <;> rfl
  unfold voigt
  dsimp only
  rw [ht, hx, abs_neg, ← map_pow, Complex.exp_conj, conj1, conj2, conj3, conj4, ← map_sub (starRingEnd ℂ)]
  nth_rw 1 [h0]
  simp only [hi, Complex.conj_re]

end Verif.Single
