import Verif.Single.Voigt
import Verif.Single.Plasma
import Mathlib.Analysis.Complex.ExponentialBounds
import Verif.Single.Pieces

/-!
# The four approximations of the profile

Each one is compared with the complex error function in its region: on the boundary with a neighbour, or with the Gaussian on the
imaginary axis, and inside by the principle of the maximum.
-/

namespace Verif.Single

open Real Filter Topology Set
open Complex (I)

/-! ## Quotients of polynomials -/

theorem cpoly_cons (c : ℤ) (cs : List ℤ) (t : ℂ) : cpoly (c :: cs) t = c + t * cpoly cs t := rfl

theorem cpoly_nil (t : ℂ) : cpoly [] t = 0 := rfl

theorem approx1_eq (t : ℂ) : approx1 t = cpoly N₁ t / cpoly D₁ t := by
  have hn : cpoly N₁ t = 10000000 * (t * 0.5641896) := by
    simp only [N₁, cpoly_cons, cpoly_nil]
    push_cast
    ring
  have hd : cpoly D₁ t = 10000000 * (0.5 + t ^ 2) := by
    simp only [D₁, cpoly_cons, cpoly_nil]
    push_cast
    ring
  rw [hn, hd, mul_div_mul_left _ _ (by norm_num)]
  rfl

theorem approx2_eq (t : ℂ) : approx2 t (t ^ 2) = cpoly N₂ t / cpoly D₂ t := by
  have hn : cpoly N₂ t = 10000000 * (t * (1.410474 + t ^ 2 * 0.5641896)) := by
    simp only [N₂, cpoly_cons, cpoly_nil]
    push_cast
    ring
  have hd : cpoly D₂ t = 10000000 * (0.75 + t ^ 2 * (3 + t ^ 2)) := by
    simp only [D₂, cpoly_cons, cpoly_nil]
    push_cast
    ring
  rw [hn, hd, mul_div_mul_left _ _ (by norm_num)]
  rfl

theorem approx3_eq (t : ℂ) : approx3 t = cpoly N₃ t / cpoly D₃ t := by
  have hn : cpoly N₃ t = 10000000 * (16.4955 + t * (20.20933 + t * (11.96482 + t * (3.778987 + 0.5642236 * t)))) := by
    simp only [N₃, cpoly_cons, cpoly_nil]
    push_cast
    ring
  have hd : cpoly D₃ t = 10000000 * (16.4955 + t * (38.82363 + t * (39.27121 + t * (21.69274 + t * (6.699398 + t))))) := by
    simp only [D₃, cpoly_cons, cpoly_nil]
    push_cast
    ring
  rw [hn, hd, mul_div_mul_left _ _ (by norm_num)]
  rfl

theorem approx4_eq (t : ℂ) : approx4 t (t ^ 2) = cpoly N₄ t / cpoly D₄ t := by
  have hn : cpoly N₄ t = 1000000 * (t * (36183.31 - t ^ 2 * (3321.99 - t ^ 2 * (1540.787 - t ^ 2 * (219.031 - t ^ 2 * (35.7668 - t ^ 2 * (1.320522 - t ^ 2 * 0.56419))))))) := by
    simp only [N₄, cpoly_cons, cpoly_nil]
    push_cast
    ring
  have hd : cpoly D₄ t = 1000000 * (32066.6 - t ^ 2 * (24322.8 - t ^ 2 * (9022.23 - t ^ 2 * (2186.18 - t ^ 2 * (364.219 - t ^ 2 * (61.5704 - t ^ 2 * (1.84144 - t ^ 2))))))) := by
    simp only [D₄, cpoly_cons, cpoly_nil]
    push_cast
    ring
  rw [hn, hd, mul_div_mul_left _ _ (by norm_num)]
  rfl

theorem cpoly_differentiable (cs : List ℤ) : Differentiable ℂ (cpoly cs) := by
  induction cs with
  | nil => exact differentiable_const 0
  | cons c cs ih => exact (differentiable_const _).add (differentiable_id.mul ih)

/-- A bound of a polynomial far from zero. -/
theorem cpoly_le (cs : List ℤ) {t : ℂ} (ht : 1 ≤ ‖t‖) : ‖cpoly cs t‖ * ‖t‖ ≤ (cs.map fun c : ℤ => |(c : ℝ)|).sum * ‖t‖ ^ cs.length := by
  induction cs with
  | nil => simp [cpoly]
  | cons c cs ih =>
    rw [cpoly_cons, List.map_cons, List.sum_cons, List.length_cons, pow_succ, add_mul]
    have h1 : ‖(c : ℂ) + t * cpoly cs t‖ ≤ |(c : ℝ)| + ‖t‖ * ‖cpoly cs t‖ := by
      refine (norm_add_le _ _).trans ?_
      rw [norm_mul, Complex.norm_intCast]
    have h2 : 1 ≤ ‖t‖ ^ cs.length := one_le_pow₀ ht
    have h0 := norm_nonneg t
    calc _ ≤ (|(c : ℝ)| + ‖t‖ * ‖cpoly cs t‖) * ‖t‖ := mul_le_mul_of_nonneg_right h1 h0
      _ = |(c : ℝ)| * (1 * ‖t‖) + ‖cpoly cs t‖ * ‖t‖ * ‖t‖ := by ring
      _ ≤ |(c : ℝ)| * (‖t‖ ^ cs.length * ‖t‖) + (cs.map fun c : ℤ => |(c : ℝ)|).sum * ‖t‖ ^ cs.length * ‖t‖ := by
        refine add_le_add (mul_le_mul_of_nonneg_left (mul_le_mul_of_nonneg_right h2 h0) (abs_nonneg _)) (mul_le_mul_of_nonneg_right ih h0)
      _ = _ := by ring

/-- A quotient with a denominator of higher degree vanishes at infinity. -/
theorem quotient_small (N D : List ℤ) {c : ℤ} (hl : D.length = N.length) (hc : c ≠ 0) {ε : ℝ} (hε : 0 < ε) :
    ∃ X : ℝ, ∀ t : ℂ, X ≤ ‖t‖ → ‖cpoly N t / cpoly (D ++ [c]) t‖ ≤ ε := by
  obtain ⟨A, hA⟩ : ∃ A, A = (N.map fun c : ℤ => |(c : ℝ)|).sum := ⟨_, rfl⟩
  obtain ⟨B, hB⟩ : ∃ B, B = (D.map fun c : ℤ => |(c : ℝ)|).sum := ⟨_, rfl⟩
  have hA0 : 0 ≤ A := by
    rw [hA]
    exact List.sum_nonneg (by simp)
  have hB0 : 0 ≤ B := by
    rw [hB]
    exact List.sum_nonneg (by simp)
  have hc' : 1 ≤ |(c : ℝ)| := by exact_mod_cast Int.one_le_abs hc
  refine ⟨1 + 2 * B + 2 * A / ε, fun t ht => ?_⟩
  have hq : 0 ≤ 2 * A / ε := by positivity
  have t1 : 1 ≤ ‖t‖ := by linarith
  have tB : 2 * B ≤ ‖t‖ := by linarith
  have tA : 2 * A ≤ ε * ‖t‖ := by
    have : 2 * A / ε ≤ ‖t‖ := by linarith
    rw [div_le_iff₀ hε] at this
    linarith
  have n1 := cpoly_le N t1
  have d1 := cpoly_le D t1
  rw [← hA] at n1
  rw [← hB, hl] at d1
  have hp : 0 < ‖t‖ ^ N.length := by positivity
  have tp : 0 < ‖t‖ := by linarith
  have low : ‖t‖ ^ N.length / 2 ≤ ‖cpoly (D ++ [c]) t‖ := by
    rw [cpoly_append, hl]
    have h1 := norm_sub_norm_le ((c : ℂ) * t ^ N.length) (-cpoly D t)
    rw [sub_neg_eq_add, norm_neg, norm_mul, norm_pow, Complex.norm_intCast, add_comm ((c : ℂ) * _)] at h1
    have h2 : ‖cpoly D t‖ ≤ ‖t‖ ^ N.length / 2 := by
      refine le_of_mul_le_mul_right ?_ tp
      nlinarith
    nlinarith
  rw [norm_div, div_le_iff₀ (lt_of_lt_of_le (by positivity) low)]
  refine le_of_mul_le_mul_right ?_ tp
  nlinarith [mul_le_mul_of_nonneg_right tA hp.le, mul_le_mul_of_nonneg_left low (by positivity : 0 ≤ ε * ‖t‖)]

/-! ## Points on the lines -/

theorem cev_axis (x : ℝ) : cev axis x / ((1 : ℤ) : ℂ) = ((0 : ℝ) : ℂ) - I * x := by
  apply Complex.ext <;> simp [cev, axis]

theorem cev_border (x : ℝ) : cev border x / ((1000 : ℤ) : ℂ) = ((0.195 * x - 0.176 : ℝ) : ℂ) - I * x := by
  rw [div_eq_iff (by norm_num)]
  apply Complex.ext <;> simp [cev, border] <;> ring

theorem cev_ray (x : ℝ) : cev ray x / ((4 : ℤ) : ℂ) = ((0.75 : ℝ) : ℂ) - I * x := by
  rw [div_eq_iff (by norm_num)]
  apply Complex.ext <;> simp [cev, ray] <;> norm_num

theorem cev_edge (x : ℝ) : cev edge x / ((2 : ℤ) : ℂ) = ((5.5 - x : ℝ) : ℂ) - I * x := by
  rw [div_eq_iff (by norm_num)]
  apply Complex.ext <;> simp [cev, edge] <;> ring

theorem cev_rim (x : ℝ) : cev rim x / ((1 : ℤ) : ℂ) = ((15 - x : ℝ) : ℂ) - I * x := by
  apply Complex.ext <;> simp [cev, rim] <;> ring

/-! ## Denominators -/

theorem D₁_ne {t : ℂ} (h : 5 ≤ ‖t‖ ^ 2) : cpoly D₁ t ≠ 0 := by
  have hd : cpoly D₁ t = 10000000 * (0.5 + t ^ 2) := by
    simp only [D₁, cpoly_cons, cpoly_nil]
    push_cast
    ring
  intro h0
  rw [hd] at h0
  have e : t ^ 2 = -0.5 := by linear_combination h0 / 10000000
  have := congrArg norm e
  rw [norm_pow] at this
  norm_num at this
  linarith

theorem D₂_ne {t : ℂ} (h : 5 ≤ ‖t‖ ^ 2) : cpoly D₂ t ≠ 0 := by
  have hd : cpoly D₂ t = 10000000 * (0.75 + t ^ 2 * (3 + t ^ 2)) := by
    simp only [D₂, cpoly_cons, cpoly_nil]
    push_cast
    ring
  intro h0
  rw [hd] at h0
  have e : (t ^ 2) ^ 2 = -(0.75 + 3 * t ^ 2) := by linear_combination h0 / 10000000
  have h1 := congrArg norm e
  rw [norm_neg, norm_pow, norm_pow] at h1
  have h2 := norm_add_le (0.75 : ℂ) (3 * t ^ 2)
  rw [norm_mul, norm_pow] at h2
  norm_num at h2 h1
  nlinarith

theorem D₃_ne {t : ℂ} (h : 0 ≤ t.re) : cpoly D₃ t ≠ 0 := by
  intro h0
  obtain ⟨a, b⟩ := t
  simp only at h
  have e : cpoly D₃ ⟨a, b⟩ = ⟨164955000 * (a ^ 0 * b ^ 0) + (-392712100 * (a ^ 0 * b ^ 2)) + 66993980 * (a ^ 0 * b ^ 4) + 388236300 * (a ^ 1 * b ^ 0) + (-650782200 * (a ^ 1 * b ^ 2)) + 50000000 * (a ^ 1 * b ^ 4) + 392712100 * (a ^ 2 * b ^ 0) + (-401963880 * (a ^ 2 * b ^ 2)) + 216927400 * (a ^ 3 * b ^ 0) + (-100000000 * (a ^ 3 * b ^ 2)) + 66993980 * (a ^ 4 * b ^ 0) + 10000000 * (a ^ 5 * b ^ 0),
      388236300 * (a ^ 0 * b ^ 1) + (-216927400 * (a ^ 0 * b ^ 3)) + 10000000 * (a ^ 0 * b ^ 5) + 785424200 * (a ^ 1 * b ^ 1) + (-267975920 * (a ^ 1 * b ^ 3)) + 650782200 * (a ^ 2 * b ^ 1) + (-100000000 * (a ^ 2 * b ^ 3)) + 267975920 * (a ^ 3 * b ^ 1) + 50000000 * (a ^ 4 * b ^ 1)⟩ := by
    simp only [D₃, cpoly_cons, cpoly_nil]
    apply Complex.ext <;> simp <;> ring
  rw [e] at h0
  have h1 := congrArg Complex.re h0
  have h2 := congrArg Complex.im h0
  simp only [Complex.zero_re, Complex.zero_im] at h1 h2
  have key : (164955000 * (a ^ 0 * b ^ 0) + (-392712100 * (a ^ 0 * b ^ 2)) + 66993980 * (a ^ 0 * b ^ 4) + 388236300 * (a ^ 1 * b ^ 0) + (-650782200 * (a ^ 1 * b ^ 2)) + 50000000 * (a ^ 1 * b ^ 4) + 392712100 * (a ^ 2 * b ^ 0) + (-401963880 * (a ^ 2 * b ^ 2)) + 216927400 * (a ^ 3 * b ^ 0) + (-100000000 * (a ^ 3 * b ^ 2)) + 66993980 * (a ^ 4 * b ^ 0) + 10000000 * (a ^ 5 * b ^ 0)) ^ 2 + (388236300 * (a ^ 0 * b ^ 1) + (-216927400 * (a ^ 0 * b ^ 3)) + 10000000 * (a ^ 0 * b ^ 5) + 785424200 * (a ^ 1 * b ^ 1) + (-267975920 * (a ^ 1 * b ^ 3)) + 650782200 * (a ^ 2 * b ^ 1) + (-100000000 * (a ^ 2 * b ^ 3)) + 267975920 * (a ^ 3 * b ^ 1) + 50000000 * (a ^ 4 * b ^ 1)) ^ 2 =
      27210152025000000 * (a ^ 0 * b ^ 0) + 21167775726690000 * (a ^ 0 * b ^ 2) + 7886595138970000 * (a ^ 0 * b ^ 4) + 2203529724444000 * (a ^ 0 * b ^ 6) + 149645356240400 * (a ^ 0 * b ^ 8) + 100000000000000 * (a ^ 0 * b ^ 10) + 128083037733000000 * (a ^ 1 * b ^ 0) + 90230629736460000 * (a ^ 1 * b ^ 2) + 30818560098236000 * (a ^ 1 * b ^ 4) + 5502933794104000 * (a ^ 1 * b ^ 6) + 1339879600000000 * (a ^ 1 * b ^ 8) + 280287073548690000 * (a ^ 2 * b ^ 0) + 175833683322020000 * (a ^ 2 * b ^ 2) + 49730167465964000 * (a ^ 2 * b ^ 4) + 9275677424961600 * (a ^ 2 * b ^ 6) + 500000000000000 * (a ^ 2 * b ^ 8) + 376496703872460000 * (a ^ 3 * b ^ 0) + 203731079536264000 * (a ^ 3 * b ^ 2) + 47925769382312000 * (a ^ 3 * b ^ 4) + 5359518400000000 * (a ^ 3 * b ^ 6) + 344762959717450000 * (a ^ 4 * b ^ 0) + 154967553758596000 * (a ^ 4 * b ^ 2) + 26929160137442400 * (a ^ 4 * b ^ 4) + 1000000000000000 * (a ^ 4 * b ^ 6) + 225698119438028000 * (a ^ 5 * b ^ 0) + 79342737382312000 * (a ^ 5 * b ^ 2) + 8039277600000000 * (a ^ 5 * b ^ 4) + 107440916017076000 * (a ^ 6 * b ^ 0) + 26629869424961600 * (a ^ 6 * b ^ 2) + 1000000000000000 * (a ^ 6 * b ^ 4) + 36919901794104000 * (a ^ 7 * b ^ 0) + 5359518400000000 * (a ^ 7 * b ^ 2) + 8826741356240400 * (a ^ 8 * b ^ 0) + 500000000000000 * (a ^ 8 * b ^ 2) + 1339879600000000 * (a ^ 9 * b ^ 0) + 100000000000000 * (a ^ 10 * b ^ 0) := by ring
  rw [h1, h2] at key
  have pos : 0 < 27210152025000000 * (a ^ 0 * b ^ 0) + 21167775726690000 * (a ^ 0 * b ^ 2) + 7886595138970000 * (a ^ 0 * b ^ 4) + 2203529724444000 * (a ^ 0 * b ^ 6) + 149645356240400 * (a ^ 0 * b ^ 8) + 100000000000000 * (a ^ 0 * b ^ 10) + 128083037733000000 * (a ^ 1 * b ^ 0) + 90230629736460000 * (a ^ 1 * b ^ 2) + 30818560098236000 * (a ^ 1 * b ^ 4) + 5502933794104000 * (a ^ 1 * b ^ 6) + 1339879600000000 * (a ^ 1 * b ^ 8) + 280287073548690000 * (a ^ 2 * b ^ 0) + 175833683322020000 * (a ^ 2 * b ^ 2) + 49730167465964000 * (a ^ 2 * b ^ 4) + 9275677424961600 * (a ^ 2 * b ^ 6) + 500000000000000 * (a ^ 2 * b ^ 8) + 376496703872460000 * (a ^ 3 * b ^ 0) + 203731079536264000 * (a ^ 3 * b ^ 2) + 47925769382312000 * (a ^ 3 * b ^ 4) + 5359518400000000 * (a ^ 3 * b ^ 6) + 344762959717450000 * (a ^ 4 * b ^ 0) + 154967553758596000 * (a ^ 4 * b ^ 2) + 26929160137442400 * (a ^ 4 * b ^ 4) + 1000000000000000 * (a ^ 4 * b ^ 6) + 225698119438028000 * (a ^ 5 * b ^ 0) + 79342737382312000 * (a ^ 5 * b ^ 2) + 8039277600000000 * (a ^ 5 * b ^ 4) + 107440916017076000 * (a ^ 6 * b ^ 0) + 26629869424961600 * (a ^ 6 * b ^ 2) + 1000000000000000 * (a ^ 6 * b ^ 4) + 36919901794104000 * (a ^ 7 * b ^ 0) + 5359518400000000 * (a ^ 7 * b ^ 2) + 8826741356240400 * (a ^ 8 * b ^ 0) + 500000000000000 * (a ^ 8 * b ^ 2) + 1339879600000000 * (a ^ 9 * b ^ 0) + 100000000000000 * (a ^ 10 * b ^ 0) := by positivity
  rw [← key] at pos
  norm_num at pos

theorem D₄_ne {x κ : ℝ} (hx : 0 < x) (h0 : 0 ≤ κ) (h1 : κ ≤ 0.195) : cpoly D₄ (((κ * x : ℝ) : ℂ) - I * x) ≠ 0 := by
  rcases h0.eq_or_lt with h | h
  · rw [← h]
    have hd := den4_pos x
    intro hz
    have e : cpoly D₄ (((0 * x : ℝ) : ℂ) - I * x) = ((1000000 * (fun v : ℝ => 32066.6 - v * (24322.8 - v * (9022.23 - v * (2186.18 - v * (364.219 - v * (61.5704 - v * (1.84144 - v))))))) (-x ^ 2) : ℝ) : ℂ) := by
      have hu : (((0 * x : ℝ) : ℂ) - I * x) = -I * x := by
        push_cast
        ring
      have hI := Complex.I_sq
      have hu2 : (-I * (x : ℂ)) ^ 2 = -(x : ℂ) ^ 2 := by
        rw [mul_pow, neg_sq, hI]
        ring
      rw [hu]
      have hd' : ∀ t : ℂ, cpoly D₄ t = 1000000 * (32066.6 - t ^ 2 * (24322.8 - t ^ 2 * (9022.23 - t ^ 2 * (2186.18 - t ^ 2 * (364.219 - t ^ 2 * (61.5704 - t ^ 2 * (1.84144 - t ^ 2))))))) := fun t => by
        simp only [D₄, cpoly_cons, cpoly_nil]
        push_cast
        ring
      rw [hd', hu2]
      push_cast
      ring
    rw [e] at hz
    have hz' := Complex.ofReal_eq_zero.1 hz
    linarith
  · intro hz
    have e : cpoly D₄ (((κ * x : ℝ) : ℂ) - I * x) = ((32066600000 : ℝ) : ℂ) + 24322800000 * (((x ^ 2 : ℝ) : ℂ) * ⟨1 - κ ^ 2, 2 * κ⟩) + 9022230000 * (((x ^ 2 : ℝ) : ℂ) * ⟨1 - κ ^ 2, 2 * κ⟩) ^ 2 +
        2186180000 * (((x ^ 2 : ℝ) : ℂ) * ⟨1 - κ ^ 2, 2 * κ⟩) ^ 3 + 364219000 * (((x ^ 2 : ℝ) : ℂ) * ⟨1 - κ ^ 2, 2 * κ⟩) ^ 4 + 61570400 * (((x ^ 2 : ℝ) : ℂ) * ⟨1 - κ ^ 2, 2 * κ⟩) ^ 5 +
        1841440 * (((x ^ 2 : ℝ) : ℂ) * ⟨1 - κ ^ 2, 2 * κ⟩) ^ 6 + 1000000 * (((x ^ 2 : ℝ) : ℂ) * ⟨1 - κ ^ 2, 2 * κ⟩) ^ 7 := by
      have hy : ((x ^ 2 : ℝ) : ℂ) * ⟨1 - κ ^ 2, 2 * κ⟩ = -(((κ * x : ℝ) : ℂ) - I * x) ^ 2 := by
        apply Complex.ext <;> simp [sq] <;> ring
      rw [hy]
      simp only [D₄, cpoly_cons, cpoly_nil]
      push_cast
      ring
    have him : (cpoly D₄ (((κ * x : ℝ) : ℂ) - I * x)).im = κ * (24322800000 * (x ^ 2) ^ 1 * 2 + 9022230000 * (x ^ 2) ^ 2 * (4 - 4 * κ ^ 2) + 2186180000 * (x ^ 2) ^ 3 * (6 - 20 * κ ^ 2 + 6 * (κ ^ 2) ^ 2) + 364219000 * (x ^ 2) ^ 4 * (8 - 56 * κ ^ 2 + 56 * (κ ^ 2) ^ 2 - 8 * (κ ^ 2) ^ 3) + 61570400 * (x ^ 2) ^ 5 * (10 - 120 * κ ^ 2 + 252 * (κ ^ 2) ^ 2 - 120 * (κ ^ 2) ^ 3 + 10 * (κ ^ 2) ^ 4) + 1841440 * (x ^ 2) ^ 6 * (12 - 220 * κ ^ 2 + 792 * (κ ^ 2) ^ 2 - 792 * (κ ^ 2) ^ 3 + 220 * (κ ^ 2) ^ 4 - 12 * (κ ^ 2) ^ 5) + 1000000 * (x ^ 2) ^ 7 * (14 - 364 * κ ^ 2 + 2002 * (κ ^ 2) ^ 2 - 3432 * (κ ^ 2) ^ 3 + 2002 * (κ ^ 2) ^ 4 - 364 * (κ ^ 2) ^ 5 + 14 * (κ ^ 2) ^ 6)) := by
      rw [e]
      simp only [Complex.add_im, Complex.ofReal_im, mul_pow, ← Complex.ofReal_pow, pow_succ, pow_zero, one_mul]
      simp
      ring
    rw [hz, Complex.zero_im] at him
    obtain ⟨m, hm⟩ : ∃ m, m = κ ^ 2 := ⟨_, rfl⟩
    obtain ⟨X, hX⟩ : ∃ X, X = x ^ 2 := ⟨_, rfl⟩
    rw [← hm, ← hX] at him
    have m0 : 0 ≤ m := hm ▸ sq_nonneg κ
    have m1 : 0 ≤ 1 / 26 - m := by
      rw [hm]
      nlinarith
    have X0 : 0 < X := hX ▸ pow_pos hx 2
    have g2 : 0 ≤ 4 - 4 * m := by linarith
    have g3 : 0 ≤ 6 - 20 * m + 6 * m ^ 2 := by nlinarith
    have g4 : 0 ≤ 8 - 56 * m + 56 * m ^ 2 - 8 * m ^ 3 := by
      have e : 8 - 56 * m + 56 * m ^ 2 - 8 * m ^ 3 = 56 * (1 / 26 - m) + (8 - 56 / 26) + 8 * m ^ 2 * (1 / 26 - m) + (56 - 8 / 26) * m ^ 2 := by ring
      rw [e]
      positivity
    have g5 : 0 ≤ 10 - 120 * m + 252 * m ^ 2 - 120 * m ^ 3 + 10 * m ^ 4 := by
      have e : 10 - 120 * m + 252 * m ^ 2 - 120 * m ^ 3 + 10 * m ^ 4 = 120 * (1 / 26 - m) + (10 - 120 / 26) + 120 * m ^ 2 * (1 / 26 - m) + (252 - 120 / 26) * m ^ 2 + 10 * m ^ 4 := by ring
      rw [e]
      positivity
    have g6 : 0 ≤ 12 - 220 * m + 792 * m ^ 2 - 792 * m ^ 3 + 220 * m ^ 4 - 12 * m ^ 5 := by
      have e : 12 - 220 * m + 792 * m ^ 2 - 792 * m ^ 3 + 220 * m ^ 4 - 12 * m ^ 5 = 220 * (1 / 26 - m) + (12 - 220 / 26) + 792 * m ^ 2 * (1 / 26 - m) + (792 - 792 / 26) * m ^ 2 +
        12 * m ^ 4 * (1 / 26 - m) + (220 - 12 / 26) * m ^ 4 := by ring
      rw [e]
      positivity
    have g7 : 0 ≤ 14 - 364 * m + 2002 * m ^ 2 - 3432 * m ^ 3 + 2002 * m ^ 4 - 364 * m ^ 5 + 14 * m ^ 6 := by
      have e : 14 - 364 * m + 2002 * m ^ 2 - 3432 * m ^ 3 + 2002 * m ^ 4 - 364 * m ^ 5 + 14 * m ^ 6 = 364 * (1 / 26 - m) + 3432 * m ^ 2 * (1 / 26 - m) + (2002 - 3432 / 26) * m ^ 2 +
        364 * m ^ 4 * (1 / 26 - m) + (2002 - 364 / 26) * m ^ 4 + 14 * m ^ 6 := by ring
      rw [e]
      positivity
    have pos : 0 < κ * (24322800000 * X ^ 1 * 2 + 9022230000 * X ^ 2 * (4 - 4 * m) + 2186180000 * X ^ 3 * (6 - 20 * m + 6 * m ^ 2) + 364219000 * X ^ 4 * (8 - 56 * m + 56 * m ^ 2 - 8 * m ^ 3) + 61570400 * X ^ 5 * (10 - 120 * m + 252 * m ^ 2 - 120 * m ^ 3 + 10 * m ^ 4) + 1841440 * X ^ 6 * (12 - 220 * m + 792 * m ^ 2 - 792 * m ^ 3 + 220 * m ^ 4 - 12 * m ^ 5) + 1000000 * X ^ 7 * (14 - 364 * m + 2002 * m ^ 2 - 3432 * m ^ 3 + 2002 * m ^ 4 - 364 * m ^ 5 + 14 * m ^ 6)) := by positivity
    rw [← him] at pos
    exact lt_irrefl _ pos

/-! ## The regions -/

theorem region {U C : Set ℂ} (hU : IsOpen U) (hC : IsClosed C) (hUC : U ⊆ C) {f : ℂ → ℂ} (hf : ∀ t ∈ C, DifferentiableAt ℂ f t) {δ : ℝ} (hδ : 0 ≤ δ)
    (hb : ∀ t ∈ C, t ∉ U → |(f t).re| ≤ δ) (hz : ∀ ε > 0, ∃ X : ℝ, ∀ t ∈ C, X ≤ ‖t‖ → ‖f t‖ ≤ ε) {t : ℂ} (ht : t ∈ C) : |(f t).re| ≤ δ := by
  have hcl : closure U ⊆ C := closure_minimal hUC hC
  by_cases h : t ∈ U
  · refine re_le_of_frontier ⟨fun z hz => (hf z (hUC hz)).differentiableWithinAt, fun z hz => (hf z (hcl hz)).continuousAt.continuousWithinAt⟩ hδ
      (fun z hz' => ?_) (fun ε hε => ?_) h
    · rw [hU.frontier_eq] at hz'
      exact hb z (hcl hz'.1) hz'.2
    · obtain ⟨X, hX⟩ := hz ε hε
      exact ⟨X, fun z hz' => hX z (hcl hz')⟩
  · exact hb t ht h

theorem plasma_small {ε : ℝ} (hε : 0 < ε) : ∃ X : ℝ, ∀ t : ℂ, 0 ≤ t.re → X ≤ ‖t‖ → ‖plasma t‖ ≤ ε := by
  refine ⟨1 + 2 / ε, fun t h0 ht => ?_⟩
  have hq : 0 < 2 / ε := by positivity
  have tp : 0 < ‖t‖ := by linarith
  refine (plasma_le h0 (norm_pos_iff.1 tp)).trans ?_
  rw [div_le_iff₀ tp]
  have : 2 / ε ≤ ‖t‖ := by linarith
  rw [div_le_iff₀ hε] at this
  linarith

/-- The difference of a quotient and `plasma` vanishes at infinity. -/
theorem diff_small (N D : List ℤ) {c : ℤ} (hl : D.length = N.length) (hc : c ≠ 0) {ε : ℝ} (hε : 0 < ε) :
    ∃ X : ℝ, ∀ t : ℂ, 0 ≤ t.re → X ≤ ‖t‖ → ‖cpoly N t / cpoly (D ++ [c]) t - plasma t‖ ≤ ε := by
  obtain ⟨X, hX⟩ := quotient_small N D hl hc (half_pos hε)
  obtain ⟨Y, hY⟩ := plasma_small (half_pos hε)
  refine ⟨max X Y, fun t h0 ht => ?_⟩
  refine (norm_sub_le _ _).trans ?_
  linarith [hX t ((le_max_left _ _).trans ht), hY t h0 ((le_max_right _ _).trans ht)]

theorem exp_small {s : ℝ} (h : 12.25 ≤ s) : exp (-s) ≤ 5e-6 := by
  have h1 : exp (-s) ≤ exp (-12.25) := exp_le_exp.2 (by linarith)
  have h2 : (200000 : ℝ) ≤ exp 12.25 := by
    have e : exp 12.25 = exp 1 ^ 12 * exp 0.25 := by
      rw [← exp_nat_mul, ← exp_add]
      norm_num
    have l1 := Real.exp_one_gt_d9
    have l2 := Real.add_one_le_exp (0.25 : ℝ)
    have l3 : (2.7182818283 : ℝ) ^ 12 ≤ exp 1 ^ 12 := pow_le_pow_left₀ (by norm_num) l1.le 12
    rw [e]
    calc (200000 : ℝ) ≤ 2.7182818283 ^ 12 * (0.25 + 1) := by norm_num
      _ ≤ _ := mul_le_mul l3 l2 (by norm_num) (by positivity)
  refine h1.trans ?_
  rw [exp_neg, inv_le_comm₀ (by positivity) (by norm_num)]
  refine le_trans (by norm_num) h2

theorem gap_zero {κ : ℤ} (hκ : κ = 1000000) {T : CPoly} {τ : ℤ} (hτ : 0 < τ) {N₁ D₁ N₂ D₂ : List ℤ} {ε : ℤ} {x : ℝ}
    (l1 : D₁.length = N₁.length + 1) (l2 : D₂.length = N₂.length + 1)
    (h1 : 0 ≤ ev (gap [] κ T τ N₁ D₁ N₂ D₂ ε).1 x) (h2 : 0 ≤ ev (gap [] κ T τ N₁ D₁ N₂ D₂ ε).2 x)
    {t : ℂ} (ht : cev T x / τ = t) (hA : cpoly D₁ t ≠ 0) (hB : cpoly D₂ t ≠ 0) :
    |(cpoly N₁ t / cpoly D₁ t).re + (cpoly N₂ t / cpoly D₂ t).re| ≤ ε / 1000000 := by
  subst hκ ht
  have h := gap_sound (by norm_num) hτ l1 l2 h1 h2 hA hB
  simp only [ev_nil, zero_div, zero_sub] at h
  rw [← abs_neg]
  push_cast at h
  convert h using 2
  ring

theorem axis_near {x : ℝ} (hx : 0 ≤ x) : |(approx3 (((0 : ℝ) : ℂ) - I * x)).re - exp (-x ^ 2)| ≤ 5e-5 := by
  have hA : cpoly D₃ (cev axis x / ((1 : ℤ) : ℂ)) ≠ 0 := by
    rw [cev_axis]
    exact D₃_ne (by simp)
  have hB : cpoly [1] (cev axis x / ((1 : ℤ) : ℂ)) ≠ 0 := by simp [cpoly]
  have he : (Complex.exp ((cev axis x / ((1 : ℤ) : ℂ)) ^ 2)).re = exp (-x ^ 2) := by
    have hu : (((0 : ℝ) : ℂ) - I * x) ^ 2 = ((-x ^ 2 : ℝ) : ℂ) := by
      push_cast
      ring_nf
      simp
    rw [cev_axis, hu, ← Complex.ofReal_exp, Complex.ofReal_re]
  have fin : |(Complex.exp ((cev axis x / ((1 : ℤ) : ℂ)) ^ 2)).re - (cpoly N₃ (cev axis x / ((1 : ℤ) : ℂ)) / cpoly D₃ (cev axis x / ((1 : ℤ) : ℂ))).re -
      (cpoly [] (cev axis x / ((1 : ℤ) : ℂ)) / cpoly [1] (cev axis x / ((1 : ℤ) : ℂ))).re| ≤ ((49 : ℤ) : ℝ) / 1000000 + 2e-7 →
      |(approx3 (((0 : ℝ) : ℂ) - I * x)).re - exp (-x ^ 2)| ≤ 5e-5 := fun h => by
    rw [he, cev_axis, ← approx3_eq, cpoly_nil, zero_div, Complex.zero_re, sub_zero, abs_sub_comm] at h
    refine h.trans (by norm_num)
  by_cases c7 : x < 3.5
  · by_cases c1 : x < 1
    · exact fin (piece_sound one_pos rfl rfl axis_0 (by norm_num; linarith) (by norm_num at c1 ⊢; linarith) hA hB)
    by_cases c2 : x < 1.66
    · exact fin (piece_sound one_pos rfl rfl axis_1 (by norm_num at c1 ⊢; linarith) (by norm_num at c2 ⊢; linarith) hA hB)
    by_cases c3 : x < 2.15
    · exact fin (piece_sound one_pos rfl rfl axis_2 (by norm_num at c2 ⊢; linarith) (by norm_num at c3 ⊢; linarith) hA hB)
    by_cases c4 : x < 2.55
    · exact fin (piece_sound one_pos rfl rfl axis_3 (by norm_num at c3 ⊢; linarith) (by norm_num at c4 ⊢; linarith) hA hB)
    by_cases c5 : x < 2.9
    · exact fin (piece_sound one_pos rfl rfl axis_4 (by norm_num at c4 ⊢; linarith) (by norm_num at c5 ⊢; linarith) hA hB)
    by_cases c6 : x < 3.21
    · exact fin (piece_sound one_pos rfl rfl axis_5 (by norm_num at c5 ⊢; linarith) (by norm_num at c6 ⊢; linarith) hA hB)
    · exact fin (piece_sound one_pos rfl rfl axis_6 (by norm_num at c6 ⊢; linarith) (by norm_num at c7 ⊢; linarith) hA hB)
  · have h := axis_far
    simp only [Bool.and_eq_true] at h
    have hl : ((350 : ℤ) : ℝ) / ((100 : ℤ) : ℝ) ≤ x := by
      norm_num at c7 ⊢
      linarith
    have g := gap_zero rfl one_pos rfl rfl (nonnegFrom_sound (by norm_num) h.1 hl) (nonnegFrom_sound (by norm_num) h.2 hl) (cev_axis x)
      (D₃_ne (by simp)) (by simp [cpoly])
    rw [← approx3_eq, cpoly_nil, zero_div, Complex.zero_re, add_zero] at g
    have hs : exp (-x ^ 2) ≤ 5e-6 := by
      refine exp_small ?_
      have : 3.5 ≤ x := not_lt.1 c7
      norm_num at this ⊢
      nlinarith
    have hp := exp_pos (-x ^ 2)
    refine (abs_sub _ _).trans ?_
    rw [abs_of_pos hp]
    norm_num at g hs ⊢
    linarith

theorem axis_all (x : ℝ) : |(approx3 (((0 : ℝ) : ℂ) - I * x)).re - exp (-x ^ 2)| ≤ 5e-5 := by
  rcases le_total 0 x with h | h
  · exact axis_near h
  · have := axis_near (neg_nonneg.2 h)
    rw [approx3_axis, neg_sq] at this
    rwa [approx3_axis]

theorem point_eq (t : ℂ) : t = ((t.re : ℝ) : ℂ) - I * ((-t.im : ℝ) : ℂ) := by
  apply Complex.ext <;> simp

theorem plasma_axis' {t : ℂ} (h : t.re = 0) : (plasma t).re = exp (-t.im ^ 2) := by
  have e : t = -I * ((-t.im : ℝ) : ℂ) := by
    apply Complex.ext <;> simp [h]
  rw [e, plasma_axis]
  simp

/-- The third formula in the right half plane. -/
theorem near3 {t : ℂ} (h : 0 ≤ t.re) : |(approx3 t).re - (plasma t).re| ≤ 5e-5 := by
  rw [← Complex.sub_re]
  refine region (U := {t | 0 < t.re}) (C := {t | 0 ≤ t.re}) (f := fun t => approx3 t - plasma t) (isOpen_lt continuous_const Complex.continuous_re)
    (isClosed_le continuous_const Complex.continuous_re) (fun z hz => show (0 : ℝ) ≤ z.re from le_of_lt hz) (fun z hz => ?_) (by norm_num) (fun z hz hn => ?_) (fun ε hε => ?_) h
  · have e : approx3 = fun t => cpoly N₃ t / cpoly D₃ t := funext approx3_eq
    rw [e]
    exact ((cpoly_differentiable _ z).div (cpoly_differentiable _ z) (D₃_ne hz)).sub (plasma_differentiable z)
  · have h0 : z.re = 0 := le_antisymm (not_lt.1 hn) hz
    have := axis_all (-z.im)
    rw [← h0, ← point_eq, neg_sq] at this
    rwa [Complex.sub_re, plasma_axis' h0]
  · obtain ⟨X, hX⟩ := diff_small N₃ [164955000, 388236300, 392712100, 216927400, 66993980] (c := 10000000) rfl (by norm_num) hε
    exact ⟨X, fun z hz hz' => by
      rw [approx3_eq]
      exact hX z hz hz'⟩

/-! ## The second and the first formula -/

theorem cpoly_psmul (c : ℤ) (p : List ℤ) (t : ℂ) : cpoly (psmul c p) t = c * cpoly p t := by
  induction p with
  | nil => simp [psmul, cpoly]
  | cons d p ih =>
    have e : psmul c (d :: p) = (c * d) :: psmul c p := rfl
    rw [e, cpoly_cons, cpoly_cons, ih]
    push_cast
    ring

theorem norm_sq_eq (t : ℂ) : ‖t‖ ^ 2 = t.re ^ 2 + t.im ^ 2 := by
  rw [← Complex.normSq_eq_norm_sq, Complex.normSq_apply]
  ring

theorem far_norm {t : ℂ} (h0 : 0 ≤ t.re) (h : 5.5 ≤ |t.im| + t.re) : 5 ≤ ‖t‖ ^ 2 := by
  rw [norm_sq_eq, ← sq_abs t.im]
  norm_num at h
  nlinarith [sq_nonneg (|t.im| - t.re)]

theorem approx2_axis {t : ℂ} (h : t.re = 0) : (approx2 t (t ^ 2)).re = 0 := by
  have c := conj2 t (t ^ 2)
  have e : (starRingEnd ℂ) t = -t := by
    apply Complex.ext <;> simp [h]
  have e2 : (starRingEnd ℂ) (t ^ 2) = t ^ 2 := by rw [map_pow, e, neg_sq]
  rw [e2, e] at c
  have e3 : approx2 (-t) (t ^ 2) = -approx2 t (t ^ 2) := by
    unfold approx2
    ring
  rw [e3] at c
  have := congrArg Complex.re c
  simp only [Complex.neg_re, Complex.conj_re] at this
  linarith

theorem approx1_axis {t : ℂ} (h : t.re = 0) : (approx1 t).re = 0 := by
  have c := conj1 t
  have e : (starRingEnd ℂ) t = -t := by
    apply Complex.ext <;> simp [h]
  rw [e] at c
  have e3 : approx1 (-t) = -approx1 t := by
    unfold approx1
    ring
  rw [e3] at c
  have := congrArg Complex.re c
  simp only [Complex.neg_re, Complex.conj_re] at this
  linarith

theorem edge_near {x : ℝ} (h0 : 0 ≤ x) (h1 : x ≤ 5.5) : |(approx2 (((5.5 - x : ℝ) : ℂ) - I * x) ((((5.5 - x : ℝ) : ℂ) - I * x) ^ 2)).re -
    (approx3 (((5.5 - x : ℝ) : ℂ) - I * x)).re| ≤ 1e-5 := by
  obtain ⟨t, ht⟩ : ∃ t, t = ((5.5 - x : ℝ) : ℂ) - I * x := ⟨_, rfl⟩
  have tr : t.re = 5.5 - x := by rw [ht]; simp
  have ti : t.im = -x := by rw [ht]; simp
  have hD2 : cpoly D₂ t ≠ 0 := D₂_ne (far_norm (by rw [tr]; linarith) (by rw [tr, ti, abs_neg, abs_of_nonneg h0]; linarith))
  have hD3 : cpoly D₃ t ≠ 0 := D₃_ne (by rw [tr]; linarith)
  have fin : |(cpoly N₂ t / cpoly D₂ t).re + (cpoly (psmul (-1) N₃) t / cpoly D₃ t).re| ≤ ((10 : ℤ) : ℝ) / 1000000 →
      |(approx2 t (t ^ 2)).re - (approx3 t).re| ≤ 1e-5 := fun h => by
    rw [cpoly_psmul, Int.cast_neg, Int.cast_one, neg_one_mul, neg_div, Complex.neg_re, ← sub_eq_add_neg, ← approx2_eq, ← approx3_eq] at h
    refine h.trans (by norm_num)
  rw [← ht]
  by_cases c : x < 2.8
  · have h := edge_0
    simp only [Bool.and_eq_true] at h
    have hl : ((0 : ℤ) : ℝ) / ((10 : ℤ) : ℝ) ≤ x := by norm_num; linarith
    have hr : x < ((28 : ℤ) : ℝ) / ((10 : ℤ) : ℝ) := by norm_num at c ⊢; linarith
    exact fin (gap_zero rfl two_pos rfl rfl (nonnegOn_sound (by norm_num) h.1 hl hr) (nonnegOn_sound (by norm_num) h.2 hl hr) ((cev_edge x).trans ht.symm) hD2 hD3)
  · have h := edge_1
    simp only [Bool.and_eq_true] at h
    have hl : ((28 : ℤ) : ℝ) / ((10 : ℤ) : ℝ) ≤ x := by norm_num at c ⊢; linarith
    have hr : x < ((56 : ℤ) : ℝ) / ((10 : ℤ) : ℝ) := by norm_num at h1 ⊢; linarith
    exact fin (gap_zero rfl two_pos rfl rfl (nonnegOn_sound (by norm_num) h.1 hl hr) (nonnegOn_sound (by norm_num) h.2 hl hr) ((cev_edge x).trans ht.symm) hD2 hD3)

theorem edge_all {t : ℂ} (h0 : 0 ≤ t.re) (h1 : |t.im| + t.re = 5.5) : |(approx2 t (t ^ 2)).re - (approx3 t).re| ≤ 1e-5 := by
  have key : ∀ t : ℂ, 0 ≤ t.re → t.im ≤ 0 → |t.im| + t.re = 5.5 → |(approx2 t (t ^ 2)).re - (approx3 t).re| ≤ 1e-5 := fun t h0 hi h1 => by
    rw [abs_of_nonpos hi] at h1
    have := edge_near (x := -t.im) (by linarith) (by linarith)
    have e : 5.5 - -t.im = t.re := by linarith
    rwa [e, ← point_eq] at this
  rcases le_total t.im 0 with hi | hi
  · exact key t h0 hi h1
  · have := key ((starRingEnd ℂ) t) (by simpa using h0) (by simpa using hi) (by simpa using h1)
    rwa [← map_pow, conj2, conj3, Complex.conj_re, Complex.conj_re] at this

/-- The second formula where the code uses it, and beyond. -/
theorem near2 {t : ℂ} (h0 : 0 ≤ t.re) (h : 5.5 ≤ |t.im| + t.re) : |(approx2 t (t ^ 2)).re - (plasma t).re| ≤ 6e-5 := by
  rw [← Complex.sub_re]
  have hc : Continuous fun t : ℂ => |t.im| + t.re := (Complex.continuous_im.abs).add Complex.continuous_re
  refine region (U := {t | 0 < t.re} ∩ {t | 5.5 < |t.im| + t.re}) (C := {t | 0 ≤ t.re} ∩ {t | 5.5 ≤ |t.im| + t.re}) (f := fun t => approx2 t (t ^ 2) - plasma t)
    ((isOpen_lt continuous_const Complex.continuous_re).inter (isOpen_lt continuous_const hc))
    ((isClosed_le continuous_const Complex.continuous_re).inter (isClosed_le continuous_const hc))
    (fun z hz => ⟨show (0 : ℝ) ≤ z.re from le_of_lt hz.1, show (_ : ℝ) ≤ |z.im| + z.re from le_of_lt hz.2⟩) (fun z hz => ?_) (by norm_num) (fun z hz hn => ?_) (fun ε hε => ?_) ⟨h0, h⟩
  · have e : (fun t => approx2 t (t ^ 2)) = fun t => cpoly N₂ t / cpoly D₂ t := funext approx2_eq
    have := ((cpoly_differentiable N₂ z).div (cpoly_differentiable D₂ z) (D₂_ne (far_norm hz.1 hz.2))).sub (plasma_differentiable z)
    refine this.congr_of_eventuallyEq (Filter.Eventually.of_forall fun t => ?_)
    exact congrArg (· - plasma t) (approx2_eq t)
  · obtain ⟨z0, z1⟩ := hz
    simp only [Set.mem_setOf_eq] at z0 z1
    rw [Complex.sub_re]
    rcases z0.eq_or_lt with he | hl
    · have e : 5.5 ≤ |z.im| := by rw [← he] at z1; linarith
      have : exp (-z.im ^ 2) ≤ 5e-6 := exp_small (by
        have := sq_abs z.im
        norm_num at e ⊢
        nlinarith)
      have hp := exp_pos (-z.im ^ 2)
      rw [approx2_axis he.symm, plasma_axis' he.symm, zero_sub, abs_neg, abs_of_pos hp]
      refine this.trans (by norm_num)
    · have e : |z.im| + z.re = 5.5 := le_antisymm (not_lt.1 fun h' => hn ⟨hl, h'⟩) z1
      have a := edge_all z0 e
      have b := near3 z0
      have := abs_sub_le (approx2 z (z ^ 2)).re (approx3 z).re (plasma z).re
      norm_num at a b this ⊢
      linarith
  · obtain ⟨X, hX⟩ := diff_small N₂ [7500000, 0, 30000000, 0] (c := 10000000) rfl (by norm_num) hε
    exact ⟨X, fun z hz hz' => by
      rw [approx2_eq]
      exact hX z hz.1 hz'⟩

theorem rim_near {x : ℝ} (h0 : 0 ≤ x) (h1 : x ≤ 15) : |(approx1 (((15 - x : ℝ) : ℂ) - I * x)).re -
    (approx2 (((15 - x : ℝ) : ℂ) - I * x) ((((15 - x : ℝ) : ℂ) - I * x) ^ 2)).re| ≤ 1e-5 := by
  obtain ⟨t, ht⟩ : ∃ t, t = ((15 - x : ℝ) : ℂ) - I * x := ⟨_, rfl⟩
  have tr : t.re = 15 - x := by rw [ht]; simp
  have ti : t.im = -x := by rw [ht]; simp
  have hf := far_norm (t := t) (by rw [tr]; linarith) (by rw [tr, ti, abs_neg, abs_of_nonneg h0]; norm_num)
  have hD2 : cpoly D₂ t ≠ 0 := D₂_ne hf
  have hD1 : cpoly D₁ t ≠ 0 := D₁_ne hf
  have fin : |(cpoly N₁ t / cpoly D₁ t).re + (cpoly (psmul (-1) N₂) t / cpoly D₂ t).re| ≤ ((10 : ℤ) : ℝ) / 1000000 →
      |(approx1 t).re - (approx2 t (t ^ 2)).re| ≤ 1e-5 := fun h => by
    rw [cpoly_psmul, Int.cast_neg, Int.cast_one, neg_one_mul, neg_div, Complex.neg_re, ← sub_eq_add_neg, ← approx1_eq, ← approx2_eq] at h
    refine h.trans (by norm_num)
  rw [← ht]
  by_cases c : x < 7.6
  · have h := rim_0
    simp only [Bool.and_eq_true] at h
    have hl : ((0 : ℤ) : ℝ) / ((10 : ℤ) : ℝ) ≤ x := by norm_num; linarith
    have hr : x < ((76 : ℤ) : ℝ) / ((10 : ℤ) : ℝ) := by norm_num at c ⊢; linarith
    exact fin (gap_zero rfl one_pos rfl rfl (nonnegOn_sound (by norm_num) h.1 hl hr) (nonnegOn_sound (by norm_num) h.2 hl hr) ((cev_rim x).trans ht.symm) hD1 hD2)
  · have h := rim_1
    simp only [Bool.and_eq_true] at h
    have hl : ((76 : ℤ) : ℝ) / ((10 : ℤ) : ℝ) ≤ x := by norm_num at c ⊢; linarith
    have hr : x < ((152 : ℤ) : ℝ) / ((10 : ℤ) : ℝ) := by norm_num at h1 ⊢; linarith
    exact fin (gap_zero rfl one_pos rfl rfl (nonnegOn_sound (by norm_num) h.1 hl hr) (nonnegOn_sound (by norm_num) h.2 hl hr) ((cev_rim x).trans ht.symm) hD1 hD2)

theorem rim_all {t : ℂ} (h0 : 0 ≤ t.re) (h1 : |t.im| + t.re = 15) : |(approx1 t).re - (approx2 t (t ^ 2)).re| ≤ 1e-5 := by
  have key : ∀ t : ℂ, 0 ≤ t.re → t.im ≤ 0 → |t.im| + t.re = 15 → |(approx1 t).re - (approx2 t (t ^ 2)).re| ≤ 1e-5 := fun t h0 hi h1 => by
    rw [abs_of_nonpos hi] at h1
    have := rim_near (x := -t.im) (by linarith) (by linarith)
    have e : 15 - -t.im = t.re := by linarith
    rwa [e, ← point_eq] at this
  rcases le_total t.im 0 with hi | hi
  · exact key t h0 hi h1
  · have := key ((starRingEnd ℂ) t) (by simpa using h0) (by simpa using hi) (by simpa using h1)
    rwa [← map_pow, conj1, conj2, Complex.conj_re, Complex.conj_re] at this

/-- The first formula where the code uses it. -/
theorem near1 {t : ℂ} (h0 : 0 ≤ t.re) (h : 15 ≤ |t.im| + t.re) : |(approx1 t).re - (plasma t).re| ≤ 7e-5 := by
  rw [← Complex.sub_re]
  have hc : Continuous fun t : ℂ => |t.im| + t.re := (Complex.continuous_im.abs).add Complex.continuous_re
  refine region (U := {t | 0 < t.re} ∩ {t | 15 < |t.im| + t.re}) (C := {t | 0 ≤ t.re} ∩ {t | 15 ≤ |t.im| + t.re}) (f := fun t => approx1 t - plasma t)
    ((isOpen_lt continuous_const Complex.continuous_re).inter (isOpen_lt continuous_const hc))
    ((isClosed_le continuous_const Complex.continuous_re).inter (isClosed_le continuous_const hc))
    (fun z hz => ⟨show (0 : ℝ) ≤ z.re from le_of_lt hz.1, show (_ : ℝ) ≤ |z.im| + z.re from le_of_lt hz.2⟩) (fun z hz => ?_) (by norm_num) (fun z hz hn => ?_) (fun ε hε => ?_) ⟨h0, h⟩
  · have hz2 : 5.5 ≤ |z.im| + z.re := le_trans (by norm_num) (show (15 : ℝ) ≤ _ from hz.2)
    have := ((cpoly_differentiable N₁ z).div (cpoly_differentiable D₁ z) (D₁_ne (far_norm hz.1 hz2))).sub (plasma_differentiable z)
    refine this.congr_of_eventuallyEq (Filter.Eventually.of_forall fun t => ?_)
    exact congrArg (· - plasma t) (approx1_eq t)
  · obtain ⟨z0, z1⟩ := hz
    simp only [Set.mem_setOf_eq] at z0 z1
    rw [Complex.sub_re]
    rcases z0.eq_or_lt with he | hl
    · have e : 15 ≤ |z.im| := by rw [← he] at z1; linarith
      have : exp (-z.im ^ 2) ≤ 5e-6 := exp_small (by
        have := sq_abs z.im
        norm_num
        nlinarith)
      have hp := exp_pos (-z.im ^ 2)
      rw [approx1_axis he.symm, plasma_axis' he.symm, zero_sub, abs_neg, abs_of_pos hp]
      refine this.trans (by norm_num)
    · have e : |z.im| + z.re = 15 := le_antisymm (not_lt.1 fun h' => hn ⟨hl, h'⟩) z1
      have a := rim_all z0 e
      have b := near2 z0 (by rw [e]; norm_num)
      have := abs_sub_le (approx1 z).re (approx2 z (z ^ 2)).re (plasma z).re
      norm_num at a b this ⊢
      linarith
  · obtain ⟨X, hX⟩ := diff_small N₁ [5000000, 0] (c := 10000000) rfl (by norm_num) hε
    exact ⟨X, fun z hz hz' => by
      rw [approx1_eq]
      exact hX z hz.1 hz'⟩

/-! ## The fourth formula -/

theorem exp_tiny {s : ℝ} (h : 14 ≤ s) : exp (-s) ≤ 1e-6 := by
  have h1 : exp (-s) ≤ exp (-14) := exp_le_exp.2 (by linarith)
  have h2 : (1000000 : ℝ) ≤ exp 14 := by
    have e : exp 14 = exp 1 ^ 14 := by
      rw [← exp_nat_mul]
      norm_num
    have l3 : (2.7182818283 : ℝ) ^ 14 ≤ exp 1 ^ 14 := pow_le_pow_left₀ (by norm_num) Real.exp_one_gt_d9.le 14
    rw [e]
    exact le_trans (by norm_num) l3
  refine h1.trans ?_
  rw [exp_neg, inv_le_comm₀ (by positivity) (by norm_num)]
  refine le_trans (by norm_num) h2

theorem exp_norm (a x : ℝ) : ‖Complex.exp (((a : ℂ) - I * x) ^ 2)‖ = exp (-(x ^ 2 - a ^ 2)) := by
  rw [Complex.norm_exp]
  congr 1
  simp [sq]

theorem exp_re_tiny {a x : ℝ} (h : 14 ≤ x ^ 2 - a ^ 2) : |(Complex.exp (((a : ℂ) - I * x) ^ 2)).re| ≤ 1e-6 :=
  (Complex.abs_re_le_norm _).trans ((exp_norm a x).trans_le (exp_tiny h))

theorem D₄_ne' {a x : ℝ} (h0 : 0 ≤ a) (h : a ≤ 0.195 * x - 0.176) : cpoly D₄ ((a : ℂ) - I * x) ≠ 0 := by
  norm_num at h
  have hx : 0 < x := by linarith
  have := D₄_ne (κ := a / x) hx (by positivity) (by
    rw [div_le_iff₀ hx]
    norm_num
    linarith)
  rwa [div_mul_cancel₀ _ hx.ne'] at this

/-- The value of the fourth formula. -/
noncomputable def tail (t : ℂ) : ℂ := Complex.exp (t ^ 2) - approx4 t (t ^ 2)

theorem border_near {x : ℝ} (h0 : 0 ≤ 0.195 * x - 0.176) (h1 : 0.195 * x - 0.176 ≤ 0.75) :
    |(tail (((0.195 * x - 0.176 : ℝ) : ℂ) - I * x)).re - (approx3 (((0.195 * x - 0.176 : ℝ) : ℂ) - I * x)).re| ≤ 5e-5 := by
  obtain ⟨t, ht⟩ : ∃ t, t = ((0.195 * x - 0.176 : ℝ) : ℂ) - I * x := ⟨_, rfl⟩
  have tr : t.re = 0.195 * x - 0.176 := by rw [ht]; simp
  have hc : cev border x / ((1000 : ℤ) : ℂ) = t := (cev_border x).trans ht.symm
  have hA : cpoly D₄ t ≠ 0 := ht ▸ D₄_ne' h0 le_rfl
  have hB : cpoly D₃ t ≠ 0 := D₃_ne (by rw [tr]; exact h0)
  rw [← hc] at hA hB
  have fin : |(Complex.exp ((cev border x / ((1000 : ℤ) : ℂ)) ^ 2)).re - (cpoly N₄ (cev border x / ((1000 : ℤ) : ℂ)) / cpoly D₄ (cev border x / ((1000 : ℤ) : ℂ))).re -
      (cpoly N₃ (cev border x / ((1000 : ℤ) : ℂ)) / cpoly D₃ (cev border x / ((1000 : ℤ) : ℂ))).re| ≤ ((48 : ℤ) : ℝ) / 1000000 + 2e-7 →
      |(tail t).re - (approx3 t).re| ≤ 5e-5 := fun h => by
    rw [hc, ← approx4_eq, ← approx3_eq] at h
    rw [tail, Complex.sub_re]
    refine h.trans (by norm_num)
  rw [← ht]
  have k0 : 0.9 ≤ x := by norm_num at h0 ⊢; linarith
  have k1 : x < 4.76 := by norm_num at h1 ⊢; linarith
  have hτ : (0 : ℤ) < 1000 := by norm_num
  by_cases c8 : x < 3.93
  · by_cases c1 : x < 1.59
    · exact fin (piece_sound hτ rfl rfl border_0 (by norm_num at k0 ⊢; linarith) (by norm_num at c1 ⊢; linarith) hA hB)
    by_cases c2 : x < 2.08
    · exact fin (piece_sound hτ rfl rfl border_1 (by norm_num at c1 ⊢; linarith) (by norm_num at c2 ⊢; linarith) hA hB)
    by_cases c3 : x < 2.48
    · exact fin (piece_sound hτ rfl rfl border_2 (by norm_num at c2 ⊢; linarith) (by norm_num at c3 ⊢; linarith) hA hB)
    by_cases c4 : x < 2.83
    · exact fin (piece_sound hτ rfl rfl border_3 (by norm_num at c3 ⊢; linarith) (by norm_num at c4 ⊢; linarith) hA hB)
    by_cases c5 : x < 3.14
    · exact fin (piece_sound hτ rfl rfl border_4 (by norm_num at c4 ⊢; linarith) (by norm_num at c5 ⊢; linarith) hA hB)
    by_cases c6 : x < 3.43
    · exact fin (piece_sound hτ rfl rfl border_5 (by norm_num at c5 ⊢; linarith) (by norm_num at c6 ⊢; linarith) hA hB)
    by_cases c7 : x < 3.69
    · exact fin (piece_sound hτ rfl rfl border_6 (by norm_num at c6 ⊢; linarith) (by norm_num at c7 ⊢; linarith) hA hB)
    · exact fin (piece_sound hτ rfl rfl border_7 (by norm_num at c7 ⊢; linarith) (by norm_num at c8 ⊢; linarith) hA hB)
  · have h := border_far
    simp only [Bool.and_eq_true] at h
    have hl : ((380 : ℤ) : ℝ) / ((100 : ℤ) : ℝ) ≤ x := by norm_num at c8 ⊢; linarith
    have hr : x < ((476 : ℤ) : ℝ) / ((100 : ℤ) : ℝ) := by norm_num at k1 ⊢; linarith
    rw [hc] at hA hB
    have g := gap_zero rfl hτ rfl rfl (nonnegOn_sound (by norm_num) h.1 hl hr) (nonnegOn_sound (by norm_num) h.2 hl hr) hc hA hB
    rw [← approx4_eq, ← approx3_eq] at g
    have e : |(Complex.exp (t ^ 2)).re| ≤ 1e-6 := by
      rw [ht]
      refine exp_re_tiny ?_
      norm_num at c8 h0 h1 ⊢
      nlinarith
    rw [tail, Complex.sub_re]
    have e2 : (Complex.exp (t ^ 2)).re - (approx4 t (t ^ 2)).re - (approx3 t).re = (Complex.exp (t ^ 2)).re - ((approx4 t (t ^ 2)).re + (approx3 t).re) := by ring
    rw [e2]
    refine (abs_sub _ _).trans ?_
    norm_num at g e ⊢
    linarith

theorem ray_near {x : ℝ} (h : 0.75 ≤ 0.195 * x - 0.176) : |(tail (((0.75 : ℝ) : ℂ) - I * x)).re - (approx3 (((0.75 : ℝ) : ℂ) - I * x)).re| ≤ 5e-5 := by
  have hA : cpoly D₄ (((0.75 : ℝ) : ℂ) - I * x) ≠ 0 := D₄_ne' (by norm_num) h
  have hB : cpoly D₃ (((0.75 : ℝ) : ℂ) - I * x) ≠ 0 := D₃_ne (by norm_num)
  have r := ray_far
  simp only [Bool.and_eq_true] at r
  have hl : ((470 : ℤ) : ℝ) / ((100 : ℤ) : ℝ) ≤ x := by norm_num at h ⊢; linarith
  have g := gap_zero rfl (by norm_num) rfl rfl (nonnegFrom_sound (by norm_num) r.1 hl) (nonnegFrom_sound (by norm_num) r.2 hl) (cev_ray x) hA hB
  rw [← approx4_eq, ← approx3_eq] at g
  have e : |(Complex.exp ((((0.75 : ℝ) : ℂ) - I * x) ^ 2)).re| ≤ 1e-6 := by
    refine exp_re_tiny ?_
    norm_num at hl ⊢
    nlinarith
  obtain ⟨t, ht⟩ : ∃ t, t = ((0.75 : ℝ) : ℂ) - I * x := ⟨_, rfl⟩
  rw [← ht] at g e ⊢
  rw [tail, Complex.sub_re]
  have e2 : (Complex.exp (t ^ 2)).re - (approx4 t (t ^ 2)).re - (approx3 t).re = (Complex.exp (t ^ 2)).re - ((approx4 t (t ^ 2)).re + (approx3 t).re) := by ring
  rw [e2]
  refine (abs_sub _ _).trans ?_
  norm_num at g e ⊢
  linarith

theorem tail_axis {t : ℂ} (h : t.re = 0) : (tail t).re = exp (-t.im ^ 2) := by
  have e := point_eq t
  rw [h] at e
  have hu : t ^ 2 = ((-t.im ^ 2 : ℝ) : ℂ) := by
    rw [e]
    push_cast
    ring_nf
    simp
  rw [tail, Complex.sub_re]
  have h4 := approx4_axis (-t.im)
  rw [← e] at h4
  rw [h4, sub_zero, hu, ← Complex.ofReal_exp, Complex.ofReal_re]

theorem tail_small {ε : ℝ} (hε : 0 < ε) : ∃ X : ℝ, ∀ t : ℂ, 0 ≤ t.re → t.re ≤ 0.75 → X ≤ ‖t‖ → ‖Complex.exp (t ^ 2)‖ ≤ ε := by
  refine ⟨2 + 1 / ε, fun t h0 h1 ht => ?_⟩
  have hq : 0 < 1 / ε := by positivity
  have t2 : 2 ≤ ‖t‖ := by linarith
  have t3 : 1 / ε ≤ ‖t‖ := by linarith
  have e : ‖Complex.exp (t ^ 2)‖ = exp (-(‖t‖ ^ 2 - 2 * t.re ^ 2)) := by
    conv_lhs => rw [point_eq t]
    rw [exp_norm, norm_sq_eq]
    congr 1
    ring
  have k : ‖t‖ ≤ exp (‖t‖ ^ 2 - 2 * t.re ^ 2) := by
    refine le_trans ?_ (Real.add_one_le_exp _)
    norm_num at h1
    nlinarith
  rw [e, exp_neg, inv_le_comm₀ (exp_pos _) hε, ← one_div]
  exact t3.trans k

/-- The fourth formula where the code uses it. -/
theorem near4 {t : ℂ} (h0 : 0 ≤ t.re) (h1 : t.re ≤ 0.75) (h2 : t.re ≤ 0.195 * (-t.im) - 0.176) : |(tail t).re - (plasma t).re| ≤ 1e-4 := by
  rw [← Complex.sub_re]
  have hc : Continuous fun t : ℂ => 0.195 * (-t.im) - 0.176 := (continuous_const.mul Complex.continuous_im.neg).sub continuous_const
  refine region (U := {t | 0 < t.re} ∩ ({t | t.re < 0.75} ∩ {t | t.re < 0.195 * (-t.im) - 0.176}))
    (C := {t | 0 ≤ t.re} ∩ ({t | t.re ≤ 0.75} ∩ {t | t.re ≤ 0.195 * (-t.im) - 0.176})) (f := fun t => tail t - plasma t)
    ((isOpen_lt continuous_const Complex.continuous_re).inter ((isOpen_lt Complex.continuous_re continuous_const).inter (isOpen_lt Complex.continuous_re hc)))
    ((isClosed_le continuous_const Complex.continuous_re).inter ((isClosed_le Complex.continuous_re continuous_const).inter (isClosed_le Complex.continuous_re hc)))
    (fun z hz => ⟨show (0 : ℝ) ≤ z.re from le_of_lt hz.1, show z.re ≤ (0.75 : ℝ) from le_of_lt hz.2.1, show z.re ≤ 0.195 * (-z.im) - 0.176 from le_of_lt hz.2.2⟩)
    (fun z hz => ?_) (by norm_num) (fun z hz hn => ?_) (fun ε hε => ?_) ⟨h0, h1, h2⟩
  · have hD : cpoly D₄ z ≠ 0 := by
      rw [point_eq z]
      exact D₄_ne' hz.1 hz.2.2
    have he : DifferentiableAt ℂ (fun t : ℂ => Complex.exp (t ^ 2)) z := (differentiableAt_id.pow 2).cexp
    have := (he.sub ((cpoly_differentiable N₄ z).div (cpoly_differentiable D₄ z) hD)).sub (plasma_differentiable z)
    refine this.congr_of_eventuallyEq (Filter.Eventually.of_forall fun t => ?_)
    exact congrArg (fun w => Complex.exp (t ^ 2) - w - plasma t) (approx4_eq t)
  · obtain ⟨z0, z1, z2⟩ := hz
    simp only [Set.mem_setOf_eq] at z0 z1 z2
    rw [Complex.sub_re]
    have b := near3 z0
    have fin : |(tail z).re - (approx3 z).re| ≤ 5e-5 → |(tail z).re - (plasma z).re| ≤ 1e-4 := fun a => by
      have := abs_sub_le (tail z).re (approx3 z).re (plasma z).re
      norm_num at a b this ⊢
      linarith
    rcases z0.eq_or_lt with he | hl
    · rw [tail_axis he.symm, plasma_axis' he.symm, sub_self, abs_zero]
      norm_num
    rcases z1.eq_or_lt with he | hl1
    · have := ray_near (x := -z.im) (by rw [← he]; exact z2)
      rw [← he, ← point_eq] at this
      exact fin this
    rcases z2.eq_or_lt with he | hl2
    · have := border_near (x := -z.im) (by rw [← he]; exact z0) (by rw [← he]; exact z1)
      rw [← he, ← point_eq] at this
      exact fin this
    exact absurd ⟨hl, hl1, hl2⟩ hn
  · have h3 : 0 < ε / 3 := by positivity
    obtain ⟨X, hX⟩ := quotient_small N₄ [32066600000, 0, -24322800000, 0, 9022230000, 0, -2186180000, 0, 364219000, 0, -61570400, 0, 1841440, 0] (c := -1000000)
      rfl (by norm_num) h3
    obtain ⟨Y, hY⟩ := plasma_small h3
    obtain ⟨Z, hZ⟩ := tail_small h3
    refine ⟨max X (max Y Z), fun z hz hz' => ?_⟩
    have a := hX z ((le_max_left _ _).trans hz')
    have b := hY z hz.1 (((le_max_left _ _).trans (le_max_right _ _)).trans hz')
    have c := hZ z hz.1 hz.2.1 (((le_max_right _ _).trans (le_max_right _ _)).trans hz')
    have e : cpoly N₄ z / cpoly ([32066600000, 0, -24322800000, 0, 9022230000, 0, -2186180000, 0, 364219000, 0, -61570400, 0, 1841440, 0] ++ [-1000000]) z =
        approx4 z (z ^ 2) := (approx4_eq z).symm
    rw [e] at a
    have d1 := norm_sub_le (Complex.exp (z ^ 2) - approx4 z (z ^ 2)) (plasma z)
    have d2 := norm_sub_le (Complex.exp (z ^ 2)) (approx4 z (z ^ 2))
    rw [tail]
    linarith

/-! ## The profile -/

theorem plasma_conj (t : ℂ) : plasma ((starRingEnd ℂ) t) = (starRingEnd ℂ) (plasma t) := by
  have e : ∀ v : ℝ, kernel ((starRingEnd ℂ) t) v = (starRingEnd ℂ) (kernel t v) := fun v => by
    unfold kernel
    rw [← Complex.exp_conj]
    simp only [map_sub, map_div₀, map_neg, map_pow, map_mul, map_ofNat, Complex.conj_ofReal]
  unfold plasma
  simp only [e]
  rw [map_mul, ← integral_conj]
  simp

theorem voigt_plasma {x a : ℝ} (ha : 0 ≤ a) : |voigt x a - (plasma (a - I * x)).re| ≤ 1e-4 := by
  have key : ∀ x : ℝ, 0 ≤ x → |voigt x a - (plasma (a - I * x)).re| ≤ 1e-4 := fun x hx => by
    obtain ⟨t, ht⟩ : ∃ t, t = (a : ℂ) - I * x := ⟨_, rfl⟩
    have tr : t.re = a := by rw [ht]; simp
    have ti : t.im = -x := by rw [ht]; simp
    have hax : |t.im| = x := by rw [ti, abs_neg, abs_of_nonneg hx]
    unfold voigt
    dsimp only
    rw [← ht, abs_of_nonneg hx]
    by_cases c4 : ¬ (x + a < 5.5 ∧ 0.195 * x - 0.176 ≤ a) ∧ a < 0.75
    · rw [if_pos c4]
      refine near4 (t := t) (by rw [tr]; exact ha) (by rw [tr]; exact c4.2.le) ?_
      rw [tr, ti, neg_neg]
      have h1 := c4.2
      by_contra hcon
      refine c4.1 ⟨?_, (not_le.1 hcon).le⟩
      norm_num at hcon h1 ⊢
      linarith
    rw [if_neg c4]
    by_cases c3 : x + a < 5.5 ∧ 0.195 * x - 0.176 ≤ a ∧ a < 0.75
    · rw [if_pos c3]
      exact (near3 (by rw [tr]; exact ha)).trans (by norm_num)
    rw [if_neg c3]
    have a75 : 0.75 ≤ a := by
      by_contra hcon
      refine c3 ?_
      have := not_not.1 fun hn => c4 ⟨hn, not_le.1 hcon⟩
      exact ⟨this.1, this.2, not_le.1 hcon⟩
    by_cases c3' : x + a < 5.5 ∧ a < 5.5 ∧ 0.75 ≤ a
    · rw [if_pos c3']
      exact (near3 (by rw [tr]; exact ha)).trans (by norm_num)
    rw [if_neg c3']
    have s5 : 5.5 ≤ x + a := by
      by_contra hcon
      have := not_le.1 hcon
      exact c3' ⟨this, by linarith, a75⟩
    by_cases c2 : x + a < 15 ∧ 5.5 ≤ x + a ∧ a < 5.5
    · rw [if_pos c2]
      exact (near2 (by rw [tr]; exact ha) (by rw [tr, hax]; exact s5)).trans (by norm_num)
    rw [if_neg c2]
    by_cases c2' : x + a < 15 ∧ a < 15 ∧ 5.5 ≤ a
    · rw [if_pos c2']
      exact (near2 (by rw [tr]; exact ha) (by rw [tr, hax]; exact s5)).trans (by norm_num)
    rw [if_neg c2']
    have s15 : 15 ≤ x + a := by
      by_contra hcon
      have h := not_le.1 hcon
      by_cases a5 : a < 5.5
      · exact c2 ⟨h, s5, a5⟩
      · exact c2' ⟨h, by linarith, not_lt.1 a5⟩
    rw [if_pos (Or.inr s15)]
    exact (near1 (by rw [tr]; exact ha) (by rw [tr, hax]; exact s15)).trans (by norm_num)
  rcases le_total 0 x with h | h
  · exact key x h
  · have := key (-x) (neg_nonneg.2 h)
    have e : ((a : ℂ) - I * ((-x : ℝ) : ℂ)) = (starRingEnd ℂ) ((a : ℂ) - I * x) := by simp
    rwa [voigt_neg, e, plasma_conj, Complex.conj_re] at this

end Verif.Single
