import Verif.Energy.Props
import Mathlib.Analysis.SpecialFunctions.Pow.Real

/-!
# How the attributes of neutrons compare

How all attributes change with the one that is given.
-/

namespace Verif.Energy

open Real

variable (c : Consts)

/-! ## Specification -/

/-- The power of the velocity to which a quantity is proportional. -/
def Quantity.power : Quantity → ℝ
  | .energy => 2
  | .wavelength => -1
  | .velocity => 1
  | .wavevector => 1
  | .temperature => 2
  | .frequency => 2

/-- Whether a quantity is larger for a faster neutron; all are but the wavelength. -/
def Quantity.Rises : Quantity → Prop
  | .wavelength => False
  | _ => True

/-! ## Lemmas -/

theorem power_ne (q : Quantity) : q.power ≠ 0 := by cases q <;> norm_num [Quantity.power]

/-- Every attribute is a fixed number times a power of the energy. -/
theorem get_power (r : Quantity) :
    ∃ K : ℝ, 0 < K ∧ ∀ e, 0 < e → get (derive c e) r = .num (K * e ^ (r.power / 2)) := by
  have hh := c.h_pos
  have hk := c.k_pos
  have hm := c.m_pos
  have hJ := c.J_pos
  have hπ := pi_pos
  have hb := hbar_pos c
  have hhalf : ∀ e : ℝ, e ^ ((1 : ℝ) / 2) = √e := fun e => (sqrt_eq_rpow e).symm
  have hneg : ∀ e : ℝ, 0 < e → e ^ ((-1 : ℝ) / 2) = (√e)⁻¹ := fun e he => by
    rw [neg_div, rpow_neg he.le, hhalf]
  have hsplit : ∀ e : ℝ, 0 < e → √(c.h ^ 2 / (2 * c.m * e / c.J)) = √(c.h ^ 2 * c.J / (2 * c.m)) * (√e)⁻¹ := by
    intro e he
    rw [← sqrt_inv, ← sqrt_mul (by positivity)]
    congr 1
    field_simp
  cases r with
  | energy =>
    refine ⟨1, one_pos, fun e he => ?_⟩
    simp [get, derive, Quantity.power]
  | wavelength =>
    refine ⟨√(c.h ^ 2 * c.J / (2 * c.m)) * 10 ^ 10, by positivity, fun e he => ?_⟩
    have hx : 0 ≤ c.h ^ 2 / (2 * c.m * e / c.J) := by positivity
    simp only [get, derive, he.ne', if_false, wavelenOf, npSqrt, if_pos hx, Num.scale, Quantity.power]
    rw [hneg e he, hsplit e he]
    congr 1
    ring
  | velocity =>
    refine ⟨√(2 / c.J / c.m), by positivity, fun e he => ?_⟩
    have hx : 0 ≤ 2 * e / c.J / c.m := by positivity
    simp only [get, derive, npSqrt, if_pos hx, Quantity.power]
    rw [hhalf, ← sqrt_mul (by positivity)]
    congr 2
    ring
  | wavevector =>
    refine ⟨2 * π / (√(c.h ^ 2 * c.J / (2 * c.m)) * 10 ^ 10), by positivity, fun e he => ?_⟩
    have hx : 0 ≤ c.h ^ 2 / (2 * c.m * e / c.J) := by positivity
    have hs : 0 < √e := sqrt_pos.2 he
    have hs' : 0 < √(c.h ^ 2 * c.J / (2 * c.m)) := by positivity
    simp only [get, derive, he.ne', if_false, wavelenOf, npSqrt, if_pos hx, Num.scale, divBy,
      Quantity.power]
    rw [hsplit e he, if_neg (by positivity), hhalf]
    congr 1
    field_simp
  | temperature =>
    refine ⟨1 / c.k / c.J, by positivity, fun e he => ?_⟩
    simp only [get, derive, Quantity.power]
    congr 1
    norm_num
    ring
  | frequency =>
    refine ⟨1 / c.J / c.hbar / 2 / π / 10 ^ 12, by positivity, fun e he => ?_⟩
    simp only [get, derive, Quantity.power]
    congr 1
    norm_num
    ring

theorem create_ok (q : Quantity) {v : ℝ} (hv : 0 < v) :
    ∃ e, 0 < e ∧ create c (argOf q v) = .ok (derive c e) ∧ get (derive c e) q = .num v := by
  obtain ⟨e, he, heq, hu⟩ := update_pos c none q hv
  obtain ⟨s', h1, h2⟩ := C29_read_back c (derive c e) q hv
  obtain ⟨e', he', heq', hu'⟩ := update_pos c (some (derive c e)) q hv
  have : e = e' := by
    rw [heq] at heq'
    simpa using heq'
  subst this
  refine ⟨e, he, hu, ?_⟩
  unfold set at h1
  rw [hu'] at h1
  rw [Except.ok.inj h1]
  exact h2

/-! ## C229 -/

/-- **C229** when one quantity of a neutron is multiplied by a number, every quantity is multiplied
by the power of that number which follows from the powers of the velocity the two are proportional
to: with twice the wavevector the energy is four times as large and the wavelength half. -/
theorem C229_scaled (q r : Quantity) {v a : ℝ} (hv : 0 < v) (ha : 0 < a) :
    ∃ s s' x, create c (argOf q v) = .ok s ∧ create c (argOf q (a * v)) = .ok s' ∧
      get s r = .num x ∧ 0 < x ∧ get s' r = .num (a ^ (r.power / q.power) * x) := by
  obtain ⟨e, he, h1, g1⟩ := create_ok c q hv
  obtain ⟨e', he', h2, g2⟩ := create_ok c q (mul_pos ha hv)
  obtain ⟨K, hK, hq⟩ := get_power c q
  obtain ⟨L, hL, hr⟩ := get_power c r
  refine ⟨_, _, L * e ^ (r.power / 2), h1, h2, hr e he, by positivity, ?_⟩
  rw [hr e' he']
  congr 1
  rw [hq e he, Num.num.injEq] at g1
  rw [hq e' he', Num.num.injEq] at g2
  have hp := power_ne q
  have hrat : e' ^ (q.power / 2) = a * e ^ (q.power / 2) := by
    have : K * e' ^ (q.power / 2) = K * (a * e ^ (q.power / 2)) := by
      rw [g2, ← g1]; ring
    exact mul_left_cancel₀ hK.ne' this
  have hpow : e' ^ (r.power / 2) = (e' ^ (q.power / 2)) ^ (r.power / q.power) := by
    rw [← rpow_mul he'.le]
    congr 1
    field_simp
  have hpow' : (e ^ (q.power / 2)) ^ (r.power / q.power) = e ^ (r.power / 2) := by
    rw [← rpow_mul he.le]
    congr 1
    field_simp
  rw [hpow, hrat, mul_rpow ha.le (by positivity), hpow']
  ring

/-- **C229** of two neutrons the one with more of any quantity but the wavelength has more of every
quantity but the wavelength, and a shorter wavelength. -/
theorem C229_order (q r : Quantity) {v v' : ℝ} (hv : 0 < v) (hlt : v < v') :
    ∃ s s' x x', create c (argOf q v) = .ok s ∧ create c (argOf q v') = .ok s' ∧
      get s r = .num x ∧ get s' r = .num x' ∧
      ((q.Rises ↔ r.Rises) → x < x') ∧ (¬ (q.Rises ↔ r.Rises) → x' < x) := by
  have ha : 1 < v' / v := by rwa [one_lt_div hv]
  obtain ⟨s, s', x, h1, h2, h3, h4, h5⟩ := C229_scaled c q r hv (zero_lt_one.trans ha)
  rw [div_mul_cancel₀ _ hv.ne'] at h2
  refine ⟨s, s', x, _, h1, h2, h3, h5, fun h => ?_, fun h => ?_⟩
  · have : 0 < r.power / q.power := by
      cases q <;> cases r <;> simp [Quantity.Rises, Quantity.power] at h ⊢
    have := one_lt_rpow ha this
    nlinarith
  · have : r.power / q.power < 0 := by
      cases q <;> cases r <;> simp [Quantity.Rises, Quantity.power] at h ⊢ <;> norm_num
    have := rpow_lt_one_of_one_lt_of_neg ha this
    nlinarith

/-- Twice the wavevector is four times the energy and half the wavelength. -/
example (v : ℝ) (hv : 0 < v) : ∃ s s' E l, create c (argOf .wavevector v) = .ok s ∧
    create c (argOf .wavevector (2 * v)) = .ok s' ∧ get s .energy = .num E ∧
    get s' .energy = .num (4 * E) ∧ get s .wavelength = .num l ∧
    get s' .wavelength = .num (1 / 2 * l) := by
  obtain ⟨s, s', E, h1, h2, h3, _, h5⟩ := C229_scaled c .wavevector .energy hv two_pos
  obtain ⟨t, t', l, k1, k2, k3, _, k5⟩ := C229_scaled c .wavevector .wavelength hv two_pos
  rw [h1] at k1
  rw [h2] at k2
  cases k1
  cases k2
  refine ⟨s, s', E, l, h1, h2, h3, ?_, k3, ?_⟩
  · rw [h5]
    norm_num [Quantity.power]
  · rw [k5]
    norm_num [Quantity.power, rpow_neg_one]

end Verif.Energy
