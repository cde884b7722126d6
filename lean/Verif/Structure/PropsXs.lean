import Verif.Structure.Lemmas
import Verif.Structure.FormFactors
import Verif.Crystal.PropsGeom
import Mathlib.Tactic.NormNum
import Mathlib.Analysis.SpecialFunctions.Log.Basic
import Mathlib.Analysis.SpecialFunctions.Exp

/-! # Properties C88 and C89: sample thickness and the magnetic form factor -/

namespace Verif.Structure

open Real Matrix Verif.Crystal

/-- The attenuation `exp(-Σ d)` of a sample of thickness `d` (the documented definition). -/
noncomputable def transmissionOf (sigma d : ℝ) : ℝ := exp (-(sigma * d))

/-- A thickness is returned only for positive energies and transmissions. -/
theorem thickness_ok {l : Lattice} {energy T d v : ℝ} {atoms : List Atom} (hv : l.volume = .ok v)
    (h : optimalThickness l energy T atoms = .ok d) :
    0 < energy ∧ 0 < T ∧ npDiv (-log T) (sigmaT v energy atoms) = .ok d := by
  unfold optimalThickness at h
  rw [hv, ok_bind] at h
  split_ifs at h with h0 h1 h2 h3
  exact ⟨lt_of_le_of_ne (not_lt.1 h1) (Ne.symm h0), lt_of_le_of_ne (not_lt.1 h2) (Ne.symm h3), h⟩

theorem thickness_eq {l : Lattice} {energy T v : ℝ} {atoms : List Atom} (hv : l.volume = .ok v) (he : 0 < energy) (hT : 0 < T) :
    optimalThickness l energy T atoms = npDiv (-log T) (sigmaT v energy atoms) := by
  unfold optimalThickness
  rw [if_neg he.ne', if_neg (not_lt.2 he.le), hv, ok_bind, if_neg (not_lt.2 hT.le), if_neg hT.ne']

/-- **C88** the thickness returned transmits the requested part of the beam. -/
theorem C88_transmission {l : Lattice} {energy T d v : ℝ} {atoms : List Atom}
    (hv : l.volume = .ok v) (h : optimalThickness l energy T atoms = .ok d) :
    transmissionOf (sigmaT v energy atoms) d = T := by
  obtain ⟨_, hT, h⟩ := thickness_ok hv h
  unfold npDiv at h
  split_ifs at h with h0 h1
  cases h
  unfold transmissionOf
  rw [mul_div_cancel₀ _ h0, neg_neg, exp_log hT]

/-- **C88** for a unit cell with scattering atoms the thickness exists, is positive for transmissions
below one, and larger for smaller transmissions. -/
theorem C88_positive {l : Lattice} (hl : Valid l) {energy : ℝ} (he : 0 < energy) {atoms : List Atom}
    (hpos : ∀ a ∈ atoms, 0 ≤ a.occupancy ∧ 0 ≤ a.cohXs ∧ 0 ≤ a.incXs ∧ 0 ≤ a.absXs)
    (hex : ∃ a ∈ atoms, 0 < a.occupancy ∧ 0 < a.cohXs + a.incXs + a.absXs) :
    (∀ T, 0 < T → T < 1 → ∃ d, optimalThickness l energy T atoms = .ok d ∧ 0 < d) ∧
    ∀ T T' d d', 0 < T → T < T' → optimalThickness l energy T atoms = .ok d →
      optimalThickness l energy T' atoms = .ok d' → d' < d := by
  have hvol := volume_eq hl
  have hvp := volOf_pos hl
  have hs : 0 < sigmaT (volOf l) energy atoms := by
    unfold sigmaT
    refine div_pos ?_ hvp
    have hq : 0 < √(25.3 / energy) := sqrt_pos.2 (by positivity)
    have h1 : (atoms.map fun a => a.occupancy * a.cohXs).sum + (atoms.map fun a => a.occupancy * a.incXs).sum +
        (atoms.map fun a => a.occupancy * a.absXs).sum * √(25.3 / energy) =
        (atoms.map fun a => a.occupancy * a.cohXs + a.occupancy * a.incXs +
          a.occupancy * a.absXs * √(25.3 / energy)).sum := by
      clear hpos hex
      induction atoms with
      | nil => simp
      | cons a as ih =>
        simp only [List.map_cons, List.sum_cons]
        rw [← ih]
        ring
    rw [h1]
    have hnn : ∀ a ∈ atoms, 0 ≤ a.occupancy * a.cohXs + a.occupancy * a.incXs +
        a.occupancy * a.absXs * √(25.3 / energy) := by
      intro a ha
      obtain ⟨p0, p1, p2, p3⟩ := hpos a ha
      positivity
    obtain ⟨a, ha, h2, h3⟩ := hex
    have hlt : 0 < a.occupancy * a.cohXs + a.occupancy * a.incXs + a.occupancy * a.absXs * √(25.3 / energy) := by
      obtain ⟨p0, p1, p2, p3⟩ := hpos a ha
      by_cases h4 : 0 < a.cohXs
      · have : 0 < a.occupancy * a.cohXs := mul_pos h2 h4
        have : 0 ≤ a.occupancy * a.incXs := mul_nonneg p0 p2
        have : 0 ≤ a.occupancy * a.absXs * √(25.3 / energy) := by positivity
        linarith
      by_cases h5 : 0 < a.incXs
      · have : 0 ≤ a.occupancy * a.cohXs := mul_nonneg p0 p1
        have : 0 < a.occupancy * a.incXs := mul_pos h2 h5
        have : 0 ≤ a.occupancy * a.absXs * √(25.3 / energy) := by positivity
        linarith
      · have h6 : 0 < a.absXs := by linarith
        have : 0 ≤ a.occupancy * a.cohXs := mul_nonneg p0 p1
        have : 0 ≤ a.occupancy * a.incXs := mul_nonneg p0 p2
        have : 0 < a.occupancy * a.absXs * √(25.3 / energy) := by positivity
        linarith
    refine lt_of_lt_of_le hlt (List.single_le_sum ?_ _ (List.mem_map_of_mem ha))
    intro x hx
    obtain ⟨b, hb, rfl⟩ := List.mem_map.1 hx
    exact hnn b hb
  have hform : ∀ T, 0 < T → optimalThickness l energy T atoms = .ok (-log T / sigmaT (volOf l) energy atoms) := by
    intro T hT
    rw [thickness_eq hvol he hT, npDiv_ok hs.ne']
  constructor
  · intro T h0 h1
    exact ⟨_, hform T h0, div_pos (by linarith [log_neg h0 h1]) hs⟩
  · intro T T' d d' h0 hlt hd hd'
    rw [hform _ h0] at hd
    rw [hform _ (h0.trans hlt)] at hd'
    cases hd
    cases hd'
    have := log_lt_log h0 hlt
    exact div_lt_div_of_pos_right (by linarith) hs

/-- **C88** the default transmission `1/e` gives the thickness with the largest scattered intensity
`d exp(-Σ d)`. -/
theorem C88_maximum {l : Lattice} {energy d v : ℝ} {atoms : List Atom} (hv : l.volume = .ok v)
    (hs : 0 < sigmaT v energy atoms) (h : optimalThickness l energy (1 / exp 1) atoms = .ok d) (x : ℝ) :
    x * transmissionOf (sigmaT v energy atoms) x ≤ d * transmissionOf (sigmaT v energy atoms) d := by
  have ht := C88_transmission hv h
  obtain ⟨_, _, h⟩ := thickness_ok hv h
  rw [npDiv_ok hs.ne'] at h
  cases h
  rw [ht]
  generalize sigmaT v energy atoms = s at *
  have hlog : -log (1 / exp 1) = 1 := by rw [one_div, log_inv, log_exp, neg_neg]
  rw [hlog]
  unfold transmissionOf
  have h1 : s * x ≤ exp (s * x - 1) := by
    have := add_one_le_exp (s * x - 1)
    linarith
  rw [exp_sub] at h1
  have he : 0 < exp (s * x) := exp_pos _
  rw [exp_neg, one_div, one_div, ← mul_inv, ← div_eq_mul_inv, div_le_iff₀ he]
  rw [le_div_iff₀ (exp_pos 1)] at h1
  have h2 : x * (s * exp 1) ≤ exp (s * x) := by linarith
  have h3 : 0 < s * exp 1 := by positivity
  rw [← div_eq_inv_mul, le_div_iff₀ h3]
  exact h2

example : ∃ d, optimalThickness ⟨4, 4, 4, 90, 90, 90⟩ 25.3 (1 / exp 1) [⟨0, 1, 0.9, 0, 0, 11, 0.4, 2.6⟩] = .ok d ∧ 0 < d := by
  refine (C88_positive (by constructor <;> norm_num) (by norm_num) ?_ ?_).1 _ (by positivity) ?_
  · intro a ha
    rw [List.mem_singleton] at ha
    subst ha
    norm_num
  · exact ⟨_, List.mem_singleton.2 rfl, by norm_num, by norm_num⟩
  · rw [div_lt_one (exp_pos 1)]
    have := add_one_lt_exp (one_ne_zero (α := ℝ))
    linarith

/-! ## C89 -/

/-- **C89** at `q = 0` the form factor is the sum of the coefficients whatever `g` is, and the
higher orders vanish. -/
theorem C89_origin (j0 j2 j4 : Coeffs) (g : Option ℝ) :
    magFormFac j0 j2 j4 g 0 = (j0.c0 + j0.c2 + j0.c4 + j0.c6, j0.c0 + j0.c2 + j0.c4 + j0.c6, 0, 0) := by
  simp [magFormFac, gauss3]

/-- **C89** the form factor depends on the modulus of `q` only, is the spin-only one for `g = 2` and
when `g` is left out, and interpolates the documented formula otherwise. -/
theorem C89_formula (j0 j2 j4 : Coeffs) (g : Option ℝ) (q : ℝ) :
    magFormFac j0 j2 j4 g (-q) = magFormFac j0 j2 j4 g q ∧
    (magFormFac j0 j2 j4 none q).1 = (magFormFac j0 j2 j4 none q).2.1 ∧
    magFormFac j0 j2 j4 none q = magFormFac j0 j2 j4 (some 2) q ∧
    ∀ x, (magFormFac j0 j2 j4 (some x) q).1 =
      (magFormFac j0 j2 j4 (some x) q).2.1 + (2 / x - 1) * (magFormFac j0 j2 j4 (some x) q).2.2.1 := by
  refine ⟨?_, ?_, rfl, fun x => rfl⟩
  · simp only [magFormFac, gauss3, neg_div, neg_sq]
  · simp [magFormFac]

/-- The coefficients of a line of the table. -/
noncomputable def coeffsOf (c : List ℤ) : Coeffs :=
  ⟨(c.getD 0 0 : ℝ) / 10000, (c.getD 1 0 : ℝ) / 10000, (c.getD 2 0 : ℝ) / 10000, (c.getD 3 0 : ℝ) / 10000,
    (c.getD 4 0 : ℝ) / 10000, (c.getD 5 0 : ℝ) / 10000, (c.getD 6 0 : ℝ) / 10000⟩

/-- **C89** the form factor of every ion of the database is one at `q = 0`, to within half a
percent. -/
theorem C89_normalised : ∀ r ∈ formFactors, ∀ j2 j4 g, |(magFormFac (coeffsOf r.2) j2 j4 g 0).1 - 1| ≤ 1 / 200 := by
  have : (formFactors.all fun r => decide (200 * |r.2.getD 0 0 + r.2.getD 2 0 + r.2.getD 4 0 + r.2.getD 6 0 - 10000| ≤ 10000)) = true := by
    decide +kernel
  intro r hr j2 j4 g
  have h := of_decide_eq_true (List.all_eq_true.1 this r hr)
  rw [C89_origin]
  have h' : 200 * |(r.2.getD 0 0 : ℝ) + (r.2.getD 2 0 : ℝ) + (r.2.getD 4 0 : ℝ) + (r.2.getD 6 0 : ℝ) - 10000| ≤ 10000 := by
    exact_mod_cast h
  simp only [coeffsOf]
  rw [abs_le]
  have h2 := abs_le.1 (show |(r.2.getD 0 0 : ℝ) + (r.2.getD 2 0 : ℝ) + (r.2.getD 4 0 : ℝ) + (r.2.getD 6 0 : ℝ) - 10000| ≤ 10000 / 200 by linarith)
  constructor <;> linarith [h2.1, h2.2]

/-- The ions of the database with a negative exponent in `j0`. -/
def growingIons : List (List Char) := [cs!"Cr2+", cs!"Mn2+", cs!"Mn3+"]

/-- **C89** (partial: three ions are excepted) the spin-only form factor stays bounded for all `q`, by
the sum of the moduli of the coefficients. `C89_diverges` shows that the exceptions are needed. -/
theorem C89_bounded_partial : ∀ r ∈ formFactors, r.1 ∉ growingIons → ∀ j2 j4 q,
    |(magFormFac (coeffsOf r.2) j2 j4 none q).1| ≤
      |(coeffsOf r.2).c0| + |(coeffsOf r.2).c2| + |(coeffsOf r.2).c4| + |(coeffsOf r.2).c6| := by
  have : (formFactors.all fun r => decide (r.1 ∈ growingIons) ||
      decide (0 ≤ r.2.getD 1 0 ∧ 0 ≤ r.2.getD 3 0 ∧ 0 ≤ r.2.getD 5 0)) = true := by
    decide +kernel
  intro r hr hn j2 j4 q
  have h := List.all_eq_true.1 this r hr
  rw [Bool.or_eq_true] at h
  obtain ⟨h1, h3, h5⟩ := of_decide_eq_true (h.resolve_left fun h => hn (of_decide_eq_true h))
  rw [(C89_formula _ j2 j4 none q).2.1]
  have key : ∀ a b x : ℝ, 0 ≤ b → |a * exp (-b * x ^ 2)| ≤ |a| := by
    intro a b x hb
    rw [abs_mul, abs_of_pos (exp_pos _)]
    refine mul_le_of_le_one_right (abs_nonneg _) (exp_le_one_iff.2 ?_)
    nlinarith [mul_nonneg hb (sq_nonneg x)]
  have g1 : (0 : ℝ) ≤ (coeffsOf r.2).c1 := div_nonneg (by exact_mod_cast h1) (by norm_num)
  have g3 : (0 : ℝ) ≤ (coeffsOf r.2).c3 := div_nonneg (by exact_mod_cast h3) (by norm_num)
  have g5 : (0 : ℝ) ≤ (coeffsOf r.2).c5 := div_nonneg (by exact_mod_cast h5) (by norm_num)
  simp only [magFormFac, gauss3]
  refine (abs_add_le _ _).trans (add_le_add ((abs_add_le _ _).trans (add_le_add
    ((abs_add_le _ _).trans (add_le_add ?_ ?_)) ?_)) le_rfl)
  · exact key _ _ _ g1
  · exact key _ _ _ g3
  · exact key _ _ _ g5

/-- **C89** is false as stated: the form factor of Mn2+ in the database grows without bound with `q`,
because the last Gaussian has the exponent -0.609. -/
theorem C89_diverges : ∃ r ∈ formFactors, r.1 = cs!"Mn2+" ∧
    ∀ M : ℝ, ∃ q, 0 < q ∧ ∀ j2 j4, M < (magFormFac (coeffsOf r.2) j2 j4 none q).1 := by
  have hm : (cs!"Mn2+", [4220, 176840, 5948, 60050, 43, -6090, -219]) ∈ formFactors := by decide +kernel
  refine ⟨_, hm, rfl, fun M => ?_⟩
  set t : ℝ := 1 + 1000 * (|M| + 1) with ht
  have hM := abs_nonneg M
  have hM' := le_abs_self M
  have ht1 : 1 ≤ t := by linarith
  refine ⟨t * 4 * π, by positivity, fun j2 j4 => ?_⟩
  rw [(C89_formula _ j2 j4 none _).2.1]
  have hx : t * 4 * π / 4 / π = t := by field_simp
  simp only [magFormFac, hx, gauss3, coeffsOf]
  norm_num
  have e1 := exp_pos (-(4421 / 250 * t ^ 2))
  have e2 := exp_pos (-(1201 / 200 * t ^ 2))
  have e3 := add_one_le_exp (609 / 1000 * t ^ 2)
  have e4 : t ≤ t ^ 2 := by nlinarith
  linarith

end Verif.Structure
