import Verif.Structure.PropsXs

/-!
# Thickness of stacked and mixed samples

How the optimal thickness depends on the transmission, the energy and the atoms of the cell.
-/

namespace Verif.Structure

open Real Verif.Crystal

/-! ## Specification -/

/-- Occupancies and cross sections are not negative. -/
def NonnegXs (atoms : List Atom) : Prop :=
  ∀ a ∈ atoms, 0 ≤ a.occupancy ∧ 0 ≤ a.cohXs ∧ 0 ≤ a.incXs ∧ 0 ≤ a.absXs

/-! ## Lemmas -/

theorem sigmaT_append (v energy : ℝ) (as bs : List Atom) :
    sigmaT v energy (as ++ bs) = sigmaT v energy as + sigmaT v energy bs := by
  unfold sigmaT
  simp only [List.map_append, List.sum_append]
  ring

theorem sum_occ_nonneg {atoms : List Atom} {f : Atom → ℝ} (h : ∀ a ∈ atoms, 0 ≤ a.occupancy ∧ 0 ≤ f a) :
    0 ≤ (atoms.map fun a => a.occupancy * f a).sum := by
  refine List.sum_nonneg fun x hx => ?_
  obtain ⟨a, ha, rfl⟩ := List.mem_map.1 hx
  exact mul_nonneg (h a ha).1 (h a ha).2

theorem sigmaT_nonneg {v energy : ℝ} (hv : 0 ≤ v) {atoms : List Atom} (h : NonnegXs atoms) :
    0 ≤ sigmaT v energy atoms := by
  have h1 := sum_occ_nonneg (f := fun a => a.cohXs) fun a ha => ⟨(h a ha).1, (h a ha).2.1⟩
  have h2 := sum_occ_nonneg (f := fun a => a.incXs) fun a ha => ⟨(h a ha).1, (h a ha).2.2.1⟩
  have h3 := sum_occ_nonneg (f := fun a => a.absXs) fun a ha => ⟨(h a ha).1, (h a ha).2.2.2⟩
  unfold sigmaT
  positivity

theorem sigmaT_anti {v energy energy' : ℝ} (hv : 0 ≤ v) (he : 0 < energy) (hle : energy ≤ energy')
    {atoms : List Atom} (h : NonnegXs atoms) : sigmaT v energy' atoms ≤ sigmaT v energy atoms := by
  have h3 := sum_occ_nonneg (f := fun a => a.absXs) fun a ha => ⟨(h a ha).1, (h a ha).2.2.2⟩
  have h4 : √(25.3 / energy') ≤ √(25.3 / energy) :=
    sqrt_le_sqrt (div_le_div_of_nonneg_left (by norm_num) he hle)
  unfold sigmaT
  refine div_le_div_of_nonneg_right ?_ hv
  have := mul_le_mul_of_nonneg_left h4 h3
  linarith

theorem npDiv_inv {x y d : ℝ} (h : npDiv x y = .ok d) : y ≠ 0 ∧ d = x / y := by
  unfold npDiv at h
  split_ifs at h with h0 h1
  cases h
  exact ⟨h0, rfl⟩

/-! ## C232 -/

/-- **C232** two samples one behind the other: the thickness for the product of two transmissions is
the sum of the thicknesses. -/
theorem C232_stacked {l : Lattice} {energy T T' d d' v : ℝ} {atoms : List Atom} (hv : l.volume = .ok v)
    (h : optimalThickness l energy T atoms = .ok d) (h' : optimalThickness l energy T' atoms = .ok d') :
    optimalThickness l energy (T * T') atoms = .ok (d + d') := by
  obtain ⟨he, hT, h⟩ := thickness_ok hv h
  obtain ⟨_, hT', h'⟩ := thickness_ok hv h'
  obtain ⟨h0, rfl⟩ := npDiv_inv h
  obtain ⟨_, rfl⟩ := npDiv_inv h'
  rw [thickness_eq hv he (mul_pos hT hT'), npDiv_ok h0, log_mul hT.ne' hT'.ne']
  congr 1
  ring

/-- **C232** a cell with the atoms of two others, in the same volume: the inverse thicknesses add. -/
theorem C232_mixed {l : Lattice} (hl : Valid l) {energy T d₁ d₂ : ℝ} {as bs : List Atom}
    (ha : NonnegXs as) (hb : NonnegXs bs) (hT : T < 1)
    (h₁ : optimalThickness l energy T as = .ok d₁) (h₂ : optimalThickness l energy T bs = .ok d₂) :
    ∃ d, optimalThickness l energy T (as ++ bs) = .ok d ∧ 0 < d₁ ∧ 0 < d₂ ∧ 0 < d ∧
      1 / d = 1 / d₁ + 1 / d₂ := by
  have hv := volume_eq hl
  have hvp := (volOf_pos hl).le
  obtain ⟨he, hT0, h₁⟩ := thickness_ok hv h₁
  obtain ⟨_, _, h₂⟩ := thickness_ok hv h₂
  obtain ⟨n₁, rfl⟩ := npDiv_inv h₁
  obtain ⟨n₂, rfl⟩ := npDiv_inv h₂
  have p₁ := lt_of_le_of_ne (sigmaT_nonneg (energy := energy) hvp ha) (Ne.symm n₁)
  have p₂ := lt_of_le_of_ne (sigmaT_nonneg (energy := energy) hvp hb) (Ne.symm n₂)
  have hL : 0 < -log T := by linarith [log_neg hT0 hT]
  refine ⟨_, by rw [thickness_eq hv he hT0, npDiv_ok (by rw [sigmaT_append]; positivity)],
    div_pos hL p₁, div_pos hL p₂, ?_, ?_⟩
  · rw [sigmaT_append]; positivity
  · rw [sigmaT_append, one_div_div, one_div_div, one_div_div, add_div]

/-- **C232** a sample for faster neutrons is never thinner: they are absorbed less. -/
theorem C232_energy {l : Lattice} (hl : Valid l) {energy energy' T d d' : ℝ} {atoms : List Atom}
    (ha : NonnegXs atoms) (hT : T ≤ 1) (hle : energy ≤ energy')
    (h : optimalThickness l energy T atoms = .ok d) (h' : optimalThickness l energy' T atoms = .ok d') :
    d ≤ d' := by
  have hv := volume_eq hl
  have hvp := (volOf_pos hl).le
  obtain ⟨he, hT0, h⟩ := thickness_ok hv h
  obtain ⟨_, _, h'⟩ := thickness_ok hv h'
  obtain ⟨_, rfl⟩ := npDiv_inv h
  obtain ⟨n, rfl⟩ := npDiv_inv h'
  have p := lt_of_le_of_ne (sigmaT_nonneg (energy := energy') hvp ha) (Ne.symm n)
  exact div_le_div_of_nonneg_left (by linarith [log_nonpos hT0.le hT]) p (sigmaT_anti hvp he hle ha)

/-- **C232** without absorption the energy does not matter. -/
theorem C232_no_absorption {l : Lattice} {energy energy' T d v : ℝ} {atoms : List Atom}
    (hv : l.volume = .ok v) (h0 : ∀ a ∈ atoms, a.absXs = 0) (he : 0 < energy')
    (h : optimalThickness l energy T atoms = .ok d) : optimalThickness l energy' T atoms = .ok d := by
  obtain ⟨_, hT, h⟩ := thickness_ok hv h
  rw [thickness_eq hv he hT, ← h]
  congr 1
  have : (atoms.map fun a => a.occupancy * a.absXs).sum = 0 := by
    refine List.sum_eq_zero fun x hx => ?_
    obtain ⟨a, ha, rfl⟩ := List.mem_map.1 hx
    rw [h0 a ha, mul_zero]
  unfold sigmaT
  rw [this, zero_mul, zero_mul]

/-- The hypotheses are met by a cubic cell with one atom, for which there is a thickness. -/
example : Valid ⟨4, 4, 4, 90, 90, 90⟩ ∧ NonnegXs [⟨0, 1, 0.9, 0, 0, 11, 0.4, 2.6⟩] ∧
    ∃ d, optimalThickness ⟨4, 4, 4, 90, 90, 90⟩ 25.3 (1 / 2) [⟨0, 1, 0.9, 0, 0, 11, 0.4, 2.6⟩] = .ok d ∧
      0 < d := by
  have hV : Valid ⟨4, 4, 4, 90, 90, 90⟩ := by constructor <;> norm_num
  have hN : NonnegXs [⟨0, 1, 0.9, 0, 0, 11, 0.4, 2.6⟩] := by
    intro a ha
    rw [List.mem_singleton] at ha
    subst ha
    norm_num
  exact ⟨hV, hN, (C88_positive hV (by norm_num) hN
    ⟨_, List.mem_singleton.2 rfl, by norm_num, by norm_num⟩).1 _ (by norm_num) (by norm_num)⟩

end Verif.Structure
