import Mathlib.Analysis.SpecialFunctions.Trigonometric.Deriv
import Mathlib.Analysis.Calculus.Deriv.Pi
import Verif.Resolution.Props

/-!
# Specification: the flight of a neutron through a triple-axis spectrometer

Nothing here is taken from the code.  A neutron is described by eight small angles: the horizontal
deviations before and after the monochromator (0, 1), the vertical ones (2, 3), and the same before and
after the analyzer (4, 5 and 6, 7).  All vectors are in the frame with the nominal incident beam along the
first axis and the third axis vertical.
-/

namespace Verif.Resolution

open Real Matrix

/-- A nominal setting of the spectrometer for momentum transfer `q` and energy transfer `w`: the
wavevectors belong to the energies, both crystals reflect according to Bragg's law to the side given by
their sense, and the wavevectors form a triangle with `q`, `tt` being the angle between them. -/
structure IsNominal (s : Settings) (q w ki kf tm ta tt : ℝ) : Prop where
  waveIn : 0 < ki ∧ 2.072 * ki ^ 2 = incident s w
  waveOut : 0 < kf ∧ 2.072 * kf ^ 2 = final s w
  braggIn : |tm| < π / 2 ∧ 2 * ki * sin tm = s.mono.dir * s.mono.tau
  braggOut : |ta| < π / 2 ∧ 2 * kf * sin ta = s.ana.dir * s.ana.tau
  triangle : q ^ 2 = ki ^ 2 + kf ^ 2 - 2 * ki * kf * cos tt ∧ 0 ≤ s.sample.dir * tt ∧ s.sample.dir * tt ≤ π

/-- The wavevector reflected by a crystal when the horizontal directions before and after it deviate by `a`
and `b`: by Bragg's law `k sin θ` is a constant of the crystal, and the angle between the directions is
`2θ + b - a`. -/
noncomputable def reflected (k th a b : ℝ) : ℝ := k * sin th / sin (th + (b - a) / 2)

/-- The unit vector at horizontal angle `a` and vertical angle `b`. -/
noncomputable def heading (a b : ℝ) : Fin 3 → ℝ := ![cos a * cos b, sin a * cos b, sin b]

/-- The wavevector of the neutron before the sample. -/
noncomputable def incoming (ki tm : ℝ) (g : Fin 8 → ℝ) : Fin 3 → ℝ :=
  reflected ki tm (g 0) (g 1) • heading (g 1) (g 3)

/-- The wavevector of the neutron after the sample. -/
noncomputable def outgoing (kf ta tt : ℝ) (g : Fin 8 → ℝ) : Fin 3 → ℝ :=
  reflected kf ta (g 4) (g 5) • heading (tt + g 4) (g 6)

/-- The momentum given to the sample. -/
noncomputable def momentum (ki kf tm ta tt : ℝ) (g : Fin 8 → ℝ) : Fin 3 → ℝ :=
  incoming ki tm g - outgoing kf ta tt g

/-- The energy given to the sample. -/
noncomputable def energy (ki kf tm ta tt : ℝ) (g : Fin 8 → ℝ) : ℝ :=
  2.072 * (incoming ki tm g ⬝ᵥ incoming ki tm g - outgoing kf ta tt g ⬝ᵥ outgoing kf ta tt g)

/-- The direction of the nominal momentum transfer. -/
noncomputable def along (q ki kf tm ta tt : ℝ) : Fin 3 → ℝ := q⁻¹ • momentum ki kf tm ta tt 0

/-- The horizontal direction perpendicular to it. -/
noncomputable def across (q ki kf tm ta tt : ℝ) : Fin 3 → ℝ :=
  ![-along q ki kf tm ta tt 1, along q ki kf tm ta tt 0, 0]

/-- What the neutron measures: momentum along, across and perpendicular to the scattering plane, and
energy. -/
noncomputable def transfer (q ki kf tm ta tt : ℝ) (g : Fin 8 → ℝ) : Fin 4 → ℝ :=
  ![momentum ki kf tm ta tt g ⬝ᵥ along q ki kf tm ta tt, momentum ki kf tm ta tt g ⬝ᵥ across q ki kf tm ta tt,
    momentum ki kf tm ta tt g 2, energy ki kf tm ta tt g]

/-- The reciprocal lattice vector of the crystallite that reflects from the first direction to the
second. -/
noncomputable def crystallite (k th a b av bv : ℝ) : Fin 3 → ℝ :=
  reflected k th a b • (heading a av - heading (2 * th + b) bv)

/-- How far this crystallite is turned, horizontally, in units of the length of the reciprocal lattice
vector. -/
noncomputable def turn (k th a b av bv : ℝ) : ℝ :=
  (crystallite k th a b av bv ⬝ᵥ ![cos th, sin th, 0]) / (2 * k * sin th)

/-- How far this crystallite is tilted, vertically. -/
noncomputable def tilt (k th a b av bv : ℝ) : ℝ := crystallite k th a b av bv 2 / (2 * k * sin th)

/-- The deviations of the crystallites that reflected the neutron: monochromator and analyzer, horizontal
and vertical. -/
noncomputable def misset (ki kf tm ta : ℝ) (g : Fin 8 → ℝ) : Fin 4 → ℝ :=
  ![turn ki tm (g 0) (g 1) (g 2) (g 3), tilt ki tm (g 0) (g 1) (g 2) (g 3),
    turn kf ta (g 4) (g 5) (g 6) (g 7), tilt kf ta (g 4) (g 5) (g 6) (g 7)]

/-- Arc minutes, full width at half maximum, as standard deviation in radian. -/
noncomputable def arcmin : ℝ := π / 180 / 60 / √(8 * log 2)

/-- The divergence of a collimation setting: arc minutes if positive, else a guide with the given multiple
of the critical angle of nickel. -/
noncomputable def divergence (x ki : ℝ) : ℝ :=
  if x < 0 then -x * (0.1 * 60 * (2 * π / ki) / 0.427 / √3) * arcmin else x * arcmin

/-- The divergences of the eight angles: the guides are passed with the wavevector `ki` before the sample and `kf`
after it. -/
noncomputable def divergences (s : Settings) (ki kf : ℝ) : Fin 8 → ℝ :=
  ![divergence (s.hcol 0) ki, divergence (s.hcol 1) ki, divergence (s.vcol 0) ki, divergence (s.vcol 1) ki,
    divergence (s.hcol 2) kf, divergence (s.hcol 3) kf, divergence (s.vcol 2) kf, divergence (s.vcol 3) kf]

/-- The mosaics of the two crystals, the vertical one being equal to the horizontal one unless it is given. -/
noncomputable def mosaics (s : Settings) : Fin 4 → ℝ :=
  ![s.mono.mosaic * arcmin, s.mono.vmosaic.getD s.mono.mosaic * arcmin,
    s.ana.mosaic * arcmin, s.ana.vmosaic.getD s.ana.mosaic * arcmin]

/-- Minus twice the logarithm of the probability that a neutron with the angles `v`, reflected by
crystallites misset by `m`, passes collimators and crystals. -/
noncomputable def cost (s : Settings) (ki kf : ℝ) (v : Fin 8 → ℝ) (m : Fin 4 → ℝ) : ℝ :=
  ∑ i, (v i / divergences s ki kf i) ^ 2 + ∑ j, (m j / mosaics s j) ^ 2

/-- Collimators and no guides after the sample. -/
structure Settings.Collimated (s : Settings) : Prop where
  h2 : 0 < s.hcol 2
  h3 : 0 < s.hcol 3
  v2 : 0 < s.vcol 2
  v3 : 0 < s.vcol 3

/-! ## Derivatives -/

theorem reflected_zero {th : ℝ} (k : ℝ) (h : sin th ≠ 0) : reflected k th 0 0 = k := by
  simp [reflected, h]

theorem reflected_deriv {th : ℝ} (k a b : ℝ) (h : sin th ≠ 0) :
    HasDerivAt (fun t => reflected k th (t * a) (t * b)) (k / 2 / tan th * (a - b)) 0 := by
  have h1 : HasDerivAt (fun t : ℝ => th + (t * b - t * a) / 2) ((b - a) / 2) 0 := by
    have := ((((hasDerivAt_id (0 : ℝ)).mul_const b).sub ((hasDerivAt_id (0 : ℝ)).mul_const a)).div_const 2).const_add th
    simpa using this
  have h2 := h1.sin
  have h3 := (hasDerivAt_const (0 : ℝ) (k * sin th)).div h2 (by simpa using h)
  refine h3.congr_deriv ?_
  simp only [zero_mul, sub_zero, zero_div, add_zero, tan_eq_sin_div_cos]
  by_cases hc : cos th = 0
  · simp [hc]
  · field_simp
    ring

theorem angle_deriv (a b : ℝ) : HasDerivAt (fun t : ℝ => a + t * b) b 0 := by
  simpa using ((hasDerivAt_id (0 : ℝ)).mul_const b).const_add a

theorem reflected_diff {th : ℝ} (k : ℝ) (i j : Fin 8) (h : sin th ≠ 0) :
    DifferentiableAt ℝ (fun g : Fin 8 → ℝ => reflected k th (g i) (g j)) 0 := by
  unfold reflected
  have h1 : DifferentiableAt ℝ (fun _ : Fin 8 → ℝ => k * sin th) 0 := by fun_prop
  have h2 : DifferentiableAt ℝ (fun g : Fin 8 → ℝ => sin (th + (g j - g i) / 2)) 0 := by fun_prop
  have h3 : sin (th + ((0 : Fin 8 → ℝ) j - (0 : Fin 8 → ℝ) i) / 2) ≠ 0 := by simpa using h
  simp only [div_eq_mul_inv _ (sin _)]
  exact h1.mul (h2.inv h3)

/-- A differentiable map and its derivatives along lines. -/
theorem fderiv_of_lines {m n : ℕ} {f : (Fin m → ℝ) → Fin n → ℝ} {J : Matrix (Fin n) (Fin m) ℝ}
    (hd : DifferentiableAt ℝ f 0)
    (h : ∀ v i, HasDerivAt (fun t : ℝ => f (t • v) i) ((J *ᵥ v) i) 0) (v : Fin m → ℝ) :
    fderiv ℝ f 0 v = J *ᵥ v := by
  have hl : HasDerivAt (fun t : ℝ => t • v) v 0 := by
    simpa using (hasDerivAt_id (0 : ℝ)).smul_const v
  have hd' : HasFDerivAt f (fderiv ℝ f 0) ((0 : ℝ) • v) := by
    rw [zero_smul]; exact hd.hasFDerivAt
  have h1 := hd'.comp_hasDerivAt (0 : ℝ) hl
  have h2 : HasDerivAt (f ∘ fun t : ℝ => t • v) (J *ᵥ v) 0 := hasDerivAt_pi.2 fun i => h v i
  exact h1.unique h2

theorem incoming_diff {ki tm : ℝ} (h : sin tm ≠ 0) : DifferentiableAt ℝ (incoming ki tm) 0 := by
  rw [differentiableAt_pi]
  intro i
  have := reflected_diff ki 0 1 h
  fin_cases i <;> simp only [incoming, heading, Pi.smul_apply, smul_eq_mul] <;>
    exact this.mul (by simp; fun_prop)

theorem outgoing_diff {kf ta : ℝ} (tt : ℝ) (h : sin ta ≠ 0) : DifferentiableAt ℝ (outgoing kf ta tt) 0 := by
  rw [differentiableAt_pi]
  intro i
  have := reflected_diff kf 4 5 h
  fin_cases i <;> simp only [outgoing, heading, Pi.smul_apply, smul_eq_mul] <;>
    exact this.mul (by simp; fun_prop)

theorem crystallite_diff {k th : ℝ} (a b c d : Fin 8) (h : sin th ≠ 0) :
    DifferentiableAt ℝ (fun g : Fin 8 → ℝ => crystallite k th (g a) (g b) (g c) (g d)) 0 := by
  rw [differentiableAt_pi]
  intro i
  have := reflected_diff k a b h
  fin_cases i <;> simp only [crystallite, heading, Pi.smul_apply, Pi.sub_apply, smul_eq_mul] <;>
    exact this.mul (by simp; fun_prop)

theorem transfer_diff (q : ℝ) {ki kf tm ta : ℝ} (tt : ℝ) (hm : sin tm ≠ 0) (ha : sin ta ≠ 0) :
    DifferentiableAt ℝ (transfer q ki kf tm ta tt) 0 := by
  have h1 := differentiableAt_pi.1 (incoming_diff (ki := ki) hm)
  have h2 := differentiableAt_pi.1 (outgoing_diff (kf := kf) tt ha)
  have a0 := h1 0
  have a1 := h1 1
  have a2 := h1 2
  have b0 := h2 0
  have b1 := h2 1
  have b2 := h2 2
  rw [differentiableAt_pi]
  intro i
  fin_cases i <;>
    simp only [transfer, momentum, energy, dotProduct, Fin.sum_univ_three, Pi.sub_apply, Fin.zero_eta, Fin.mk_one,
      Fin.reduceFinMk, Matrix.cons_val_zero, Matrix.cons_val_one, Matrix.cons_val] <;> fun_prop

theorem misset_diff {ki kf tm ta : ℝ} (hm : sin tm ≠ 0) (ha : sin ta ≠ 0) :
    DifferentiableAt ℝ (misset ki kf tm ta) 0 := by
  have h1 := differentiableAt_pi.1 (crystallite_diff (k := ki) 0 1 2 3 hm)
  have h2 := differentiableAt_pi.1 (crystallite_diff (k := kf) 4 5 6 7 ha)
  have a0 := h1 0
  have a1 := h1 1
  have a2 := h1 2
  have b0 := h2 0
  have b1 := h2 1
  have b2 := h2 2
  rw [differentiableAt_pi]
  intro i
  fin_cases i <;>
    simp only [misset, turn, tilt, dotProduct, Fin.sum_univ_three, Fin.zero_eta, Fin.mk_one,
      Fin.reduceFinMk, Matrix.cons_val_zero, Matrix.cons_val_one, Matrix.cons_val] <;> fun_prop

end Verif.Resolution
