import Mathlib.Analysis.SpecialFunctions.Trigonometric.ArctanDeriv
import Mathlib.Analysis.SpecialFunctions.Sqrt
import Mathlib.Analysis.SpecialFunctions.Integrals.Basic
import Verif.Resolution.Flight

/-!
# Specification: the flight of a neutron from the guide to the detector

Nothing here is taken from the code.  A neutron that meets elements of finite size is described by the
points at which it leaves the guide, is reflected by the monochromator, scattered by the sample, reflected
by the analyzer and detected, thirteen coordinates: left and up in the guide (0, 1); depth, along the face
and up in the monochromator (2, 3, 4); along the bisector of the wavevectors, left of it and up in the sample
(5, 6, 7); the same as the monochromator for the analyzer (8, 9, 10); left and up in the detector (11, 12).
The directions of flight are those of the lines between these points.
-/

namespace Verif.Resolution

open Real Matrix

/-- A vector with coordinates `x`, `y` in a frame that is turned by `a`, and `z` up. -/
noncomputable def turnedBy (a x y z : ℝ) : Fin 3 → ℝ := ![x * cos a - y * sin a, x * sin a + y * cos a, z]

/-- The horizontal angle between the nominal direction and the line between two points, given by their
deviations forward, left and up from the nominal ends of an arm of length `L`. -/
noncomputable def angleH (L : ℝ) (s e : Fin 3 → ℝ) : ℝ := arctan ((e 1 - s 1) / (L + e 0 - s 0))

/-- The angle between the line and the horizontal plane. -/
noncomputable def angleV (L : ℝ) (s e : Fin 3 → ℝ) : ℝ :=
  arctan ((e 2 - s 2) / √((L + e 0 - s 0) ^ 2 + (e 1 - s 1) ^ 2))

/-- A point on a window perpendicular to the beam. -/
def windowPoint (y z : ℝ) : Fin 3 → ℝ := ![0, y, z]

/-- A point of the monochromator in the frame of the arm before it (`a` is the Bragg angle: the face bisects
the two arms) or after it (`a` is minus the Bragg angle). -/
noncomputable def monoPoint (a : ℝ) (p : Fin 13 → ℝ) : Fin 3 → ℝ := turnedBy a (p 3) (-p 2) (p 4)

/-- A point of the sample in the frame of the arm before it (`a` half the scattering angle) or after it (minus
half the scattering angle). -/
noncomputable def samplePoint (a : ℝ) (p : Fin 13 → ℝ) : Fin 3 → ℝ := turnedBy a (p 5) (p 6) (p 7)

/-- A point of the analyzer. -/
noncomputable def anaPoint (a : ℝ) (p : Fin 13 → ℝ) : Fin 3 → ℝ := turnedBy a (p 9) (-p 8) (p 10)

/-- The eight angles of flight of a neutron with the points `p`, for arms of the lengths `L0` to `L3`. -/
noncomputable def angles (L0 L1 L2 L3 tm ta tt : ℝ) (p : Fin 13 → ℝ) : Fin 8 → ℝ :=
  ![angleH L0 (windowPoint (p 0) (p 1)) (monoPoint tm p), angleH L1 (monoPoint (-tm) p) (samplePoint (tt / 2) p),
    angleV L0 (windowPoint (p 0) (p 1)) (monoPoint tm p), angleV L1 (monoPoint (-tm) p) (samplePoint (tt / 2) p),
    angleH L2 (samplePoint (-(tt / 2)) p) (anaPoint ta p), angleH L3 (anaPoint (-ta) p) (windowPoint (p 11) (p 12)),
    angleV L2 (samplePoint (-(tt / 2)) p) (anaPoint ta p), angleV L3 (anaPoint (-ta) p) (windowPoint (p 11) (p 12))]

/-- The radius of curvature of a crystal; positive radii focus, so the face turns with the sense of reflection.
A crystal without a radius counts as one with the radius 10⁶. -/
noncomputable def radius (dir : ℝ) (r : Option ℝ) : ℝ := dir * r.getD 1000000

/-- The angles by which the faces of bent crystals are turned at the points of reflection. -/
noncomputable def bend (s : Settings) (p : Fin 13 → ℝ) : Fin 4 → ℝ :=
  ![p 3 / radius s.mono.dir s.mono.rh, p 4 / radius s.mono.dir s.mono.rv,
    p 9 / radius s.ana.dir s.ana.rh, p 10 / radius s.ana.dir s.ana.rv]

/-- How far the crystallites that reflect the neutron deviate from the bent faces. -/
noncomputable def bentMisset (s : Settings) (L0 L1 L2 L3 ki kf tm ta tt : ℝ) (p : Fin 13 → ℝ) : Fin 4 → ℝ :=
  misset ki kf tm ta (angles L0 L1 L2 L3 tm ta tt p) - bend s p

/-- The variance of a uniform distribution of width `w`; a missing width counts as variance one. -/
noncomputable def variance (w : Option ℝ) : ℝ := match w with
  | some w => ∫ x in (-(w / 2))..(w / 2), x ^ 2 / w
  | none => 1

/-- The covariance of a sample: a box with the edges depth, width and height along, across and perpendicular to the
momentum transfer, or one given by the matrix `shape` for which it is a twelfth; the unit matrix if nothing is
given. -/
noncomputable def sampleCovariance (a : SampleAttrs) : M3 := match a.width, a.depth, a.height, a.shape with
  | some w, some d, some h, _ => diagonal ![variance (some d), variance (some w), variance (some h)]
  | _, _, _, some (.one M) => (1 / 12 : ℝ) • M
  | _, _, _, _ => 1

/-- The coordinates of the point of scattering along, across and perpendicular to the momentum transfer. -/
noncomputable def inSample (q ki kf tm ta tt : ℝ) (p : Fin 13 → ℝ) : Fin 3 → ℝ :=
  ![samplePoint (tt / 2) p ⬝ᵥ along q ki kf tm ta tt, samplePoint (tt / 2) p ⬝ᵥ across q ki kf tm ta tt, p 7]

/-- Minus twice the logarithm of the probability of the points `p`, the distributions of the points taken as
Gaussians with the variances of the uniform ones. -/
noncomputable def pointCost (s : Settings) (q ki kf tm ta tt : ℝ) (p : Fin 13 → ℝ) : ℝ :=
  p 0 ^ 2 / variance s.guide.width + p 1 ^ 2 / variance s.guide.height +
  (p 2 ^ 2 / variance s.mono.depth + p 3 ^ 2 / variance s.mono.width + p 4 ^ 2 / variance s.mono.height) +
  inSample q ki kf tm ta tt p ⬝ᵥ ((sampleCovariance s.sample)⁻¹ *ᵥ inSample q ki kf tm ta tt p) +
  (p 8 ^ 2 / variance s.ana.depth + p 9 ^ 2 / variance s.ana.width + p 10 ^ 2 / variance s.ana.height) +
  (p 11 ^ 2 / variance s.detector.width + p 12 ^ 2 / variance s.detector.height)

/-! ## Derivatives -/

theorem variance_some {w : ℝ} (h : 0 < w) : variance (some w) = w ^ 2 / 12 := by
  simp only [variance]
  rw [intervalIntegral.integral_div, integral_pow]
  field_simp
  ring

theorem arctan_line {g : ℝ → ℝ} {g' : ℝ} (c : ℝ) (hg : HasDerivAt g g' 0) (h : g 0 ≠ 0) :
    HasDerivAt (fun t : ℝ => arctan (t * c / g t)) (c / g 0) 0 := by
  have h1 : HasDerivAt (fun t : ℝ => t * c) c 0 := by simpa using (hasDerivAt_id (0 : ℝ)).mul_const c
  have h2 := (h1.div hg h).arctan
  refine h2.congr_deriv ?_
  simp
  field_simp

theorem angleH_line {L : ℝ} (hL : L ≠ 0) {s e : ℝ → Fin 3 → ℝ} {c d : ℝ} (h1 : ∀ t, e t 1 - s t 1 = t * c)
    (h0 : ∀ t, e t 0 - s t 0 = t * d) : HasDerivAt (fun t => angleH L (s t) (e t)) (c / L) 0 := by
  have hg : HasDerivAt (fun t : ℝ => L + t * d) d 0 := by
    simpa using ((hasDerivAt_id (0 : ℝ)).mul_const d).const_add L
  have := arctan_line c hg (by simpa using hL)
  simp only [zero_mul, add_zero] at this
  refine this.congr_of_eventuallyEq (Filter.Eventually.of_forall fun t => ?_)
  simp only [angleH, h1, add_sub_assoc, h0]

theorem angleV_line {L : ℝ} (hL : 0 < L) {s e : ℝ → Fin 3 → ℝ} {c d f : ℝ} (h2 : ∀ t, e t 2 - s t 2 = t * f)
    (h1 : ∀ t, e t 1 - s t 1 = t * c) (h0 : ∀ t, e t 0 - s t 0 = t * d) :
    HasDerivAt (fun t => angleV L (s t) (e t)) (f / L) 0 := by
  have hg : HasDerivAt (fun t : ℝ => L + t * d) d 0 := by
    simpa using ((hasDerivAt_id (0 : ℝ)).mul_const d).const_add L
  have hc : HasDerivAt (fun t : ℝ => t * c) c 0 := by simpa using (hasDerivAt_id (0 : ℝ)).mul_const c
  have hs : HasDerivAt (fun t : ℝ => √((L + t * d) ^ 2 + (t * c) ^ 2)) _ 0 :=
    ((hg.pow 2).add (hc.pow 2)).sqrt (by simpa using hL.ne')
  have := arctan_line f hs (by simpa [Real.sqrt_sq hL.le] using hL.ne')
  simp only [zero_mul, add_zero, ne_eq, OfNat.ofNat_ne_zero, not_false_eq_true, zero_pow, Real.sqrt_sq hL.le] at this
  refine this.congr_of_eventuallyEq (Filter.Eventually.of_forall fun t => ?_)
  simp only [angleV, h2, h1, add_sub_assoc, h0]

theorem angleH_diff {L : ℝ} (hL : L ≠ 0) {s e : (Fin 13 → ℝ) → Fin 3 → ℝ} (hs : DifferentiableAt ℝ s 0)
    (he : DifferentiableAt ℝ e 0) (s0 : s 0 = 0) (e0 : e 0 = 0) :
    DifferentiableAt ℝ (fun p => angleH L (s p) (e p)) 0 := by
  have hs' := differentiableAt_pi.1 hs
  have he' := differentiableAt_pi.1 he
  have h2 : DifferentiableAt ℝ (fun p => L + e p 0 - s p 0) 0 := ((he' 0).const_add L).sub (hs' 0)
  have h3 : DifferentiableAt ℝ (fun p => (e p 1 - s p 1) * (L + e p 0 - s p 0)⁻¹) 0 :=
    ((he' 1).sub (hs' 1)).mul (h2.inv (by simpa [s0, e0] using hL))
  simp only [angleH, div_eq_mul_inv]
  exact h3.arctan

theorem angleV_diff {L : ℝ} (hL : L ≠ 0) {s e : (Fin 13 → ℝ) → Fin 3 → ℝ} (hs : DifferentiableAt ℝ s 0)
    (he : DifferentiableAt ℝ e 0) (s0 : s 0 = 0) (e0 : e 0 = 0) :
    DifferentiableAt ℝ (fun p => angleV L (s p) (e p)) 0 := by
  have hs' := differentiableAt_pi.1 hs
  have he' := differentiableAt_pi.1 he
  have h2 : DifferentiableAt ℝ (fun p => L + e p 0 - s p 0) 0 := ((he' 0).const_add L).sub (hs' 0)
  have h1 : DifferentiableAt ℝ (fun p => e p 1 - s p 1) 0 := (he' 1).sub (hs' 1)
  have h4 : DifferentiableAt ℝ (fun p => √((L + e p 0 - s p 0) ^ 2 + (e p 1 - s p 1) ^ 2)) 0 :=
    ((h2.pow 2).add (h1.pow 2)).sqrt (by simpa [s0, e0] using hL)
  have h3 : DifferentiableAt ℝ (fun p => (e p 2 - s p 2) * (√((L + e p 0 - s p 0) ^ 2 + (e p 1 - s p 1) ^ 2))⁻¹) 0 :=
    ((he' 2).sub (hs' 2)).mul (h4.inv (by
      have : 0 < L ^ 2 := by positivity
      simp only [s0, e0, Pi.zero_apply, add_zero, sub_zero, ne_eq, OfNat.ofNat_ne_zero, not_false_eq_true, zero_pow]
      exact (Real.sqrt_pos.2 this).ne'))
  simp only [angleV, div_eq_mul_inv]
  exact h3.arctan

theorem turned_diff (a : ℝ) {x y z : (Fin 13 → ℝ) → ℝ} (hx : DifferentiableAt ℝ x 0) (hy : DifferentiableAt ℝ y 0)
    (hz : DifferentiableAt ℝ z 0) : DifferentiableAt ℝ (fun p => turnedBy a (x p) (y p) (z p)) 0 := by
  rw [differentiableAt_pi]
  intro i
  fin_cases i <;> simp [turnedBy] <;> fun_prop

theorem angles_diff {L0 L1 L2 L3 : ℝ} (tm ta tt : ℝ) (h0 : L0 ≠ 0) (h1 : L1 ≠ 0) (h2 : L2 ≠ 0) (h3 : L3 ≠ 0) :
    DifferentiableAt ℝ (angles L0 L1 L2 L3 tm ta tt) 0 := by
  have w1 : DifferentiableAt ℝ (fun p : Fin 13 → ℝ => windowPoint (p 0) (p 1)) 0 := by
    rw [differentiableAt_pi]; intro i; fin_cases i <;> simp [windowPoint] <;> fun_prop
  have w2 : DifferentiableAt ℝ (fun p : Fin 13 → ℝ => windowPoint (p 11) (p 12)) 0 := by
    rw [differentiableAt_pi]; intro i; fin_cases i <;> simp [windowPoint] <;> fun_prop
  have hm : ∀ a, DifferentiableAt ℝ (monoPoint a) 0 := fun a => turned_diff a (by fun_prop) (by fun_prop) (by fun_prop)
  have hs : ∀ a, DifferentiableAt ℝ (samplePoint a) 0 := fun a => turned_diff a (by fun_prop) (by fun_prop) (by fun_prop)
  have ha : ∀ a, DifferentiableAt ℝ (anaPoint a) 0 := fun a => turned_diff a (by fun_prop) (by fun_prop) (by fun_prop)
  have zw1 : windowPoint ((0 : Fin 13 → ℝ) 0) ((0 : Fin 13 → ℝ) 1) = 0 := by ext i; fin_cases i <;> simp [windowPoint]
  have zw2 : windowPoint ((0 : Fin 13 → ℝ) 11) ((0 : Fin 13 → ℝ) 12) = 0 := by ext i; fin_cases i <;> simp [windowPoint]
  have zm : ∀ a, monoPoint a 0 = 0 := fun a => by ext i; fin_cases i <;> simp [monoPoint, turnedBy]
  have zs : ∀ a, samplePoint a 0 = 0 := fun a => by ext i; fin_cases i <;> simp [samplePoint, turnedBy]
  have za : ∀ a, anaPoint a 0 = 0 := fun a => by ext i; fin_cases i <;> simp [anaPoint, turnedBy]
  rw [differentiableAt_pi]
  intro i
  fin_cases i
  · exact angleH_diff h0 w1 (hm _) zw1 (zm _)
  · exact angleH_diff h1 (hm _) (hs _) (zm _) (zs _)
  · exact angleV_diff h0 w1 (hm _) zw1 (zm _)
  · exact angleV_diff h1 (hm _) (hs _) (zm _) (zs _)
  · exact angleH_diff h2 (hs _) (ha _) (zs _) (za _)
  · exact angleH_diff h3 (ha _) w2 (za _) zw2
  · exact angleV_diff h2 (hs _) (ha _) (zs _) (za _)
  · exact angleV_diff h3 (ha _) w2 (za _) zw2

theorem angles_zero (L0 L1 L2 L3 tm ta tt : ℝ) : angles L0 L1 L2 L3 tm ta tt 0 = 0 := by
  ext i
  fin_cases i <;> simp [angles, angleH, angleV, windowPoint, monoPoint, samplePoint, anaPoint, turnedBy]

/-- The derivatives of the angles along lines are the matrix of the code. -/
theorem angles_line {c : Conf} {k : Kin} (h0 : 0 < c.L0) (h1 : 0 < c.L1) (h2 : 0 < c.L2) (h3 : 0 < c.L3) (p : Fin 13 → ℝ)
    (i : Fin 8) :
    HasDerivAt (fun t : ℝ => angles c.L0 c.L1 c.L2 c.L3 k.thetam k.thetaa k.s2theta (t • p) i) ((matD c k *ᵥ p) i) 0 := by
  have hD : matD c k *ᵥ p = ![
      (sin k.thetam * p 3 - cos k.thetam * p 2 - p 0) / c.L0,
      (sin (k.s2theta / 2) * p 5 + cos (k.s2theta / 2) * p 6 + sin k.thetam * p 3 + cos k.thetam * p 2) / c.L1,
      (p 4 - p 1) / c.L0, (p 7 - p 4) / c.L1,
      (sin k.thetaa * p 9 - cos k.thetaa * p 8 + sin (k.s2theta / 2) * p 5 - cos (k.s2theta / 2) * p 6) / c.L2,
      (p 11 + sin k.thetaa * p 9 + cos k.thetaa * p 8) / c.L3,
      (p 10 - p 7) / c.L2, (p 12 - p 10) / c.L3] := by
    ext i
    fin_cases i <;> simp [matD, mulVec, dotProduct, Fin.sum_univ_succ] <;> ring
  rw [hD]
  fin_cases i
  · refine angleH_line h0.ne' (d := cos k.thetam * p 3 + sin k.thetam * p 2) (fun t => ?_) fun t => ?_ <;>
      simp [windowPoint, monoPoint, turnedBy] <;> ring
  · refine angleH_line h1.ne' (d := cos (k.s2theta / 2) * p 5 - sin (k.s2theta / 2) * p 6 - cos k.thetam * p 3 + sin k.thetam * p 2)
      (fun t => ?_) fun t => ?_ <;> simp [samplePoint, monoPoint, turnedBy] <;> ring
  · refine angleV_line h0 (c := sin k.thetam * p 3 - cos k.thetam * p 2 - p 0) (d := cos k.thetam * p 3 + sin k.thetam * p 2)
      (fun t => ?_) (fun t => ?_) fun t => ?_ <;> simp [windowPoint, monoPoint, turnedBy] <;> ring
  · refine angleV_line h1
      (c := sin (k.s2theta / 2) * p 5 + cos (k.s2theta / 2) * p 6 + sin k.thetam * p 3 + cos k.thetam * p 2)
      (d := cos (k.s2theta / 2) * p 5 - sin (k.s2theta / 2) * p 6 - cos k.thetam * p 3 + sin k.thetam * p 2)
      (fun t => ?_) (fun t => ?_) fun t => ?_ <;> simp [samplePoint, monoPoint, turnedBy] <;> ring
  · refine angleH_line h2.ne' (d := cos k.thetaa * p 9 + sin k.thetaa * p 8 - cos (k.s2theta / 2) * p 5 - sin (k.s2theta / 2) * p 6)
      (fun t => ?_) fun t => ?_ <;> simp [samplePoint, anaPoint, turnedBy] <;> ring
  · refine angleH_line h3.ne' (d := - cos k.thetaa * p 9 + sin k.thetaa * p 8)
      (fun t => ?_) fun t => ?_ <;> simp [windowPoint, anaPoint, turnedBy] <;> ring
  · refine angleV_line h2
      (c := sin k.thetaa * p 9 - cos k.thetaa * p 8 + sin (k.s2theta / 2) * p 5 - cos (k.s2theta / 2) * p 6)
      (d := cos k.thetaa * p 9 + sin k.thetaa * p 8 - cos (k.s2theta / 2) * p 5 - sin (k.s2theta / 2) * p 6)
      (fun t => ?_) (fun t => ?_) fun t => ?_ <;> simp [samplePoint, anaPoint, turnedBy] <;> ring
  · refine angleV_line h3 (c := p 11 + sin k.thetaa * p 9 + cos k.thetaa * p 8) (d := - cos k.thetaa * p 9 + sin k.thetaa * p 8)
      (fun t => ?_) (fun t => ?_) fun t => ?_ <;> simp [windowPoint, anaPoint, turnedBy] <;> ring

end Verif.Resolution
