import Verif.Resolution.Projections
import Verif.Resolution.PropsFrame
import Verif.Tools.PropsEllipse

/-!
# Property C131: the curves of `calc_projections`
-/

namespace Verif.Resolution

open Real Matrix
open Verif.Crystal (Fail Vec Mat Realises Dual vecOf len)
open Verif.Tools (Arg projectIntoPlane projectionHwhm ellipse quad SPD)

/-- A curve of `npts` points is the outline at half height, around the point `c`, of the function `f` of the deviation from
it: at each of its points `f` has dropped to one half (to 1e-7); every point where it has dropped by that amount is near one
of them; and the two widths are the full widths at half height along two perpendicular directions in which `f` is a product of
Gaussians. -/
structure Outline (f : ℝ → ℝ → ℝ) (c : ℝ × ℝ) (npts : ℕ) (cv : Curve) : Prop where
  count : cv.points.length = npts
  half : ∀ p ∈ cv.points, |f (p.1 - c.1) (p.2 - c.2) - f 0 0 / 2| ≤ 1e-7 * f 0 0
  whole : ∀ x y, f x y = f 0 0 * exp (-(1.17741 ^ 2) / 2) → ∃ p ∈ cv.points,
    |p.1 - (c.1 + x)| ≤ (cv.fwhm.1 + cv.fwhm.2) * (π / (npts - 1)) ∧ |p.2 - (c.2 + y)| ≤ (cv.fwhm.1 + cv.fwhm.2) * (π / (npts - 1))
  widths : 0 < cv.fwhm.1 ∧ 0 < cv.fwhm.2 ∧ ∃ t l1 l2, 0 < l1 ∧ 0 < l2 ∧
    (∀ x y, f (x * cos t - y * sin t) (x * sin t + y * cos t) = f 0 0 * exp (-(l1 * x ^ 2 + l2 * y ^ 2) / 2)) ∧
    |f (cv.fwhm.1 / 2 * cos t) (cv.fwhm.1 / 2 * sin t) - f 0 0 / 2| ≤ 1e-7 * f 0 0 ∧
    |f (-(cv.fwhm.2 / 2) * sin t) (cv.fwhm.2 / 2 * cos t) - f 0 0 / 2| ≤ 1e-7 * f 0 0

theorem half_of_level {A v : ℝ} (hA : 0 < A) (h : v = 1.17741 ^ 2) : |A * exp (-v / 2) - A / 2| ≤ 1e-7 * A := by
  rw [h, show A * exp (-(1.17741 ^ 2) / 2) - A / 2 = A * (exp (-(1.17741 ^ 2) / 2) - 1 / 2) by ring, abs_mul, abs_of_pos hA, mul_comm]
  exact mul_le_mul_of_nonneg_right Verif.Tools.C56_half.le hA.le

/-- Angles on the circle. -/
theorem circle_angle {X Y : ℝ} (h : X ^ 2 + Y ^ 2 = 1) : ∃ s, 0 ≤ s ∧ s ≤ 2 * π ∧ cos s = X ∧ sin s = Y := by
  have hp := pi_pos
  rcases le_total 0 Y with hY | hY
  · refine ⟨arccos X, arccos_nonneg X, (arccos_le_pi X).trans (by linarith), cos_arccos (by nlinarith) (by nlinarith), ?_⟩
    rw [sin_arccos, show 1 - X ^ 2 = Y ^ 2 by linarith, sqrt_sq hY]
  · refine ⟨2 * π - arccos X, by linarith [arccos_le_pi X], by linarith [arccos_nonneg X], ?_, ?_⟩
    · rw [cos_two_pi_sub, cos_arccos (by nlinarith) (by nlinarith)]
    · rw [sin_two_pi_sub, sin_arccos, show 1 - X ^ 2 = (-Y) ^ 2 by linarith, sqrt_sq (by linarith), neg_neg]

theorem curve_outline {M : Matrix (Fin 2) (Fin 2) ℝ} (h : SPD M) {f : ℝ → ℝ → ℝ} {A : ℝ} (hA : 0 < A)
    (hf : ∀ x y, f x y = A * exp (-quad M ![x, y] / 2)) (c : ℝ × ℝ) {n : ℕ} (hn : 2 ≤ n) :
    ∃ cv, curveOf M c n = .ok cv ∧ Outline f c n cv := by
  obtain ⟨a, b, t, hw, a0, b0, l1, l2, l10, l20, e1, e2, ea, eb⟩ := Verif.Tools.C56_axes h
  have f0 : f 0 0 = A := by
    rw [hf]
    simp [quad, Fin.sum_univ_two]
  have cs := sin_sq_add_cos_sq t
  -- the form in its axes
  have hq : ∀ x y, quad M ![x * cos t - y * sin t, x * sin t + y * cos t] = l1 * x ^ 2 + l2 * y ^ 2 := by
    intro x y
    have u0 := congrFun e1 0
    have u1 := congrFun e1 1
    have v0 := congrFun e2 0
    have v1 := congrFun e2 1
    simp [mulVec, dotProduct, Fin.sum_univ_two] at u0 u1 v0 v1
    rw [Verif.Tools.quad_two]
    linear_combination (x * (x * cos t - y * sin t)) * u0 + (x * (x * sin t + y * cos t)) * u1 + (y * (x * cos t - y * sin t)) * v0 +
      (y * (x * sin t + y * cos t)) * v1 + (l1 * x ^ 2 + l2 * y ^ 2) * cs
  have ha2 : l1 * a ^ 2 = 1.17741 ^ 2 := by rw [ea, div_pow, sq_sqrt l10.le]; field_simp
  have hb2 : l2 * b ^ 2 = 1.17741 ^ 2 := by rw [eb, div_pow, sq_sqrt l20.le]; field_simp
  refine ⟨⟨ellipse a b t c n, (2 * a, 2 * b)⟩, by unfold curveOf; rw [hw]; rfl, ?_, ?_, ?_, ?_⟩
  · exact (Verif.Tools.C56_whole_ellipse a b t c hn).1
  · intro p hp
    rw [f0, hf]
    exact half_of_level hA (Verif.Tools.C56_contour h hw c n p hp)
  · intro x y hxy
    rw [f0, hf] at hxy
    have hlev : quad M ![x, y] = 1.17741 ^ 2 := by
      have := exp_injective (mul_left_cancel₀ hA.ne' hxy)
      linarith
    -- coordinates in the axes
    obtain ⟨X, hX⟩ : ∃ X, X = x * cos t + y * sin t := ⟨_, rfl⟩
    obtain ⟨Y, hY⟩ : ∃ Y, Y = -x * sin t + y * cos t := ⟨_, rfl⟩
    have ex : x = X * cos t - Y * sin t := by rw [hX, hY]; linear_combination -x * cs
    have ey : y = X * sin t + Y * cos t := by rw [hX, hY]; linear_combination -y * cs
    rw [ex, ey, hq] at hlev
    have hc : (X / a) ^ 2 + (Y / b) ^ 2 = 1 := by
      have e1 : (X / a) ^ 2 = l1 * X ^ 2 / 1.17741 ^ 2 := by rw [← ha2]; field_simp
      have e2 : (Y / b) ^ 2 = l2 * Y ^ 2 / 1.17741 ^ 2 := by rw [← hb2]; field_simp
      rw [e1, e2, ← add_div, hlev, div_self (by norm_num)]
    obtain ⟨s, s0, s1, hcs, hsn⟩ := circle_angle hc
    obtain ⟨p, hp, p1, p2⟩ := (Verif.Tools.C56_whole_ellipse a b t c hn).2.2 s s0 s1
    refine ⟨p, hp, ?_, ?_⟩
    · rw [hcs, hsn, abs_of_pos a0, abs_of_pos b0] at p1
      have q1 : c.1 + a * (X / a) * cos t - b * (Y / b) * sin t = c.1 + x := by
        rw [ex]; field_simp; ring
      rw [q1] at p1
      refine p1.trans (le_of_eq ?_)
      ring
    · rw [hcs, hsn, abs_of_pos a0, abs_of_pos b0] at p2
      have q1 : c.2 + a * (X / a) * sin t + b * (Y / b) * cos t = c.2 + y := by
        rw [ey]; field_simp; ring
      rw [q1] at p2
      refine p2.trans (le_of_eq ?_)
      ring
  · refine ⟨by positivity, by positivity, t, l1, l2, l10, l20, fun x y => ?_, ?_, ?_⟩
    · rw [hf, hq, f0]
    · rw [f0, hf]
      refine half_of_level hA ?_
      have := hq a 0
      simp at this ⊢
      rw [this, ha2]
    · rw [f0, hf]
      refine half_of_level hA ?_
      have := hq 0 b
      simp at this ⊢
      rw [this, hb2]

/-- The vertical direction is independent of the others. -/
def Decoupled (A : M4) : Prop := ∀ k, k ≠ 2 → A k 2 = 0 ∧ A 2 k = 0

theorem SPD.sub {n m : ℕ} {M : Matrix (Fin n) (Fin n) ℝ} (h : SPD M) {e : Fin m → Fin n} (he : Function.Injective e) : SPD (M.submatrix e e) := by
  have h' := (posDef_iff_spd M).2 h
  exact (posDef_iff_spd _).1 (h'.submatrix he)

theorem quad_level (A : M4) (d : Decoupled A) (x y z w : ℝ) : quad A ![x, y, z, w] = A 2 2 * z ^ 2 + quad (level A) ![x, y, w] := by
  have h0 := d 0 (by decide)
  have h1 := d 1 (by decide)
  have h3 := d 3 (by decide)
  simp [quad, Fin.sum_univ_four, Fin.sum_univ_three, level, h0, h1, h3]
  ring

theorem integral_vertical {A : M4} (h : SPD A) (d : Decoupled A) (x y w : ℝ) :
    ∫ z : ℝ, exp (-quad A ![x, y, z, w] / 2) = √(2 * π / A 2 2) * exp (-quad (level A) ![x, y, w] / 2) := by
  have e : ∀ z : ℝ, exp (-quad A ![x, y, z, w] / 2) = exp (-quad (level A) ![x, y, w] / 2) * exp (-(A 2 2 * (z + 0) ^ 2) / 2) := by
    intro z
    rw [quad_level A d, ← exp_add]
    congr 1
    ring
  simp only [e]
  rw [MeasureTheory.integral_const_mul, Verif.Tools.integral_shifted, mul_comm]

/-- The resolution function integrated over the vertical direction and another one, as a function of the two that
remain; `order x y t` is the point of the plane of scattering with coordinates `x`, `y` in the plane shown. -/
theorem marginal {A : M4} (h : SPD A) (d : Decoupled A) (i : Fin 3) (r0 : ℝ) (order : ℝ → ℝ → ℝ → Fin 3 → ℝ)
    (ho : ∀ x y t, order x y t = i.insertNth (α := fun _ => ℝ) t ![x, y]) : ∃ r P, projectIntoPlane i r0 (level A) = .ok (r, P) ∧ SPD P ∧
      ∃ B, 0 < B ∧ ∀ x y, ∫ t : ℝ, ∫ z : ℝ, exp (-quad A ![order x y t 0, order x y t 1, z, order x y t 2] / 2) =
        B * exp (-quad P ![x, y] / 2) := by
  have hl : SPD (level A) := SPD.sub h (by decide)
  obtain ⟨r, P, h1, -, hP, -⟩ := Verif.Tools.C55_marginal hl i r0
  obtain ⟨r', P', h1', hr', -, h3⟩ := Verif.Tools.C55_marginal hl i 1
  have eP : P' = P := by
    have hd := hl.diag i
    have e1 := Verif.Tools.project_ok hd (r0 := r0)
    have e2 := Verif.Tools.project_ok hd (r0 := 1)
    rw [h1] at e1
    rw [h1'] at e2
    exact (Prod.mk.inj (Except.ok.inj e2)).2.trans (Prod.mk.inj (Except.ok.inj e1)).2.symm
  have d2 := h.diag 2
  have di := hl.diag i
  refine ⟨r, P, h1, hP, √(2 * π / A 2 2) * r', ?_, fun x y => ?_⟩
  · rw [hr']
    have := pi_pos
    positivity
  · simp only [integral_vertical h d]
    rw [MeasureTheory.integral_const_mul, mul_assoc]
    congr 1
    rw [← eP, ← h3 ![x, y]]
    congr 1
    ext t
    rw [one_mul]
    congr 3
    have : ![order x y t 0, order x y t 1, order x y t 2] = order x y t := by
      ext k
      fin_cases k <;> rfl
    rw [this, ho]

/-- What the six curves at one point are meant to be, for the resolution function with the matrix `A` in the frame of the
crystal: its slices through the planes, and its integrals over the two other components. -/
structure Shows (A : M4) (qx qy w : ℝ) (npts : ℕ) (v : View) : Prop where
  qxqySlice : Outline (fun x y => exp (-quad A ![x, y, 0, 0] / 2)) (qx, qy) npts v.qxqySlice
  qxwSlice : Outline (fun x e => exp (-quad A ![x, 0, 0, e] / 2)) (qx, w) npts v.qxwSlice
  qywSlice : Outline (fun y e => exp (-quad A ![0, y, 0, e] / 2)) (qy, w) npts v.qywSlice
  qxqy : Outline (fun x y => ∫ e : ℝ, ∫ z : ℝ, exp (-quad A ![x, y, z, e] / 2)) (qx, qy) npts v.qxqy
  qxw : Outline (fun x e => ∫ y : ℝ, ∫ z : ℝ, exp (-quad A ![x, y, z, e] / 2)) (qx, w) npts v.qxw
  qyw : Outline (fun y e => ∫ x : ℝ, ∫ z : ℝ, exp (-quad A ![x, y, z, e] / 2)) (qy, w) npts v.qyw

theorem viewAt_shows (u v : Vec) {r : Res} (h : SPD r.rms) (d : Decoupled r.rms) (hkl : Vec) (w : ℝ) {n : ℕ} (hn : 2 ≤ n) :
    ∃ x, viewAt u v r hkl w n = .ok x ∧ Shows r.rms (coordinate hkl u) (coordinate hkl v) w n x := by
  obtain ⟨r1, P1, p1, s1, B1, b1, m1⟩ := marginal h d 2 r.r0 (fun x y t => ![x, y, t]) (by
    intro x y t; ext k; fin_cases k <;> rfl)
  obtain ⟨r2, P2, p2, s2, B2, b2, m2⟩ := marginal h d 1 r.r0 (fun x y t => ![x, t, y]) (by
    intro x y t; ext k; fin_cases k <;> rfl)
  obtain ⟨r3, P3, p3, s3, B3, b3, m3⟩ := marginal h d 0 r.r0 (fun x y t => ![t, x, y]) (by
    intro x y t; ext k; fin_cases k <;> rfl)
  obtain ⟨c1, e1, o1⟩ := curve_outline s1 (f := fun x y => ∫ e : ℝ, ∫ z : ℝ, exp (-quad r.rms ![x, y, z, e] / 2)) b1 m1
    (coordinate hkl u, coordinate hkl v) hn
  obtain ⟨c2, e2, o2⟩ := curve_outline s2 (f := fun x e => ∫ y : ℝ, ∫ z : ℝ, exp (-quad r.rms ![x, y, z, e] / 2)) b2 m2
    (coordinate hkl u, w) hn
  obtain ⟨c3, e3, o3⟩ := curve_outline s3 (f := fun y e => ∫ x : ℝ, ∫ z : ℝ, exp (-quad r.rms ![x, y, z, e] / 2)) b3 m3
    (coordinate hkl v, w) hn
  obtain ⟨c4, e4, o4⟩ := curve_outline (SPD.sub h (e := ![0, 1]) (by decide)) (f := fun x y => exp (-quad r.rms ![x, y, 0, 0] / 2)) one_pos
    (fun x y => by
      rw [one_mul]; congr 2; simp [quad, Fin.sum_univ_four, Fin.sum_univ_two]) (coordinate hkl u, coordinate hkl v) hn
  obtain ⟨c5, e5, o5⟩ := curve_outline (SPD.sub h (e := ![0, 3]) (by decide)) (f := fun x y => exp (-quad r.rms ![x, 0, 0, y] / 2)) one_pos
    (fun x y => by
      rw [one_mul]; congr 2; simp [quad, Fin.sum_univ_four, Fin.sum_univ_two]) (coordinate hkl u, w) hn
  obtain ⟨c6, e6, o6⟩ := curve_outline (SPD.sub h (e := ![1, 3]) (by decide)) (f := fun x y => exp (-quad r.rms ![0, x, 0, y] / 2)) one_pos
    (fun x y => by
      rw [one_mul]; congr 2; simp [quad, Fin.sum_univ_four, Fin.sum_univ_two]) (coordinate hkl v, w) hn
  refine ⟨⟨c1, c4, c2, c5, c3, c6⟩, ?_, ⟨o4, o5, o6, o1, o2, o3⟩⟩
  unfold viewAt
  simp only [p1, p2, p3, ok_bind, e1, e2, e3, e4, e5, e6]
  rfl

end Verif.Resolution
