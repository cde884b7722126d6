import Verif.Resolution.LemmasPoint

/-! # The correction for the reflectivity of the analyzer as a factor -/

namespace Verif.Resolution

open Real Matrix
open Verif.Crystal (Fail npSqrt npArcsin npDiv)

/-- The reflectivity of a mosaic crystal of thickness `t` with scattering power `q` per thickness (secondary
extinction, Bacon and Lowde 1948), relative to that of a thin crystal with reflectivity one at the centre: the mean over
200 equidistant deviations up to `√(2 log 2) a` of `x / (1 + x)`, divided by that of the mosaic distribution.  Arguments:
wavevector, length of the reciprocal lattice vector, mosaic and divergence as standard deviations. -/
noncomputable def thickCrystal (k tau η a t q : ℝ) : ℝ :=
  let w (n : ℕ) : ℝ := exp (-((n + 1 : ℝ) / 200 * √(2 * log 2) * a) ^ 2 / (2 * η ^ 2))
  let x (n : ℕ) : ℝ := t * q * tan (arcsin (tau / (2 * k))) * (w n / (η * √(2 * π)))
  (∑ n ∈ Finset.range 200, x n / (1 + x n)) / ∑ n ∈ Finset.range 200, w n

theorem reflectivity_eq {c : Conf} (l : Loop) {k : Kin} {t kq : ℝ} (ha : c.taua < 2 * k.kf) (ht : 0 < c.taua)
    (he : 0 < c.etaa) (h : 0 < t * kq) :
    reflectivity c l k t kq = .ok (thickCrystal k.kf c.taua c.etaa (min (l.alpha 2) (l.alpha 3)) t kq) ∧
      0 < thickCrystal k.kf c.taua c.etaa (min (l.alpha 2) (l.alpha 3)) t kq := by
  have hs : 0 < k.kf ^ 2 - (c.taua / 2) ^ 2 := by nlinarith
  have hkf : 0 < k.kf := by linarith
  have htoa : 0 < c.taua / 2 / √(k.kf ^ 2 - (c.taua / 2) ^ 2) := div_pos (by linarith) (Real.sqrt_pos.2 hs)
  have etan : tan (arcsin (c.taua / (2 * k.kf))) = c.taua / 2 / √(k.kf ^ 2 - (c.taua / 2) ^ 2) := by
    have e : 1 - (c.taua / (2 * k.kf)) ^ 2 = (k.kf ^ 2 - (c.taua / 2) ^ 2) / k.kf ^ 2 := by field_simp
    rw [tan_arcsin, e, Real.sqrt_div hs.le, Real.sqrt_sq hkf.le]
    have := Real.sqrt_pos.2 hs
    field_simp
  have emin : (if l.alpha 2 < l.alpha 3 then l.alpha 2 else l.alpha 3) = min (l.alpha 2) (l.alpha 3) := by
    rcases lt_or_ge (l.alpha 2) (l.alpha 3) with h | h
    · rw [if_pos h, min_eq_left h.le]
    · rw [if_neg (not_lt.2 h), min_eq_right h]
  unfold reflectivity thickCrystal
  simp only [npSqrt_ok hs.le, ok_bind, npDiv_ok (Real.sqrt_pos.2 hs).ne', emin, etan]
  set toa := c.taua / 2 / √(k.kf ^ 2 - (c.taua / 2) ^ 2)
  set a := min (l.alpha 2) (l.alpha 3)
  have ew : ∀ n : ℕ, exp (-((n + 1 : ℝ) / 200 * √(2 * log 2) * a) ^ 2 / (2 * c.etaa ^ 2)) =
      exp (-((n + 1 : ℝ) / 200 * √(2 * log 2) * a) ^ 2 / 2 / c.etaa ^ 2) := fun n => by rw [div_div]
  simp only [ew]
  set w : ℕ → ℝ := fun n => exp (-((n + 1 : ℝ) / 200 * √(2 * log 2) * a) ^ 2 / 2 / c.etaa ^ 2) with hw
  have ex : ∀ n, t * kq * toa * (w n / (c.etaa * √(2 * π))) = t * (kq * toa) * w n / c.etaa / √(2 * π) := fun n => by
    rw [div_div]; ring
  have spos : ∀ n, 0 < t * (kq * toa) * w n / c.etaa / √(2 * π) := by
    intro n
    have : t * (kq * toa) * w n / c.etaa / √(2 * π) = (t * kq) * toa * w n / c.etaa / √(2 * π) := by ring
    rw [this]
    have : 0 < w n := exp_pos _
    positivity
  have wpos : 0 < ∑ n ∈ Finset.range 200, w n := Finset.sum_pos (fun n _ => exp_pos _) ⟨0, by simp⟩
  have hx : ∀ n, t * kq * toa * (w n / (c.etaa * √(2 * π))) / (1 + t * kq * toa * (w n / (c.etaa * √(2 * π)))) =
      1 / (1 + 1 / (t * (kq * toa) * w n / c.etaa / √(2 * π))) := fun n => by
    rw [ex n]
    have := spos n
    generalize t * (kq * toa) * w n / c.etaa / √(2 * π) = y at *
    field_simp
    ring
  rw [if_neg (by
    rintro ⟨n, _, hn⟩
    have := spos n
    linarith), npDiv_ok wpos.ne']
  have e1 : ∀ n, (if t * (kq * toa) * w n / c.etaa / √(2 * π) = 0 then 0 else
      1 / (1 + 1 / (t * (kq * toa) * w n / c.etaa / √(2 * π)))) =
      t * kq * toa * (w n / (c.etaa * √(2 * π))) / (1 + t * kq * toa * (w n / (c.etaa * √(2 * π)))) := fun n => by
    rw [if_neg (spos n).ne', hx]
  refine ⟨congrArg _ (congrArg (· / _) (Finset.sum_congr rfl fun n _ => e1 n)), div_pos (Finset.sum_pos (fun n _ => ?_) ⟨0, by simp⟩) wpos⟩
  have := spos n
  rw [← ex] at this
  exact div_pos this (by linarith)

/-- The analyzer reflectivity enters as the last factor of the prefactor, and in nothing else. -/
theorem pointAt_refl (c : Conf) (l : Loop) (X : M3) (k : Kin) (q : ℝ) (t kq : ℝ) :
    pointAt { c with refl := some (t, kq) } l X k q =
      pointAt { c with refl := none } l X k q >>= fun x => reflectivity c l k t kq >>= fun r => pure (x.1 * r, x.2) := by
  unfold pointAt
  split_ifs
  · rfl
  · change (npInv (matSinv c (turnShape k X)) >>= fun S => coreMatrix c l k S >>= fun x => npInv x.1 >>= fun RM =>
      prefactor c l k x.2 RM >>= fun r0 => withMosaic c q r0 RM x.1 >>= fun y =>
      (reflectivity c l k t kq >>= fun r => pure (y.1 * r)) >>= fun r => pure (r, y.2)) =
      (npInv (matSinv c (turnShape k X)) >>= fun S => coreMatrix c l k S >>= fun x => npInv x.1 >>= fun RM =>
      prefactor c l k x.2 RM >>= fun r0 => withMosaic c q r0 RM x.1 >>= fun y =>
      pure y.1 >>= fun r => pure (r, y.2)) >>= fun x => reflectivity c l k t kq >>= fun r => pure (x.1 * r, x.2)
    simp only [bind_assoc, pure_bind]

/-- The factor by which the reflectivity of the analyzer changes the prefactor. -/
noncomputable def Conf.reflected (c : Conf) (l : Loop) (k : Kin) : ℝ := match c.refl with
  | some (t, kq) => thickCrystal k.kf c.taua c.etaa (min (l.alpha 2) (l.alpha 3)) t kq
  | none => 1

theorem pointAt_reflected {c : Conf} (hc : c.Good) {l : Loop} {X : M3} {k : Kin} {q : ℝ} (ha : c.taua < 2 * k.kf)
    (he : 0 < c.etaa) {r : ℝ × M4} (h : pointAt { c with refl := none } l X k q = .ok r) :
    pointAt c l X k q = .ok (r.1 * c.reflected l k, r.2) ∧ 0 < c.reflected l k := by
  cases hr : c.refl with
  | none =>
    have e : { c with refl := none } = c := by rw [← hr]
    rw [e] at h
    simp only [Conf.reflected, hr, mul_one]
    exact ⟨h, one_pos⟩
  | some p =>
    obtain ⟨t, kq⟩ := p
    have e : { c with refl := some (t, kq) } = c := by rw [← hr]
    obtain ⟨e1, e2⟩ := reflectivity_eq l ha hc.taua he (hc.refl _ _ hr)
    have := pointAt_refl c l X k q t kq
    rw [e, h, ok_bind, e1, ok_bind] at this
    simp only [Conf.reflected, hr]
    exact ⟨this, e2⟩

theorem Conf.Good.kinematic {c : Conf} (h : c.Good) : ({ c with refl := none } : Conf).Good :=
  ⟨⟨h.mosaics.m, h.mosaics.mv, h.mosaics.a, h.mosaics.av⟩,
    fun hp => ⟨(h.arms hp).l0, (h.arms hp).l1, (h.arms hp).l2, (h.arms hp).l3, (h.arms hp).mon⟩, h.bshape, h.mshape, h.ashape, h.dshape,
    h.monitorshape, h.taua, fun _ _ h => nomatch h⟩

end Verif.Resolution
