import Verif.Tof.Bench
import Verif.Resolution.PropsWavelength

/-!
# Property C215: a larger time-of-flight instrument with slower choppers
-/

namespace Verif.Tof

open Real Matrix
open Verif.Crystal (Fail Vec npDiv deg2rad)
open Verif.Resolution (M4 npInv)
open Verif.Tools (Arg)
open Verif.Instrument (Chopper)

/-! ## Specification -/

/-- A chopper `s` times as far away that turns `s` times as slowly. -/
noncomputable def Disc.larger (s : ℝ) (d : Disc) : Disc :=
  { d with speed := d.speed / s, tauOverride := d.tauOverride.map (s * ·), distance := s * d.distance }

/-- A guide `s` times as large. -/
noncomputable def Guide.larger (s : ℝ) (g : Guide) : Guide := { g with length := s * g.length, width := s * g.width, height := s * g.height }

/-- Times and lengths that are set are `s` times as large, angles are the same. -/
noncomputable def Overrides.larger (s : ℝ) (o : Overrides) : Overrides :=
  { o with tauP := o.tauP.map (s * ·), tauM := o.tauM.map (s * ·), tauD := o.tauD.map (s * ·), lPm := o.lPm.map (s * ·), lMs := o.lMs.map (s * ·),
           lSd := o.lSd.map (s * ·), sLPm := o.sLPm.map (s * ·), sLMs := o.sLMs.map (s * ·), sLSd := o.sLSd.map (s * ·) }

/-- The instrument with all distances and all times `s` times as large.  The height of the detector is an angle. -/
noncomputable def Inst.larger (s : ℝ) (i : Inst) : Inst :=
  { i with choppers := i.choppers.map (Disc.larger s), guides := i.guides.map (Guide.larger s), over := i.over.larger s,
           sample := { i.sample with distance := i.sample.distance.map (s * ·) },
           detector := { i.detector with radius := s * i.detector.radius, tau := s * i.detector.tau } }

/-! ## Lemmas -/

/-- Times and lengths in SI units, of the larger instrument. -/
noncomputable def Measures.larger (s : ℝ) (m : Measures) : Measures :=
  { m with tauP := s * m.tauP, tauM := s * m.tauM, tauD := s * m.tauD, lPm := s * m.lPm, lMs := s * m.lMs, lSd := s * m.lSd, sLPm := s * m.sLPm,
           sLMs := s * m.sLMs, sLSd := s * m.sLSd }

theorem tau_larger {s : ℝ} (hs : 0 < s) (d : Disc) : (d.larger s).toChopper.tau = d.toChopper.tau.map (s * ·) := by
  have hd (x y z : ℝ) (h : z = y / s) : Verif.Instrument.pyDiv x z = (Verif.Instrument.pyDiv x y).map (s * ·) := by
    unfold Verif.Instrument.pyDiv
    subst h
    by_cases h0 : y = 0
    · rw [if_pos h0, if_pos (by rw [h0, zero_div])]
      rfl
    · rw [if_neg h0, if_neg (div_ne_zero h0 hs.ne')]
      refine congrArg Except.ok ?_
      show x / (y / s) = s * (x / y)
      field_simp
  obtain ⟨⟨sp, w, kind, acc, cr, rad, dep, ov⟩, dist⟩ := d
  unfold Disc.larger Chopper.tau
  dsimp only
  cases ov with
  | some t => rfl
  | none =>
    dsimp only [Option.map_none]
    by_cases h1 : kind = cs!"disk"
    · rw [if_pos h1, if_pos h1]
      cases rad with
      | some r =>
        dsimp only
        rw [hd acc (r * sp * if cr = true then 2 else 1) _ (by ring)]
        cases Verif.Instrument.pyDiv acc (r * sp * if cr = true then 2 else 1) with
        | error e => rfl
        | ok x => exact congrArg Except.ok (mul_div_assoc _ _ _)
      | none =>
        dsimp only
        rw [hd (10 ^ 6) (sp * acc * if cr = true then 2 else 1) _ (by ring)]
        cases Verif.Instrument.pyDiv (10 ^ 6) (sp * acc * if cr = true then 2 else 1) with
        | error e => rfl
        | ok x => exact congrArg Except.ok (mul_div_assoc _ _ _)
    · rw [if_neg h1, if_neg h1]
      by_cases h2 : kind = cs!"fermi"
      · rw [if_pos h2, if_pos h2]
        cases dep with
        | none => rfl
        | some d =>
          dsimp only
          cases Verif.Instrument.pyDiv acc d with
          | error e => rfl
          | ok q =>
            show (Verif.Instrument.pyDiv (10 ^ 6) (sp / s * 2 * arctan q) >>= _) = (Verif.Instrument.pyDiv (10 ^ 6) (sp * 2 * arctan q) >>= _).map _
            rw [hd (10 ^ 6) (sp * 2 * arctan q) _ (by ring)]
            cases Verif.Instrument.pyDiv (10 ^ 6) (sp * 2 * arctan q) with
            | error e => rfl
            | ok x => exact congrArg Except.ok (mul_div_assoc _ _ _)
      · rw [if_neg h2, if_neg h2]
        rfl

theorem sigmaL_larger {s : ℝ} (hs : 0 < s) (g : Guide) : (g.larger s).sigmaL = s * g.sigmaL := by
  unfold Guide.sigmaL Guide.larger
  dsimp only
  rw [show (s * g.length) ^ 2 + (s * g.width) ^ 2 + (s * g.height) ^ 2 = s ^ 2 * (g.length ^ 2 + g.width ^ 2 + g.height ^ 2) by ring,
    sqrt_mul (by positivity), sqrt_sq hs.le]
  ring

theorem getD_larger (s : ℝ) (o : Option ℝ) (x : ℝ) : (o.map (s * ·)).getD (s * x) = s * o.getD x := by cases o <;> rfl

theorem decode_larger {s : ℝ} (hs : 0 < s) (i : Inst) (lam : ℝ) : decode (i.larger s) lam = (decode i lam).map (Measures.larger s) := by
  obtain ⟨ei, ch, sa, de, gu, thI, phI, ov⟩ := i
  unfold decode Inst.larger
  dsimp only
  rcases ch with _ | ⟨p, _ | ⟨m, ch⟩⟩
  · rfl
  · rfl
  rw [List.map_cons, List.map_cons]
  dsimp only
  simp only [ok_bind]
  rw [tau_larger hs, tau_larger hs]
  cases p.toChopper.tau with
  | error e => rfl
  | ok tp =>
  cases m.toChopper.tau with
  | error e => rfl
  | ok tm =>
  obtain ⟨la, u, v, mo, vmo, dist⟩ := sa
  cases dist with
  | none => rfl
  | some dist =>
  rcases gu with _ | ⟨g, _ | ⟨h, gu⟩⟩
  · rfl
  · rfl
  rw [List.map_cons, List.map_cons]
  simp only [Except.map, ok_bind, Option.map_some]
  rw [Verif.Resolution.npDiv_times hs.ne']
  cases hd : npDiv de.radius (cos (deg2rad (mo.getD 60 / 60))) with
  | error e => rfl
  | ok sl =>
  rw [show (h.larger s).sigmaTheta = h.sigmaTheta from rfl]
  cases h.sigmaTheta with
  | error e => rfl
  | ok st =>
  cases npMax de.height with
  | error e => rfl
  | ok top =>
  simp only [lift, ok_bind]
  cases npDiv top de.vpixels with
  | error e => rfl
  | ok pix =>
  refine congrArg Except.ok ?_
  have e1 : |s * p.distance - s * m.distance| = s * |p.distance - m.distance| := by rw [← mul_sub, abs_mul, abs_of_pos hs]
  have e2 : s * sl - s * de.radius = s * (sl - de.radius) := by ring
  simp only [Measures.larger, Overrides.larger, sigmaL_larger hs, Disc.larger, e1, e2, getD_larger, mul_div_assoc]

/-- By what the uncertainties are larger. -/
noncomputable def largerSigmas (s : ℝ) : Fin 9 → ℝ := ![s, s, s, s, s, 1, 1, 1, 1]

theorem sigmas_larger {s : ℝ} (hs : 0 < s) (m : Measures) (j : Fin 9) : sigmas (m.larger s) j = largerSigmas s j * sigmas m j := by
  have r (x y : ℝ) : √((s * x) ^ 2 + (s * y) ^ 2) = s * √(x ^ 2 + y ^ 2) := by
    rw [mul_pow, mul_pow, ← mul_add, sqrt_mul (by positivity), sqrt_sq hs.le]
  fin_cases j
  · exact r _ _
  · exact r _ _
  · rfl
  · rfl
  · rfl
  · exact (one_mul _).symm
  · exact (one_mul _).symm
  · exact (one_mul _).symm
  · exact (one_mul _).symm

theorem matR_larger (s : ℝ) (f : Form) (m : Measures) (k : Kin) : matR f (m.larger s) k = matR f m k := rfl

section
variable {s : ℝ} (hs : s ≠ 0) (a b : ℝ)
include hs

theorem larger_32 : (s * a) ^ 2 / (s * b) ^ 3 = s⁻¹ * (a ^ 2 / b ^ 3) := by
  rw [mul_pow, mul_pow, mul_div_mul_comm]
  congr 1
  field_simp

theorem larger_12 : s * a / (s * b) ^ 2 = s⁻¹ * (a / b ^ 2) := by
  rw [mul_pow, mul_div_mul_comm]
  congr 1
  field_simp

end

theorem eDerivs_larger {s : ℝ} (hs : 0 < s) (c : Consts) (m : Measures) (ti tf : ℝ) (j : Fin 9) :
    eDerivs c (m.larger s) (s * ti) (s * tf) j = (largerSigmas s j)⁻¹ * eDerivs c m ti tf j := by
  have h := hs.ne'
  have e32 := larger_32 h m.lSd tf
  have e32' := larger_32 h m.lPm ti
  have e12 := larger_12 h m.lPm ti
  have e12' := larger_12 h m.lSd tf
  have e11 : s * m.lMs / (s * m.lPm) = m.lMs / m.lPm := mul_div_mul_left _ _ h
  have e11' : s * ti / (s * m.lPm) = ti / m.lPm := mul_div_mul_left _ _ h
  have e21 : s * ti / (s * m.lPm) ^ 2 * (s * m.lMs) = ti / m.lPm ^ 2 * m.lMs := by
    rw [larger_12 h]
    field_simp
  fin_cases j
  · show -c.mn * ((s * m.lPm) ^ 2 / (s * ti) ^ 3 + (s * m.lSd) ^ 2 / (s * tf) ^ 3 * (s * m.lMs) / (s * m.lPm)) / (1e-3 * c.e) = s⁻¹ * (-c.mn * _ / _)
    rw [mul_div_assoc _ (s * m.lMs), e11, e32, e32']
    ring
  · show c.mn * ((s * m.lSd) ^ 2 / (s * tf) ^ 3) / (1e-3 * c.e) = s⁻¹ * (c.mn * _ / _)
    rw [e32]
    ring
  · show c.mn * (s * m.lPm / (s * ti) ^ 2 + (s * m.lSd) ^ 2 / (s * tf) ^ 3 * (s * ti) / (s * m.lPm) ^ 2 * (s * m.lMs)) / (1e-3 * c.e) = s⁻¹ * (c.mn * _ / _)
    rw [mul_div_assoc _ (s * ti), mul_assoc (_ / _), e21, e12, e32]
    ring
  · show -c.mn * ((s * m.lSd) ^ 2 / (s * tf) ^ 3 * (s * ti) / (s * m.lPm)) / (1e-3 * c.e) = s⁻¹ * (-c.mn * _ / _)
    rw [mul_div_assoc _ (s * ti), e11', e32]
    ring
  · show -c.mn * (s * m.lSd / (s * tf) ^ 2) / (1e-3 * c.e) = s⁻¹ * (-c.mn * _ / _)
    rw [e12']
    ring
  all_goals exact (mul_zero _).symm

theorem matRttI_larger (s : ℝ) (m : Measures) : matRttI (m.larger s) = matRttI m := rfl

theorem matRphI_larger (s : ℝ) (m : Measures) : matRphI (m.larger s) = matRphI m := rfl

theorem lMs_larger (s : ℝ) (m : Measures) : (m.larger s).lMs = s * m.lMs := rfl

theorem lPm_larger (s : ℝ) (m : Measures) : (m.larger s).lPm = s * m.lPm := rfl

theorem lSd_larger (s : ℝ) (m : Measures) : (m.larger s).lSd = s * m.lSd := rfl

theorem kinematics_larger (s : ℝ) (c : Consts) (i : Inst) (Q : Vec) (W : ℝ) : kinematics c (i.larger s) Q W = kinematics c i Q W := by
  unfold kinematics
  rw [show (i.larger s).ei = i.ei from rfl, show (i.larger s).sample.lattice = i.sample.lattice from rfl,
    show (i.larger s).sample.u = i.sample.u from rfl, show (i.larger s).sample.v = i.sample.v from rfl]

theorem qDerivs_larger {s : ℝ} (hs : 0 < s) (c : Consts) (f : Form) (m : Measures) (k : Kin) (ti tf : ℝ) (j : Fin 9) (a : Fin 3) :
    qDerivs c f (m.larger s) k (s * ti) (s * tf) j a = (largerSigmas s j)⁻¹ * qDerivs c f m k ti tf j a := by
  have h := hs.ne'
  have e11 : s * m.lMs / (s * m.lPm) = m.lMs / m.lPm := mul_div_mul_left _ _ h
  unfold qDerivs
  rw [matR_larger, matRttI_larger, matRphI_larger, lMs_larger, lPm_larger]
  generalize matR f m k = r
  generalize matRttI m *ᵥ _ = v5
  generalize matRphI m *ᵥ _ = v6
  generalize matRtt f k *ᵥ _ = v7
  generalize matRph f k *ᵥ _ = v8
  have two (x y x' y' : ℝ) (hx : x' = s⁻¹ * x) (hy : y' = s⁻¹ * y) : (r *ᵥ ![x', y']) a = s⁻¹ * (r *ᵥ ![x, y]) a := by
    subst hx hy
    simp only [Matrix.mulVec, dotProduct, Fin.sum_univ_two, cons_val_zero, cons_val_one]
    ring
  have one (v : Fin 3 → ℝ) : v a = (1 : ℝ)⁻¹ * v a := by rw [inv_one, one_mul]
  fin_cases j
  · refine two _ _ _ _ (by ring) ?_
    rw [mul_div_assoc _ (s * m.lMs), e11]
    ring
  · exact two _ _ _ _ (mul_zero _).symm (by ring)
  · refine two _ _ _ _ (by ring) ?_
    rw [mul_div_assoc _ (s * m.lMs), mul_left_comm k.vi s, mul_div_mul_left _ _ h]
    ring
  · exact two _ _ _ _ (mul_zero _).symm (by ring)
  · exact two _ _ _ _ (mul_zero _).symm (by ring)
  · exact one v5
  · exact one v6
  · exact one v7
  · exact one v8

theorem covariance_larger {s : ℝ} (hs : 0 < s) (c : Consts) (f : Form) (m : Measures) (k : Kin) (ti tf : ℝ) :
    covariance (jacobi c f (m.larger s) k (s * ti) (s * tf)) (sigmas (m.larger s)) = covariance (jacobi c f m k ti tf) (sigmas m) := by
  have hw (j : Fin 9) : largerSigmas s j ≠ 0 := by
    fin_cases j
    all_goals first | exact hs.ne' | exact one_ne_zero
  have hj (a : Fin 4) (j : Fin 9) : jacobi c f (m.larger s) k (s * ti) (s * tf) a j = (largerSigmas s j)⁻¹ * jacobi c f m k ti tf a j := by
    unfold jacobi
    fin_cases a
    · exact (congrArg (· * _) (qDerivs_larger hs c f m k ti tf j 0)).trans (mul_assoc _ _ _)
    · exact (congrArg (· * _) (qDerivs_larger hs c f m k ti tf j 1)).trans (mul_assoc _ _ _)
    · exact (congrArg (· * _) (qDerivs_larger hs c f m k ti tf j 2)).trans (mul_assoc _ _ _)
    · exact eDerivs_larger hs c m ti tf j
  unfold covariance
  ext a b
  rw [Matrix.mul_apply, Matrix.mul_apply]
  refine Finset.sum_congr rfl fun j _ => ?_
  rw [mul_diagonal, mul_diagonal, transpose_apply, transpose_apply, hj, hj, sigmas_larger hs]
  have := hw j
  field_simp

theorem larger_error {α β : Type} (e : Err) (f : α → Except Err β) : ((.error e : Except Err α) >>= f) = .error e := rfl

/-- C215.  Let all distances of a time-of-flight instrument, sections of the guides and the spread of lengths, and all times be `s` times as large, the choppers
turning `s` times as slowly.  Then `calc_resolution_in_Q_coords` returns the same prefactor and matrix, or raises the same error, at every point. -/
theorem C215_larger {s : ℝ} (hs : 0 < s) (c : Consts) (i : Inst) (Q : Vec) (W : ℝ) : calcInQ c (i.larger s) Q W = calcInQ c i Q W := by
  unfold calcInQ
  rw [kinematics_larger, show (i.larger s).ei = i.ei from rfl, show (i.larger s).sample.lattice = i.sample.lattice from rfl,
    show formOf (i.larger s).detector = formOf i.detector from rfl]
  refine bind_congr fun lam => ?_
  rw [decode_larger hs]
  cases decode i lam with
  | error e => exact (larger_error _ _).trans (larger_error _ _).symm
  | ok m =>
  rw [show Except.map (Measures.larger s) (.ok m : Except Err Measures) = .ok (m.larger s) from rfl, ok_bind, ok_bind]
  refine bind_congr fun k => ?_
  have hz (x : ℝ) : s * x = 0 ↔ x = 0 := by simp [hs.ne']
  rw [lPm_larger, lSd_larger, Verif.Resolution.npDiv_times hs.ne', Verif.Resolution.npDiv_times hs.ne']
  cases npDiv m.lPm k.vi with
  | error e => exact (larger_error (.fail e) _).trans (larger_error (.fail e) _).symm
  | ok ti =>
  rw [show lift (Except.ok ti >>= fun z => pure (s * z)) = .ok (s * ti) from rfl, show lift (Except.ok ti) = .ok ti from rfl, ok_bind, ok_bind]
  cases npDiv m.lSd k.vf with
  | error e => exact (larger_error (.fail e) _).trans (larger_error (.fail e) _).symm
  | ok tf =>
  rw [show lift (Except.ok tf >>= fun z => pure (s * z)) = .ok (s * tf) from rfl, show lift (Except.ok tf) = .ok tf from rfl, ok_bind, ok_bind]
  simp only [covariance_larger hs, hz]

/-- The case of C215 is met: the example has a result at an inelastic point, and so has the instrument twice as large, whose detector is twice as far. -/
example (c : Consts) : (∃ r0 RM, calcInQ c (bench c cs!"spherical" {}) ![1, 0, 0] (Verif.Tools.kinetic c.scipy 1 - Verif.Tools.kinetic c.scipy (1 / 2)) = .ok (r0, RM) ∧
      calcInQ c ((bench c cs!"spherical" {}).larger 2) ![1, 0, 0] (Verif.Tools.kinetic c.scipy 1 - Verif.Tools.kinetic c.scipy (1 / 2)) = .ok (r0, RM)) ∧
    ((bench c cs!"spherical" {}).larger 2).detector.radius = 600 := by
  obtain ⟨-, ⟨r0, RM, h⟩, -⟩ := bench_points c spherical_form none
  refine ⟨⟨r0, RM, h, ?_⟩, ?_⟩
  · rw [C215_larger two_pos]
    exact h
  · show (2 : ℝ) * 300 = 600
    norm_num

/-- C215 for `calc_resolution`: the stored results, in the frame of Q and in that of the crystal. -/
theorem C215_crystal {s : ℝ} (hs : 0 < s) (c : Consts) (i : Inst) (H K L W : Arg ℝ) :
    calcResolution c (i.larger s) H K L W = calcResolution c i H K L W := by
  have e : pointAt c (i.larger s) = pointAt c i := by
    funext p
    unfold pointAt
    rw [C215_larger hs]
    rfl
  unfold calcResolution
  rw [e]

end Verif.Tof
