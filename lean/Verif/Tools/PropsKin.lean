import Verif.Tools.Model
import Verif.Energy.Props
import Mathlib.Analysis.Complex.Norm
import Mathlib.Analysis.Complex.Trigonometric

/-!
# Properties C57–C59: the scattering triangle, the free wavevector, `chop`
-/

namespace Verif.Tools

open Real
open Verif.Crystal (Fail npSqrt npArccos npDiv)

/-! ## C57 -/

/-- Three lengths close a triangle: there are two wavevectors in the plane with these lengths whose
difference has length `Q`. -/
def Closes (ki kf Q : ℝ) : Prop := ∃ u v : ℂ, ‖u‖ = ki ∧ ‖v‖ = kf ∧ ‖u - v‖ = Q

/-- With `ki` along the real axis, the momentum transfer at the angle `a` leads to a final wavevector of
length `kf`. -/
def ClosesAt (ki kf Q a : ℝ) : Prop := ‖(ki : ℂ) - Q * Complex.exp (a * Complex.I)‖ = kf

theorem normSq_triangle (ki Q a : ℝ) :
    ‖(ki : ℂ) - Q * Complex.exp (a * Complex.I)‖ ^ 2 = ki ^ 2 + Q ^ 2 - 2 * ki * Q * cos a := by
  rw [← Complex.normSq_eq_norm_sq, Complex.normSq_apply]
  simp only [Complex.sub_re, Complex.sub_im, Complex.mul_re, Complex.mul_im, Complex.ofReal_re,
    Complex.ofReal_im, Complex.exp_ofReal_mul_I_re, Complex.exp_ofReal_mul_I_im]
  nlinarith [sin_sq_add_cos_sq a]

theorem closes_iff {ki kf Q : ℝ} (hki : 0 < ki) (hkf : 0 ≤ kf) (hQ : 0 < Q) :
    Closes ki kf Q ↔ |(ki ^ 2 - kf ^ 2 + Q ^ 2) / (2 * ki * Q)| ≤ 1 := by
  have h2 : 0 < 2 * ki * Q := by positivity
  rw [abs_le, le_div_iff₀ h2, div_le_iff₀ h2]
  constructor
  · rintro ⟨u, v, rfl, rfl, rfl⟩
    have h1 := norm_sub_norm_le u (u - v)
    have h3 := norm_le_norm_add_norm_sub' u v
    have h4 := norm_sub_le u v
    have h5 : ‖v‖ ≤ ‖u‖ + ‖u - v‖ := by
      have := norm_sub_le u (u - v)
      simpa using this
    rw [sub_sub_cancel] at h1
    constructor <;> nlinarith [norm_nonneg u, norm_nonneg v, norm_nonneg (u - v)]
  · rintro ⟨h1, h3⟩
    set c := (ki ^ 2 - kf ^ 2 + Q ^ 2) / (2 * ki * Q) with hc
    have hc1 : -1 ≤ c := by rw [hc, le_div_iff₀ h2]; exact h1
    have hc2 : c ≤ 1 := by rw [hc, div_le_iff₀ h2]; exact h3
    refine ⟨ki, ki - Q * Complex.exp (arccos c * Complex.I), ?_, ?_, ?_⟩
    · rw [Complex.norm_real, norm_of_nonneg hki.le]
    · refine (sq_eq_sq₀ (norm_nonneg _) hkf).1 ?_
      rw [normSq_triangle, cos_arccos hc1 hc2, hc]
      field_simp
      ring
    · rw [sub_sub_cancel, norm_mul, Complex.norm_real, norm_of_nonneg hQ.le, Complex.norm_exp_ofReal_mul_I, mul_one]

theorem getAngle_pos {ki kf Q g : ℝ} (hki : 0 < ki) (hQ : 0 < Q) (outside : Bool) :
    getAngleKiQ ki kf Q g outside =
      if |(ki ^ 2 - kf ^ 2 + Q ^ 2) / (2 * ki * Q)| > 1 then .error .scatteringTriangleError
      else .ok ((if outside then π - arccos ((ki ^ 2 - kf ^ 2 + Q ^ 2) / (2 * ki * Q))
        else arccos ((ki ^ 2 - kf ^ 2 + Q ^ 2) / (2 * ki * Q))) * SignType.sign g) := by
  unfold getAngleKiQ
  have h2 : 2 * ki * Q ≠ 0 := by positivity
  simp only [if_neg hQ.ne', npDiv, if_neg h2, ok_bind]
  split_ifs <;> rfl

/-- **C57** (partial: `Q = 0` is excepted, see `C57_zero`) for a positive momentum transfer the function succeeds exactly if the triangle closes. -/
theorem C57_error_partial {ki kf Q g : ℝ} (hki : 0 < ki) (hkf : 0 ≤ kf) (hQ : 0 < Q) (outside : Bool) :
    (Closes ki kf Q → ∃ a, getAngleKiQ ki kf Q g outside = .ok a) ∧
    (¬ Closes ki kf Q → getAngleKiQ ki kf Q g outside = .error .scatteringTriangleError) := by
  rw [closes_iff hki hkf hQ, getAngle_pos hki hQ]
  constructor
  · intro h
    exact ⟨_, if_neg (not_lt.2 h)⟩
  · intro h
    exact if_pos (not_le.1 h)

/-- **C57** (partial: `Q = 0` is excepted, see `C57_zero`) the angle closes the triangle and has the sign of the goniometer direction. -/
theorem C57_angle_partial {ki kf Q g a : ℝ} (hki : 0 < ki) (hkf : 0 ≤ kf) (hQ : 0 < Q) (hg : g ≠ 0)
    (h : getAngleKiQ ki kf Q g false = .ok a) :
    ClosesAt ki kf Q a ∧ kf ^ 2 = ki ^ 2 + Q ^ 2 - 2 * ki * Q * cos a ∧ |a| ≤ π ∧
      (0 < g → 0 ≤ a) ∧ (g < 0 → a ≤ 0) := by
  rw [getAngle_pos hki hQ, if_neg Bool.false_ne_true] at h
  split_ifs at h with hc
  set c := (ki ^ 2 - kf ^ 2 + Q ^ 2) / (2 * ki * Q) with hcdef
  obtain ⟨hc1, hc2⟩ := abs_le.1 (not_lt.1 hc)
  replace h : a = arccos c * SignType.sign g := (Except.ok.inj h).symm
  have hcos : cos a = c := by
    rw [h]
    rcases lt_or_gt_of_ne hg with hg | hg
    · rw [sign_neg hg]
      simp [cos_arccos hc1 hc2]
    · rw [sign_pos hg]
      simp [cos_arccos hc1 hc2]
  have hlaw : kf ^ 2 = ki ^ 2 + Q ^ 2 - 2 * ki * Q * cos a := by
    rw [hcos, hcdef]
    field_simp
    ring
  refine ⟨?_, hlaw, ?_, ?_, ?_⟩
  · refine (sq_eq_sq₀ (norm_nonneg _) hkf).1 ?_
    rw [normSq_triangle, hlaw]
  · rw [h, abs_mul, abs_of_nonneg (arccos_nonneg c)]
    have : |((SignType.sign g : SignType) : ℝ)| ≤ 1 := by
      rcases lt_or_gt_of_ne hg with hg | hg
      · rw [sign_neg hg]; simp
      · rw [sign_pos hg]; simp
    nlinarith [arccos_nonneg c, arccos_le_pi c]
  · intro hg
    rw [h, sign_pos hg]
    simpa using arccos_nonneg c
  · intro hg
    rw [h, sign_neg hg]
    simpa using arccos_nonneg c

example : Closes 2 2 2 := by
  rw [closes_iff (by norm_num) (by norm_num) (by norm_num)]
  norm_num

/-- **C57** is false at `Q = 0`: an angle is returned although no triangle exists for different
wavevectors. -/
theorem C57_zero : ¬ Closes 2 1 0 ∧ getAngleKiQ 2 1 0 1 false = .ok (π / 2) := by
  constructor
  · rintro ⟨u, v, h1, h2, h3⟩
    rw [norm_eq_zero, sub_eq_zero] at h3
    rw [h3, h2] at h1
    norm_num at h1
  · simp only [getAngleKiQ, if_true]
    simp only [pure_ok, ok_bind, Bool.false_eq_true, if_false]
    rw [sign_pos (by norm_num)]
    simp

/-! ## C58 -/

/-- The kinetic energy in meV of a neutron of wavevector `k` in 1/Å. -/
noncomputable def kinetic (c : Verif.Energy.Consts) (k : ℝ) : ℝ := (c.hbar * (k * 1e10)) ^ 2 / (2 * c.m) * c.J

theorem kinetic_eq (c : Verif.Energy.Consts) (k : ℝ) : kinetic c k = kinetic c 1 * k ^ 2 := by
  unfold kinetic
  ring

theorem kinetic_one_pos (c : Verif.Energy.Consts) : 0 < kinetic c 1 := by
  have := Verif.Energy.hbar_pos c
  have := c.m_pos
  have := c.J_pos
  unfold kinetic
  positivity

theorem wavevec_kinetic (c : Verif.Energy.Consts) {W : ℝ} (hW : 0 ≤ W) :
    ∃ kE, (Verif.Energy.derive c W).wavevec = .num kE ∧ kinetic c kE = W := by
  rcases hW.eq_or_lt with rfl | hW
  · exact ⟨0, by simp [Verif.Energy.derive], by simp [kinetic]⟩
  · obtain ⟨lam, kk, v, -, h1, -, -, -, -, -, -, -, -, -, h2, -⟩ := Verif.Energy.derive_consistent c hW
    refine ⟨kk, h1, ?_⟩
    unfold kinetic
    rw [← h2]
    simp only [Verif.Energy.derive]
    exact div_mul_cancel₀ _ c.J_pos.ne'

/-- The energy transfer, initial minus final energy, when `kfixed` is the initial (`kiFixed`) or the final
wavevector and `k` is the other one. -/
noncomputable def transfer (c : Verif.Energy.Consts) (kfixed k : ℝ) (kiFixed : Bool) : ℝ :=
  if kiFixed then kinetic c kfixed - kinetic c k else kinetic c k - kinetic c kfixed

/-- **C58** (partial: energy loss and elastic scattering only) the wavevector returned conserves
energy, and an error is raised exactly if no wavevector does. Missing: energy gain, see `C58_gain`. -/
theorem C58_loss_partial (c : Verif.Energy.Consts) {W kfixed : ℝ} (hW : 0 ≤ W) (kiFixed : Bool) :
    (∀ r, getKfree c W kfixed kiFixed = .ok r → ∃ k, r = .num k ∧ 0 ≤ k ∧ transfer c kfixed k kiFixed = W) ∧
    ((∃ e, getKfree c W kfixed kiFixed = .error e) ↔ ¬ ∃ k, transfer c kfixed k kiFixed = W) ∧
    ∀ e, getKfree c W kfixed kiFixed = .error e → e = .scatteringTriangleError := by
  obtain ⟨kE, h1, h2⟩ := wavevec_kinetic c hW
  have hp := kinetic_one_pos c
  have hform : getKfree c W kfixed kiFixed =
      if (if kiFixed then -kE ^ 2 else kE ^ 2) + kfixed ^ 2 < 0 then .error .scatteringTriangleError
      else .ok (.num √((if kiFixed then -kE ^ 2 else kE ^ 2) + kfixed ^ 2)) := by
    unfold getKfree Verif.Energy.create Verif.Energy.update Verif.Energy.energyOf
    simp only [ok_bind, pure_ok, h1]
  have htr : ∀ k, transfer c kfixed k kiFixed = W ↔ k ^ 2 = (if kiFixed then -kE ^ 2 else kE ^ 2) + kfixed ^ 2 := by
    intro k
    unfold transfer
    rw [← h2, kinetic_eq c k, kinetic_eq c kfixed, kinetic_eq c kE]
    cases kiFixed <;> simp only [Bool.false_eq_true, if_true, if_false]
    · rw [← mul_sub, mul_right_inj' hp.ne']
      constructor <;> intro h <;> linarith
    · rw [← mul_sub, mul_right_inj' hp.ne']
      constructor <;> intro h <;> linarith
  rw [hform]
  generalize (if kiFixed then -kE ^ 2 else kE ^ 2) + kfixed ^ 2 = x at htr
  split_ifs with hx
  · refine ⟨fun r h => (nomatch h), ⟨fun _ => ?_, fun _ => ⟨_, rfl⟩⟩, fun e h => ?_⟩
    · rintro ⟨k, hk⟩
      rw [htr] at hk
      nlinarith [sq_nonneg k]
    · exact (Except.error.inj h).symm
  · refine ⟨fun r h => ?_, ⟨fun ⟨e, h⟩ => (nomatch h), fun h => ?_⟩, fun e h => (nomatch h)⟩
    · exact ⟨√x, (Except.ok.inj h).symm, sqrt_nonneg x, (htr _).2 (sq_sqrt (not_lt.1 hx))⟩
    · exact absurd ⟨√x, (htr _).2 (sq_sqrt (not_lt.1 hx))⟩ h

/-- **C58** is false for energy gain: the result is `nan` for every fixed wavevector and in both modes, although a
wavevector exists when the initial one is fixed. -/
theorem C58_gain (c : Verif.Energy.Consts) {W : ℝ} (hW : W < 0) (kfixed : ℝ) (kiFixed : Bool) :
    getKfree c W kfixed kiFixed = .ok .nan ∧ ∃ k, transfer c kfixed k true = W := by
  constructor
  · have h1 : (Verif.Energy.derive c W).wavevec = .nan := by
      have hneg : ¬ 0 ≤ c.h ^ 2 / (2 * c.m * W / c.J) := by
        rw [not_le]
        have := c.h_pos
        have := c.m_pos
        have := c.J_pos
        refine div_neg_of_pos_of_neg (by positivity) (div_neg_of_neg_of_pos ?_ c.J_pos)
        exact mul_neg_of_pos_of_neg (by positivity) hW
      simp only [Verif.Energy.derive, if_neg hW.ne, Verif.Energy.wavelenOf, Verif.Energy.npSqrt, if_neg hneg,
        Verif.Energy.Num.scale, Verif.Energy.divBy]
    unfold getKfree Verif.Energy.create Verif.Energy.update Verif.Energy.energyOf
    simp only [ok_bind, pure_ok, h1]
  · have hp := kinetic_one_pos c
    refine ⟨√(kfixed ^ 2 - W / kinetic c 1), ?_⟩
    unfold transfer
    rw [if_pos rfl, kinetic_eq c √_, kinetic_eq c kfixed, sq_sqrt]
    · field_simp
      ring
    · have := div_neg_of_neg_of_pos hW hp
      nlinarith [sq_nonneg kfixed]

/-! ## C59 -/

mutual
/-- What `chop` is documented to do: every number within the tolerance of zero becomes zero. -/
def chopSpec (tol : ℚ) : Val → Val
  | .real x => .real (if |x| < tol then 0 else x)
  | .complex re im => .complex (if |re| < tol then 0 else re) (if |im| < tol then 0 else im)
  | .array l => .array (l.map fun x => if |x| < tol then 0 else x)
  | .carray l => .carray (l.map fun z => (if |z.1| < tol then 0 else z.1, if |z.2| < tol then 0 else z.2))
  | .tup l => .tup (chopSpecL tol l)
  | .lst l => .lst (chopSpecL tol l)
  | .other => .other
/-- `chopSpec` for the items of a container. -/
def chopSpecL (tol : ℚ) : List Val → List Val
  | [] => []
  | v :: r => chopSpec tol v :: chopSpecL tol r
end

mutual
/-- All scalars that are not in an array are non-negative, and no complex one lacks an imaginary part. -/
def NonNeg : Val → Prop
  | .real x => 0 ≤ x
  | .complex re im => 0 ≤ re ∧ 0 < im
  | .array _ | .carray _ | .other => True
  | .tup l | .lst l => NonNegL l
/-- `NonNeg` for the items of a container. -/
def NonNegL : List Val → Prop
  | [] => True
  | v :: r => NonNeg v ∧ NonNegL r
end

/-- **C59** (partial: result only, arrays) arrays are chopped as documented, for any tolerance. -/
theorem C59_array_partial (tol : ℚ) (l : List ℚ) (m : List (ℚ × ℚ)) :
    (chop tol (.array l)).map Prod.fst = some (chopSpec tol (.array l)) ∧
    chop tol (.carray m) = some (chopSpec tol (.carray m), .carray m) := by
  constructor
  · simp only [chop, chopSpec, Option.map_some]
    rfl
  · simp only [chop, chopSpec]
    rfl

theorem zapScalar_eq {tol x : ℚ} (h : 0 ≤ x) : zapScalar tol x = if |x| < tol then 0 else x := by
  rw [abs_of_nonneg h]
  rfl

mutual
theorem chop_spec (tol : ℚ) (ht : tol = defaultTol) : ∀ v, NonNeg v → ∃ w, chop tol v = some (chopSpec tol v, w)
  | .real x, h => ⟨_, by rw [chop, chopSpec, zapScalar_eq h]⟩
  | .complex re im, h => ⟨_, by
      obtain ⟨h1, h2⟩ := h
      rw [chop, chopSpec, zapScalar_eq h1, zapScalar_eq h2.le, if_pos h2.ne']⟩
  | .array l, _ => ⟨_, by rw [chop, chopSpec]; rfl⟩
  | .carray l, _ => ⟨_, by rw [chop, chopSpec]; rfl⟩
  | .other, _ => ⟨_, by rw [chop, chopSpec]⟩
  | .tup l, h => by
    obtain ⟨w, hw⟩ := chopL_spec tol ht l h
    exact ⟨_, by rw [chop, chopSpec, hw]; rfl⟩
  | .lst l, h => by
    obtain ⟨w, hw⟩ := chopL_spec tol ht l h
    exact ⟨_, by rw [chop, chopSpec, hw]; rfl⟩
theorem chopL_spec (tol : ℚ) (ht : tol = defaultTol) : ∀ l, NonNegL l → ∃ w, chopL l = some (chopSpecL tol l, w)
  | [], _ => ⟨_, by rw [chopL, chopSpecL]⟩
  | v :: r, h => by
    obtain ⟨w1, h1⟩ := chop_spec tol ht v h.1
    obtain ⟨w2, h2⟩ := chopL_spec tol ht r h.2
    rw [ht] at h1
    rw [ht] at h2
    exact ⟨_, by rw [chopL, chopSpecL, ht, h1, h2]⟩
end

/-- **C59** (partial) with the default tolerance, containers nested to any depth are chopped as
documented if their scalars outside arrays are not negative. Missing: negative scalars
(`C59_negative`), other tolerances in containers (`C59_tolerance`), and that the argument is left alone
(`C59_in_place`). -/
theorem C59_nested_partial (v : Val) (h : NonNeg v) :
    (chop defaultTol v).map Prod.fst = some (chopSpec defaultTol v) := by
  obtain ⟨w, hw⟩ := chop_spec defaultTol rfl v h
  rw [hw]
  rfl

example : NonNeg (.lst [.real 3, .tup [.array [-1, 2], .complex 0 1], .other]) := by
  simp [NonNeg, NonNegL]

/-- **C59** is false for scalars: every negative number becomes zero. -/
theorem C59_negative {tol x : ℚ} (ht : 0 < tol) (hx : x ≤ -tol) :
    chop tol (.real x) = some (.real 0, .real x) ∧ chopSpec tol (.real x) = .real x := by
  rw [chop, chopSpec, zapScalar, if_pos (by linarith), if_neg]
  · exact ⟨rfl, rfl⟩
  · rw [abs_of_nonpos (by linarith)]
    linarith

/-- **C59** is false in containers: the tolerance given is not used for their items. -/
theorem C59_tolerance (tol : ℚ) {x : ℚ} (h1 : defaultTol ≤ x) (h2 : x < tol) :
    (chop tol (.lst [.array [x]])).map Prod.fst = some (.lst [.array [x]]) ∧
    chopSpec tol (.lst [.array [x]]) = .lst [.array [0]] := by
  have h0 : 0 < defaultTol := by norm_num [defaultTol]
  have h3 : |x| = x := abs_of_nonneg (by linarith)
  constructor
  · simp only [chop, chopL, List.map_cons, List.map_nil, zap, h3, if_neg (not_lt.2 h1), Option.map_some]
  · simp only [chopSpec, chopSpecL, List.map_cons, List.map_nil, h3, if_pos h2]

/-- **C59** is false for the argument: a real array is changed in place, and loses its small entries. -/
theorem C59_in_place {tol x : ℚ} (h : |x| < tol) (hx : x ≠ 0) :
    ∃ r w, chop tol (.array [x]) = some (r, w) ∧ w ≠ .array [x] := by
  refine ⟨.array [0], .array [0], by simp only [chop, List.map_cons, List.map_nil, zap, if_pos h], ?_⟩
  intro h
  exact hx (by simpa using h.symm)

/-- **C59** a complex number without imaginary part raises a `TypeError`. -/
theorem C59_type_error (tol re : ℚ) : chop tol (.complex re 0) = none := by
  rw [chop, if_neg (by simp)]

end Verif.Tools
