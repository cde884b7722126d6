import Verif.Resolution.MirrorSides

/-! # Property C199: the mirror image of an instrument -/

namespace Verif.Resolution

open Real Matrix
open Verif.Crystal (Fail npSqrt npArcsin npDiv)
open Verif.Tools (arctan2 SPD Closes)

/-- A matrix of second moments or of a quadratic form, seen in a mirror that exchanges left and right: the second
coordinate changes sign. -/
def leftRight {n : ℕ} (M : Matrix (Fin n) (Fin n) ℝ) : Matrix (Fin n) (Fin n) ℝ :=
  Matrix.of fun i j => if (i : ℕ) = 1 ↔ (j : ℕ) = 1 then M i j else -M i j

/-- The mirror image of a sample shape. -/
def Shape.image : Shape → Shape
  | .one M => .one (leftRight M)
  | .stack l => .stack (l.map leftRight)

/-- The mirror image of an instrument: all three scattering senses are reversed and the shape of the sample is seen in
the mirror. -/
def Settings.image (s : Settings) : Settings :=
  { s with
    mono := { s.mono with dir := -s.mono.dir }
    ana := { s.ana with dir := -s.ana.dir }
    sample := { s.sample with dir := -s.sample.dir, shape := s.sample.shape.map Shape.image } }

theorem leftRight_m3 (M : M3) : leftRight M = flipBy m3 M := by
  ext i j
  rw [flipBy_apply, leftRight, of_apply]
  fin_cases i <;> fin_cases j <;> simp [m3]

theorem leftRight_m4 (M : M4) : leftRight M = flipBy m4 M := by
  ext i j
  rw [flipBy_apply, leftRight, of_apply]
  fin_cases i <;> fin_cases j <;> simp [m4]

/-- The values fixed before the loop, for the mirror image. -/
def Conf.image (c : Conf) : Conf := { c with sm := -c.sm, ss := -c.ss, sa := -c.sa }

theorem decode_image (s : Settings) : decode s.image = (decode s).map Conf.image := by
  unfold decode
  have e : decodeArms s.image = decodeArms s := rfl
  rw [e]
  cases decodeArms s <;> rfl

theorem pointAt_image (c : Conf) (l : Loop) (X : M3) (k : Kin) (q : ℝ) : pointAt c.image l X k q = pointAt c l X k q := rfl

theorem shape_image (s : Settings) (ind : ℕ) : sshapeAt s.image.sample ind = (sshapeAt s.sample ind).map (flipBy m3) := by
  rcases hs : s.sample with ⟨m, vm, w, d, h, t, sh, dir⟩
  have hd (x : Fin 3 → ℝ) : diagonal x = flipBy m3 (diagonal x) := (reflected_diagonal signs_m3 x).eq
  have h1 : (1 : M3) = flipBy m3 1 := by rw [← diagonal_one]; exact hd _
  have sm (x : ℝ) (M : M3) : x • leftRight M = flipBy m3 (x • M) := by
    rw [leftRight_m3]
    ext i j
    rw [Matrix.smul_apply, flipBy_apply, flipBy_apply, Matrix.smul_apply, smul_eq_mul, smul_eq_mul]
    ring
  simp only [Settings.image, hs]
  cases w with
  | some w =>
    cases d with
    | some d =>
      cases h with
      | some h => exact congrArg Except.ok (hd _)
      | none =>
        rcases sh with _ | (M | st)
        · exact congrArg Except.ok h1
        · exact congrArg Except.ok (sm _ M)
        · simp only [sshapeAt, Option.map_some, Shape.image, List.getElem?_map]
          cases st[ind]? with
          | none => rfl
          | some M => exact congrArg Except.ok (sm _ M)
    | none =>
      rcases sh with _ | (M | st)
      · exact congrArg Except.ok h1
      · exact congrArg Except.ok (sm _ M)
      · simp only [sshapeAt, Option.map_some, Shape.image, List.getElem?_map]
        cases st[ind]? with
        | none => rfl
        | some M => exact congrArg Except.ok (sm _ M)
  | none =>
    rcases sh with _ | (M | st)
    · exact congrArg Except.ok h1
    · exact congrArg Except.ok (sm _ M)
    · simp only [sshapeAt, Option.map_some, Shape.image, List.getElem?_map]
      cases st[ind]? with
      | none => rfl
      | some M => exact congrArg Except.ok (sm _ M)

theorem arctan2_mirror (y x : ℝ) : cos (arctan2 (-y) x) = cos (arctan2 y x) ∧ sin (arctan2 (-y) x) = -sin (arctan2 y x) := by
  obtain ⟨h1, h2⟩ := Verif.Angles.arctan2_polar y x
  obtain ⟨h3, h4⟩ := Verif.Angles.arctan2_polar (-y) x
  rw [neg_sq] at h3 h4
  by_cases h : √(x ^ 2 + y ^ 2) = 0
  · rw [h, zero_mul] at h1 h2
    rw [← h1, ← h2]
    simp [arctan2, Complex.arg, ← Complex.ofReal_zero]
  · constructor
    · exact mul_left_cancel₀ h (h3.trans h1.symm)
    · refine mul_left_cancel₀ h (h4.trans ?_)
      rw [mul_neg, h2]

/-- The angles of the mirror image of an instrument at a point, if the point can be reached. -/
theorem kinematics_image (c : Conf) (q w : ℝ) : (∃ e, kinematics c q w = .error e ∧ kinematics c.image q w = .error e) ∨
    ∃ k k', kinematics c q w = .ok k ∧ kinematics c.image q w = .ok k' ∧ KinImage k k' := by
  unfold kinematics
  have e1 : c.image.infin = c.infin := rfl
  have e2 : c.image.efixed = c.efixed := rfl
  have e3 : c.image.taum = c.taum := rfl
  have e4 : c.image.taua = c.taua := rfl
  have e5 : c.image.sm = -c.sm := rfl
  have e6 : c.image.sa = -c.sa := rfl
  have e7 : c.image.ss = -c.ss := rfl
  simp only [e1, e2, e3, e4, e5, e6, e7]
  generalize npSqrt ((if 0 < c.infin then c.efixed else c.efixed + w) / convert2) = xi
  generalize npSqrt ((if 0 < c.infin then c.efixed - w else c.efixed) / convert2) = xf
  cases xi with
  | error e => exact Or.inl ⟨e, rfl, rfl⟩
  | ok ki =>
  cases xf with
  | error e => exact Or.inl ⟨e, rfl, rfl⟩
  | ok kf =>
  simp only [ok_bind]
  generalize npDiv c.taum (2 * ki) = x1
  cases x1 with
  | error e => exact Or.inl ⟨e, rfl, rfl⟩
  | ok x1 =>
  simp only [ok_bind]
  generalize npArcsin x1 = x1
  cases x1 with
  | error e => exact Or.inl ⟨e, rfl, rfl⟩
  | ok x1 =>
  simp only [ok_bind]
  generalize npDiv c.taua (2 * kf) = x2
  cases x2 with
  | error e => exact Or.inl ⟨e, rfl, rfl⟩
  | ok x2 =>
  simp only [ok_bind]
  generalize npArcsin x2 = x2
  cases x2 with
  | error e => exact Or.inl ⟨e, rfl, rfl⟩
  | ok x2 =>
  simp only [ok_bind]
  generalize npDiv (ki ^ 2 + kf ^ 2 - q ^ 2) (2 * ki * kf) = x3
  cases x3 with
  | error e => exact Or.inl ⟨e, rfl, rfl⟩
  | ok x =>
  simp only [ok_bind]
  have hs : scatteringAngle x (-c.ss) = (scatteringAngle x c.ss).map fun t => -t := by
    unfold scatteringAngle
    rw [mul_neg, abs_neg, mul_neg]
    split_ifs <;> rfl
  rw [hs]
  cases scatteringAngle x c.ss with
  | error e => exact Or.inl ⟨e, rfl, rfl⟩
  | ok t =>
    have ha := arctan2_mirror (-kf * sin t) (ki - kf * cos t)
    refine Or.inr ⟨_, _, rfl, rfl, rfl, rfl, mul_neg _ _, mul_neg _ _, rfl, ?_, ?_⟩
    · simp only [cos_neg, sin_neg, mul_neg]
      exact ha.1
    · simp only [cos_neg, sin_neg, mul_neg]
      exact ha.2

theorem runLoop_image (s : Settings) (c : Conf) : ∀ (pts : List (ℝ × ℝ)) (ind : ℕ) (l l' : Loop), l'.alpha = l.alpha → l'.beta = l.beta →
    (c.popovici = true → pts.length ≤ 1 ∧ (pts ≠ [] → l' = l)) →
    runLoop c.image s.image.sample ind l' pts = (runLoop c s.sample ind l pts).map (List.map fun r => (r.1, flipBy m4 r.2))
  | [], _, _, _, _, _, _ => rfl
  | (q, w) :: rest, ind, l, l', ha, hb, hp => by
    unfold runLoop
    refine bind_image (shape_image s ind) fun X => ?_
    rcases kinematics_image c q w with ⟨e, h1, h2⟩ | ⟨k, k', h1, h2, hk⟩
    · rw [h1, h2]; rfl
    · rw [h1, h2]
      simp only [ok_bind]
      have hki := hk.ki
      have h0 : pointAt c.image (l'.advance c.image k'.ki) (flipBy m3 X) k' q =
          (pointAt c (l.advance c k.ki) X k q).map fun r => (r.1, flipBy m4 r.2) := by
        rw [pointAt_image]
        let m : Loop := ⟨(l.advance c k.ki).alpha, (l.advance c k.ki).beta, -(l.advance c k.ki).monorh, -(l.advance c k.ki).monorv,
          -(l.advance c k.ki).anarh, -(l.advance c k.ki).anarv⟩
        have hm : LoopImage (l.advance c k.ki) m := ⟨rfl, rfl, rfl, rfl, rfl, rfl⟩
        rw [← point_image hk hm (reflected_flip m3 X)]
        refine pointAt_same ⟨?_, ?_, fun hpp => ?_⟩ _ _ _
        · simp only [Loop.advance, m, ha, hki]
        · simp only [Loop.advance, m, hb, hki]
        · simp only [Loop.advance, m, (hp hpp).2 (List.cons_ne_nil _ _), hki, Conf.image, mul_neg]
      refine bind_image h0 fun r => ?_
      refine bind_image (runLoop_image s c rest (ind + 1) (l.advance c k.ki) (l'.advance c.image k'.ki) ?_ ?_ fun hpp => ?_) fun rs => rfl
      · simp only [Loop.advance, ha, hki]
      · simp only [Loop.advance, hb, hki]
      · have hr : rest = [] := by
          have := (hp hpp).1
          rw [List.length_cons] at this
          exact List.length_eq_zero_iff.1 (by omega)
        exact ⟨by simp [hr], fun h => (h hr).elim⟩

/-- C199 (partial).  The mirror image of an instrument — the three scattering senses reversed, the shape of the sample seen
in the mirror — has the mirrored resolution: the same prefactors and the matrices with the second component of `Q`
reversed, or the same error.  For the Cooper-Nathans method this holds for every list of points; for the Popovici method for one
point at a time.  Missing: lists of points with the Popovici method (`C199_scan_false`). -/
theorem C199_mirror_partial (s : Settings) (pts : List (ℝ × ℝ)) (h : s.popovici = true → pts.length ≤ 1) :
    calcInQ s.image pts = (calcInQ s pts).map (List.map fun r => (r.1, leftRight r.2)) := by
  simp only [leftRight_m4]
  unfold calcInQ
  rw [decode_image]
  cases hd : decode s with
  | error e => rfl
  | ok c =>
    have hc := (decode_fields hd).1
    exact runLoop_image s c pts 0 _ _ rfl rfl fun hp => ⟨h (hc ▸ hp), fun _ => rfl⟩

end Verif.Resolution
