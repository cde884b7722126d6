import Verif.Instrument.Props

/-!
# Property C236: the time of a chopper and the ways to describe its opening
-/

namespace Verif.Instrument

open Real

/-- The standard deviation in microseconds that belongs to an opening of `deg` degrees, taken as a full width
at half maximum, of a disk with `f` turns in a second, or of two disks with opposite sense. -/
noncomputable def openStd (deg f : ℝ) (counter : Bool) : ℝ :=
  10 ^ 6 * (deg / 360) / (f * if counter then 2 else 1) / √(8 * log 2)

theorem sqrt_eight_log_pos : 0 < √(8 * log 2) := by
  have := log_pos (by norm_num : (1 : ℝ) < 2)
  positivity

theorem counter_pos (b : Bool) : (0 : ℝ) < if b then 2 else 1 := by cases b <;> norm_num

theorem pyDiv_ok {x y : ℝ} (h : y ≠ 0) : pyDiv x y = .ok (x / y) := if_neg h

theorem tau_radius {c : Chopper} (h : c.tauOverride = none) (hk : c.kind = cs!"disk") {r : ℝ} (hr : c.radius = some r)
    (h0 : r ≠ 0) (hs : c.speed ≠ 0) :
    c.tau = .ok (c.acceptance / (r * c.speed * if c.counterRot then 2 else 1) / √(8 * log 2)) := by
  have hd : r * c.speed * (if c.counterRot then 2 else 1 : ℝ) ≠ 0 := mul_ne_zero (mul_ne_zero h0 hs) (counter_pos _).ne'
  simp only [Chopper.tau, h, hk, hr, if_true, pyDiv_ok hd]
  rfl

theorem tau_angle {c : Chopper} (h : c.tauOverride = none) (hk : c.kind = cs!"disk") (hr : c.radius = none)
    (ha : c.acceptance ≠ 0) (hs : c.speed ≠ 0) :
    c.tau = .ok (10 ^ 6 / (c.speed * c.acceptance * if c.counterRot then 2 else 1) / 360) := by
  have hd : c.speed * c.acceptance * (if c.counterRot then 2 else 1 : ℝ) ≠ 0 := mul_ne_zero (mul_ne_zero hs ha) (counter_pos _).ne'
  simp only [Chopper.tau, h, hk, hr, if_true, pyDiv_ok hd]
  rfl

/-! ## C236 -/

/-- C236 (partial).  Two disks with opposite sense have half of the time of one; the unit of length and the width of
the beam do not matter.  Missing: the time itself, see below. -/
theorem C236_relations_partial {c : Chopper} (h : c.tauOverride = none) :
    (c.kind = cs!"disk" → ∀ t, Chopper.tau { c with counterRot := false } = .ok t →
      Chopper.tau { c with counterRot := true } = .ok (t / 2)) ∧
    (∀ w, Chopper.tau { c with width := w } = c.tau) ∧
    (c.kind = cs!"disk" → ∀ r, c.radius = some r → r ≠ 0 → c.speed ≠ 0 → ∀ k, k ≠ 0 →
      Chopper.tau { c with radius := some (k * r), acceptance := k * c.acceptance } = c.tau) ∧
    (c.kind = cs!"fermi" → ∀ d, c.depth = some d → d ≠ 0 → ∀ k, k ≠ 0 →
      Chopper.tau { c with depth := some (k * d), acceptance := k * c.acceptance } = c.tau) := by
  refine ⟨fun hk t ht => ?_, fun w => rfl, fun hk r hr h0 hs k hk0 => ?_, fun hk d hd h0 k hk0 => ?_⟩
  · rcases Option.eq_none_or_eq_some c.radius with hr | ⟨r, hr⟩
    rotate_left
    · by_cases h0 : r * c.speed = 0
      · simp only [Chopper.tau, h, hk, hr, if_true, pyDiv, h0, zero_mul] at ht
        cases ht
      · have hr0 : r ≠ 0 := left_ne_zero_of_mul h0
        have hs0 : c.speed ≠ 0 := right_ne_zero_of_mul h0
        rw [tau_radius (c := { c with counterRot := false }) h hk hr hr0 hs0] at ht
        rw [tau_radius (c := { c with counterRot := true }) h hk hr hr0 hs0, ← Except.ok.inj ht]
        simp only [Except.ok.injEq, if_true, Bool.false_eq_true, if_false]
        field_simp
    · by_cases h0 : c.speed * c.acceptance = 0
      · simp only [Chopper.tau, h, hk, hr, if_true, pyDiv, h0, zero_mul] at ht
        cases ht
      · have hs0 : c.speed ≠ 0 := left_ne_zero_of_mul h0
        have ha0 : c.acceptance ≠ 0 := right_ne_zero_of_mul h0
        rw [tau_angle (c := { c with counterRot := false }) h hk hr ha0 hs0] at ht
        rw [tau_angle (c := { c with counterRot := true }) h hk hr ha0 hs0, ← Except.ok.inj ht]
        simp only [Except.ok.injEq, if_true, Bool.false_eq_true, if_false]
        field_simp
  · rw [tau_radius (c := { c with radius := some (k * r), acceptance := k * c.acceptance }) h hk rfl
      (mul_ne_zero hk0 h0) hs, tau_radius h hk hr h0 hs]
    rw [Except.ok.injEq, mul_assoc k, mul_assoc k, mul_div_mul_left _ _ hk0]
  · have e : k * c.acceptance / (k * d) = c.acceptance / d := mul_div_mul_left _ _ hk0
    simp only [Chopper.tau, h, hd, pyDiv_ok h0, pyDiv_ok (mul_ne_zero hk0 h0), e, hk]
    rfl

/-- C236 is false for a disk with a radius: for an opening that covers `deg` degrees the time is always smaller than
the documented microseconds by the factor 2π / 10⁶ (it is in seconds for a radian). -/
theorem C236_radius_false {c : Chopper} (h : c.tauOverride = none) (hk : c.kind = cs!"disk") {r deg : ℝ}
    (hr : c.radius = some r) (h0 : r ≠ 0) (hs : c.speed ≠ 0) (ha : c.acceptance = r * (deg * (π / 180))) :
    c.tau = .ok (2 * π / 10 ^ 6 * openStd deg c.speed c.counterRot) ∧
    (deg ≠ 0 → c.tau ≠ .ok (openStd deg c.speed c.counterRot)) := by
  have hc := (counter_pos c.counterRot).ne'
  have hq := sqrt_eight_log_pos.ne'
  have e : c.tau = .ok (2 * π / 10 ^ 6 * openStd deg c.speed c.counterRot) := by
    rw [tau_radius h hk hr h0 hs, ha, Except.ok.injEq, openStd]
    field_simp
    ring
  refine ⟨e, fun hd hf => ?_⟩
  rw [e, Except.ok.injEq] at hf
  have hne : openStd deg c.speed c.counterRot ≠ 0 := by
    unfold openStd
    exact div_ne_zero (div_ne_zero (mul_ne_zero (by norm_num) (div_ne_zero hd (by norm_num))) (mul_ne_zero hs hc)) hq
  have := mul_right_cancel₀ hne (hf.trans (one_mul _).symm)
  have hpi := pi_le_four
  rw [div_eq_one_iff_eq (by norm_num)] at this
  norm_num at this
  linarith

/-- C236 is false for a disk without a radius: the time is the documented one for a single opening only, of
`(8 log 2)^(1/4)` (about 1.5) degrees. -/
theorem C236_angle_iff {c : Chopper} (h : c.tauOverride = none) (hk : c.kind = cs!"disk") (hr : c.radius = none)
    (ha : c.acceptance ≠ 0) (hs : c.speed ≠ 0) :
    c.tau = .ok (openStd c.acceptance c.speed c.counterRot) ↔ c.acceptance ^ 2 = √(8 * log 2) := by
  have hc := (counter_pos c.counterRot).ne'
  have hq := sqrt_eight_log_pos.ne'
  rw [tau_angle h hk hr ha hs, Except.ok.injEq, openStd]
  generalize (if c.counterRot then 2 else 1 : ℝ) = u at hc
  generalize √(8 * log 2) = q at hq
  have e1 : (10 : ℝ) ^ 6 / (c.speed * c.acceptance * u) / 360 = 10 ^ 6 / 360 / (c.speed * u) / (c.acceptance * q) * q := by
    field_simp
  have e2 : 10 ^ 6 * (c.acceptance / 360) / (c.speed * u) / q =
      10 ^ 6 / 360 / (c.speed * u) / (c.acceptance * q) * c.acceptance ^ 2 := by
    field_simp
  have hn : (10 : ℝ) ^ 6 / 360 / (c.speed * u) / (c.acceptance * q) ≠ 0 :=
    div_ne_zero (div_ne_zero (by norm_num) (mul_ne_zero hs hc)) (mul_ne_zero ha hq)
  rw [e1, e2]
  exact ⟨fun hf => (mul_left_cancel₀ hn hf).symm, fun hf => by rw [hf]⟩

/-- C236 is false for the two descriptions of one opening: the times agree for a single opening only, of about 612
degrees, which no disk has. -/
theorem C236_same_opening_iff {c d : Chopper} (h : c.tauOverride = none) (hk : c.kind = cs!"disk") (hr : c.radius = none)
    (ha : c.acceptance ≠ 0) (hs : c.speed ≠ 0) {r : ℝ} (h0 : r ≠ 0)
    (hd : d = { c with radius := some r, acceptance := r * (c.acceptance * (π / 180)) }) :
    c.tau = d.tau ↔ 2 * π * c.acceptance ^ 2 = 10 ^ 6 * √(8 * log 2) := by
  subst hd
  have hc := (counter_pos c.counterRot).ne'
  have hq := sqrt_eight_log_pos.ne'
  rw [tau_angle h hk hr ha hs, tau_radius (c := { c with radius := some r, acceptance := r * (c.acceptance * (π / 180)) })
    h hk rfl h0 hs, Except.ok.injEq]
  simp only
  generalize (if c.counterRot then 2 else 1 : ℝ) = u at hc
  generalize √(8 * log 2) = q at hq
  have e1 : (10 : ℝ) ^ 6 / (c.speed * c.acceptance * u) / 360 = 1 / (360 * (c.speed * u) * (c.acceptance * q)) * (10 ^ 6 * q) := by
    field_simp
  have e2 : r * (c.acceptance * (π / 180)) / (r * c.speed * u) / q =
      1 / (360 * (c.speed * u) * (c.acceptance * q)) * (2 * π * c.acceptance ^ 2) := by
    field_simp
    ring
  have hn : 1 / (360 * (c.speed * u) * (c.acceptance * q)) ≠ 0 :=
    one_div_ne_zero (mul_ne_zero (mul_ne_zero (by norm_num) (mul_ne_zero hs hc)) (mul_ne_zero ha hq))
  rw [e1, e2]
  exact ⟨fun hf => (mul_left_cancel₀ hn hf).symm, fun hf => by rw [hf]⟩

/-- A disk chopper with an opening of ten degrees: the time is not the documented one, whatever the speed. -/
theorem C236_angle_false {c : Chopper} (h : c.tauOverride = none) (hk : c.kind = cs!"disk") (hr : c.radius = none)
    (ha : c.acceptance = 10) (hs : c.speed ≠ 0) : c.tau ≠ .ok (openStd 10 c.speed c.counterRot) := by
  intro hf
  rw [← ha] at hf
  have h1 := (C236_angle_iff h hk hr (by rw [ha]; norm_num) hs).1 hf
  have h2 : log 2 ≤ 1 := (log_le_sub_one_of_pos (by norm_num)).trans (by norm_num)
  have h3 : √(8 * log 2) ≤ 3 := sqrt_le_iff.2 ⟨by norm_num, by linarith⟩
  rw [ha] at h1
  linarith

/-- The time of a disk of 10 cm radius with an opening of 2 cm, at 60 Hz. -/
example : Chopper.tau ⟨60, 5, cs!"disk", 2, false, some 10, none, none⟩ = .ok (1 / 300 / √(8 * log 2)) := by
  rw [tau_radius (c := ⟨60, 5, cs!"disk", 2, false, some 10, none, none⟩) rfl rfl rfl (by norm_num) (by norm_num)]
  norm_num

end Verif.Instrument
