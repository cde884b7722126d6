import Verif.Fitter.Table

/-! # The table of a fit -/

namespace Verif.Fitter.Table

/-- Specification: `w` is what one expects to see for a number known with the uncertainty `dp`: rounding changes it by no more
than a twentieth of the uncertainty. -/
def Faithful (w : Written) (x dp : ℝ) : Prop := |w.value - x| ≤ |dp| / 20

/-- Specification: the last digit written has the place `10 ^ k`. -/
def EndsAt (w : Written) (k : ℤ) : Prop := ∃ m : ℤ, w.value = m * 10 ^ k

lemma magnitude_le {x : ℝ} (h : x ≠ 0) : (10 : ℝ) ^ magnitude x ≤ |x| := by
  have := Int.zpow_log_le_self (b := 10) (r := |x|) (by norm_num) (abs_pos.2 h)
  exact_mod_cast this

lemma lt_magnitude (x : ℝ) : |x| < (10 : ℝ) ^ (magnitude x + 1) := by
  have := Int.lt_zpow_succ_log_self (b := 10) (by norm_num) |x|
  exact_mod_cast this

lemma scientific_near (n : ℕ) (x : ℝ) (h : x ≠ 0) : |(scientific n x).value - x| ≤ 10 ^ (magnitude x - n) / 2 := by
  simp only [scientific, if_neg h]
  set u : ℝ := 10 ^ (magnitude x - n) with hu
  have up : 0 < u := zpow_pos (by norm_num) _
  have e : (round (x / u) : ℝ) * u - x = (round (x / u) - x / u) * u := by field_simp
  rw [e, abs_mul, abs_of_pos up, abs_sub_comm]
  have := abs_sub_round (x / u)
  nlinarith

lemma decimals_some {p dp : ℝ} {n : ℕ} (h : decimals p dp = .ok n) :
    dp ≠ 0 ∧ (p ≠ 0 → magnitude p - n ≤ magnitude dp - 1 ∧ (|dp| ≤ |p| → magnitude p - n = magnitude dp - 1)) := by
  unfold decimals at h
  split_ifs at h with h1 h2
  · exact ⟨h1, fun k => absurd h2 k⟩
  · refine ⟨h1, fun _ => ?_⟩
    injection h with h
    split_ifs at h with h3
    · subst h
      refine ⟨by push_cast; omega, fun hle => ?_⟩
      have : magnitude dp ≤ magnitude p := Int.log_mono_right (abs_pos.2 h1) hle
      omega
    · subst h
      have : ((magnitude p - magnitude dp + 1).toNat : ℤ) = magnitude p - magnitude dp + 1 := Int.toNat_of_nonneg (by omega)
      rw [this]
      exact ⟨by omega, fun _ => by omega⟩

lemma line_ok {p : ℝ} {e : Option ℝ} {w : Written × Written} (h : line p e = .ok w) :
    ∃ dp n, e = some dp ∧ decimals p dp = .ok n ∧ w = (scientific n p, scientific 1 dp) := by
  cases e with
  | none => simp [line] at h
  | some dp =>
    simp only [line] at h
    cases k : decimals p dp with
    | error e => rw [k] at h; simp at h
    | ok n => rw [k] at h; exact ⟨dp, n, rfl, k, by injection h with h; exact h.symm⟩

lemma line_faithful {p dp : ℝ} {w : Written × Written} (h : line p (some dp) = .ok w) :
    Faithful w.1 p dp ∧ Faithful w.2 dp dp := by
  obtain ⟨dp', n, e, k, rfl⟩ := line_ok h
  cases e
  obtain ⟨h0, h1⟩ := decimals_some k
  have hd := magnitude_le h0
  have tenth : (10 : ℝ) ^ (magnitude dp - 1) = 10 ^ magnitude dp / 10 := by
    rw [zpow_sub₀ (by norm_num)]; norm_num
  constructor
  · unfold Faithful
    by_cases hp : p = 0
    · subst hp
      simp only [scientific, if_pos]
      simp only [sub_zero, abs_zero]; positivity
    · have a := scientific_near n p hp
      have b : (10 : ℝ) ^ (magnitude p - n) ≤ 10 ^ (magnitude dp - 1) := zpow_le_zpow_right₀ (by norm_num) (h1 hp).1
      rw [tenth] at b
      simp only
      linarith
  · unfold Faithful
    have a := scientific_near 1 dp h0
    simp only [Nat.cast_one] at a
    rw [tenth] at a
    simp only
    linarith

lemma mapM_lines {fit : List (ℝ × Option ℝ)} {rows : List (Written × Written)}
    (h : fit.mapM (fun x => line x.1 x.2) = .ok rows) : List.Forall₂ (fun x w => line x.1 x.2 = .ok w) fit rows := by
  induction fit generalizing rows with
  | nil => simp only [List.mapM_nil] at h; cases h; exact .nil
  | cons x l ih =>
    rw [List.mapM_cons] at h
    cases k : line x.1 x.2 with
    | error e => rw [k] at h; simp [bind, Except.bind] at h
    | ok w =>
      rw [k] at h
      cases k2 : l.mapM (fun x => line x.1 x.2) with
      | error e => rw [k2] at h; simp [bind, Except.bind] at h
      | ok ws =>
        rw [k2] at h
        simp only [bind, Except.bind, pure, Except.pure] at h
        injection h with h
        subst h
        exact .cons k (ih k2)

lemma lines_mapM {fit : List (ℝ × Option ℝ)} (h : ∀ x ∈ fit, ∃ dp, x.2 = some dp ∧ dp ≠ 0) :
    ∃ rows, fit.mapM (fun x => line x.1 x.2) = .ok rows := by
  induction fit with
  | nil => exact ⟨[], rfl⟩
  | cons x l ih =>
    obtain ⟨dp, e, h0⟩ := h x (by simp)
    obtain ⟨ws, k⟩ := ih fun y hy => h y (by simp [hy])
    have : ∃ w, line x.1 x.2 = .ok w := by
      have : ∃ n, decimals x.1 dp = .ok n := by
        unfold decimals
        rw [if_neg h0]
        split_ifs <;> exact ⟨_, rfl⟩
      obtain ⟨n, kn⟩ := this
      exact ⟨(scientific n x.1, scientific 1 dp), by rw [e]; simp only [line, kn]⟩
    obtain ⟨w, hw⟩ := this
    exact ⟨w :: ws, by rw [List.mapM_cons, hw, k]; rfl⟩

/-- **C169** (partial).  If every parameter has an uncertainty that is not zero there is a table.  It has the title, one line for
each parameter in the order of the parameters, with parameter and error faithful to a twentieth of the error, and `χ²` rounded to
six decimals.  Missing: errors that are zero (`C169_fixed_false`) or `None`, and small values of `χ²` (`C169_chi2_false`). -/
theorem C169_table_partial (title : Option String) (fit : List (ℝ × Option ℝ)) (chi2 : ℝ)
    (h : ∀ x ∈ fit, ∃ dp, x.2 = some dp ∧ dp ≠ 0) :
    ∃ t, build title fit chi2 = .ok t ∧ t.title = title ∧
      List.Forall₂ (fun x w => ∀ dp, x.2 = some dp → Faithful w.1 x.1 dp ∧ Faithful w.2 dp dp) fit t.rows ∧
      |t.chi2.value - chi2| ≤ 1 / (2 * 10 ^ 6) := by
  obtain ⟨rows, k⟩ := lines_mapM h
  refine ⟨⟨title, rows, plainDecimal chi2⟩, by unfold build; rw [k]; rfl, rfl, ?_, ?_⟩
  · refine (mapM_lines k).imp ?_
    intro x w hw dp e
    rw [e] at hw
    exact line_faithful hw
  · have := abs_sub_round (chi2 * 10 ^ 6)
    simp only [plainDecimal]
    rw [show (round (chi2 * 10 ^ 6) : ℝ) / 10 ^ 6 - chi2 = -(chi2 * 10 ^ 6 - round (chi2 * 10 ^ 6)) / 10 ^ 6 by ring]
    rw [abs_div, abs_neg, abs_of_pos (by positivity : (0 : ℝ) < 10 ^ 6)]
    calc _ ≤ (1 / 2 : ℝ) / 10 ^ 6 := by gcongr
      _ = _ := by norm_num

/-- **C169** (partial): the digits of a parameter that is not smaller than its error end at the same place as those of the error,
the second digit of the error, and so nothing beyond the uncertainty is written. -/
theorem C169_digits_partial {title : Option String} {fit : List (ℝ × Option ℝ)} {chi2 : ℝ} {t : Shown}
    (h : build title fit chi2 = .ok t) :
    List.Forall₂ (fun x w => ∀ dp, x.2 = some dp → |dp| ≤ |x.1| →
      ∃ k : ℤ, (10 : ℝ) ^ (k + 1) ≤ |dp| ∧ |dp| < 10 ^ (k + 2) ∧ EndsAt w.1 k ∧ EndsAt w.2 k) fit t.rows := by
  unfold build at h
  cases k : fit.mapM (fun x => line x.1 x.2) with
  | error e => rw [k] at h; simp [bind, Except.bind] at h
  | ok rows =>
    rw [k] at h
    simp only [bind, Except.bind, pure, Except.pure] at h
    injection h with h
    subst h
    refine (mapM_lines k).imp ?_
    intro x w hw dp e hle
    rw [e] at hw
    obtain ⟨dp', n, e', kn, rfl⟩ := line_ok hw
    cases e'
    obtain ⟨h0, h1⟩ := decimals_some kn
    have hp : x.1 ≠ 0 := by
      intro z
      rw [z, abs_zero] at hle
      exact h0 (abs_eq_zero.1 (le_antisymm hle (abs_nonneg _)))
    refine ⟨magnitude dp - 1, ?_, ?_, ?_, ?_⟩
    · rw [sub_add_cancel]; exact magnitude_le h0
    · rw [show magnitude dp - 1 + 2 = magnitude dp + 1 by ring]; exact lt_magnitude dp
    · refine ⟨round (x.1 / 10 ^ (magnitude x.1 - n)), ?_⟩
      simp only [scientific, if_neg hp]
      rw [(h1 hp).2 hle]
    · refine ⟨round (dp / 10 ^ (magnitude dp - 1)), ?_⟩
      simp only [scientific, if_neg h0, Nat.cast_one]

/-- Two parameters with errors, of which one is negative: the hypotheses hold. -/
example : ∀ x ∈ [((-12.3456 : ℝ), some (0.0234 : ℝ)), (0.5, some 3)], ∃ dp, x.2 = some dp ∧ dp ≠ 0 := by
  intro x hx
  simp only [List.mem_cons, List.not_mem_nil, or_false] at hx
  rcases hx with rfl | rfl
  · exact ⟨_, rfl, by norm_num⟩
  · exact ⟨_, rfl, by norm_num⟩

lemma log_eq {x : ℝ} (k : ℤ) (hx : 0 < x) (h1 : (10 : ℝ) ^ k ≤ x) (h2 : x < 10 ^ (k + 1)) : Int.log 10 x = k := by
  have a : (10 : ℝ) ^ Int.log 10 x ≤ x := by exact_mod_cast Int.zpow_log_le_self (b := 10) (by norm_num) hx
  have b : x < (10 : ℝ) ^ (Int.log 10 x + 1) := by exact_mod_cast Int.lt_zpow_succ_log_self (b := 10) (by norm_num) x
  have c := lt_of_le_of_lt a h2
  have d := lt_of_le_of_lt h1 b
  rw [zpow_lt_zpow_iff_right₀ (by norm_num)] at c d
  omega

/-- 12.3456 ± 0.0234 is written with four digits after the first one of the parameter: `1.2346e+01` and `2.3e-02`. -/
example : line 12.3456 (some 0.0234) = .ok (⟨4, 12.346⟩, ⟨1, 0.023⟩) := by
  have e1 : magnitude 12.3456 = 1 := log_eq 1 (by norm_num) (by norm_num) (by norm_num)
  have e2 : magnitude 0.0234 = -2 := log_eq (-2) (by norm_num) (by norm_num) (by norm_num)
  have e3 : decimals 12.3456 0.0234 = .ok 4 := by
    unfold decimals
    rw [if_neg (by norm_num), if_neg (by norm_num), e1, e2]
    norm_num
    rfl
  simp only [line, e3]
  congr 2
  · unfold scientific
    rw [if_neg (by norm_num), e1]
    have : round ((12.3456 : ℝ) / 10 ^ ((1 : ℤ) - (4 : ℕ))) = 12346 := by rw [round_eq, Int.floor_eq_iff]; norm_num
    rw [this]; norm_num
  · unfold scientific
    rw [if_neg (by norm_num), e2]
    have : round ((0.0234 : ℝ) / 10 ^ ((-2 : ℤ) - (1 : ℕ))) = 23 := by rw [round_eq, Int.floor_eq_iff]; norm_num
    rw [this]; norm_num

/-- **C169 is false** in full: with a parameter whose error is zero, as for one that was kept fixed, or `None`, there is no table, and
so no plot of the fit. -/
theorem C169_fixed_false (title : Option String) (fit : List (ℝ × Option ℝ)) (chi2 : ℝ)
    (h : ∃ x ∈ fit, x.2 = some 0 ∨ x.2 = none) : ∃ e, build title fit chi2 = .error e := by
  unfold build
  cases k : fit.mapM (fun x => line x.1 x.2) with
  | error e => exact ⟨e, rfl⟩
  | ok rows =>
    exfalso
    obtain ⟨x, hx, e⟩ := h
    have f := mapM_lines k
    obtain ⟨i, hi, rfl⟩ := List.getElem_of_mem hx
    have g := (List.forall₂_iff_get.1 f)
    have := g.2 i hi (by rw [← g.1]; exact hi)
    obtain ⟨dp, n, e1, e2, -⟩ := line_ok this
    simp only [List.get_eq_getElem] at e1
    rcases e with e | e
    · rw [e] at e1; cases e1
      exact (decimals_some e2).1 rfl
    · rw [e] at e1; cases e1

/-- **C169 is false** in full: `χ²` is written with six decimals whatever its size; a small one is shown as zero. -/
theorem C169_chi2_false {title : Option String} {fit : List (ℝ × Option ℝ)} {chi2 : ℝ} {t : Shown}
    (h : build title fit chi2 = .ok t) (h0 : 0 < chi2) (h1 : chi2 < 1 / (2 * 10 ^ 6)) : t.chi2.value = 0 := by
  unfold build at h
  cases k : fit.mapM (fun x => line x.1 x.2) with
  | error e => rw [k] at h; simp [bind, Except.bind] at h
  | ok rows =>
    rw [k] at h
    simp only [bind, Except.bind, pure, Except.pure] at h
    injection h with h
    subst h
    have : round (chi2 * 10 ^ 6) = 0 := by
      rw [round_eq, Int.floor_eq_iff]
      have h2 : chi2 * 10 ^ 6 < 1 / 2 := by
        rw [lt_div_iff₀ (by positivity)] at h1
        linarith
      constructor
      · push_cast; positivity
      · push_cast; linarith
    simp [plainDecimal, this]

end Verif.Fitter.Table
