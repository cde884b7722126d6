import Verif.Tools.Props
import Mathlib.Analysis.Real.Pi.Bounds

/-!
# The planes of one crystal

The wavevectors in the table of crystals that belong to planes of the same cubic crystal.
-/

namespace Verif.Tools

open Real

/-! ## Specification -/

/-- The names, each with the sum of the squares of its indices, belong to planes of one cubic
crystal, for which this sum is proportional to the square of the wavevector, with a relative
error of at most `ε`. -/
def OneCubicCrystal (ε : ℝ) (planes : List (List Char × ℕ)) : Prop :=
  ∀ p ∈ planes, ∀ q ∈ planes, ∃ t u, getTau .other (.name p.1) = .ok (some t) ∧
    getTau .other (.name q.1) = .ok (some u) ∧ 0 < t ∧ 0 < u ∧
    |t ^ 2 * q.2 - u ^ 2 * p.2| ≤ ε * (u ^ 2 * p.2)

/-! ## Lemmas -/

theorem oneCubicCrystal_of {ε L U : ℝ} {planes : List (List Char × ℕ)} (hL : 0 < L)
    (hLU : U ≤ (1 + ε) * L) (hε : 0 ≤ ε)
    (h : ∀ p ∈ planes, ∃ t, getTau .other (.name p.1) = .ok (some t) ∧ 0 < t ∧
      L * p.2 ≤ t ^ 2 ∧ t ^ 2 ≤ U * p.2) : OneCubicCrystal ε planes := by
  intro p hp q hq
  obtain ⟨t, ht, h0, h1, h2⟩ := h p hp
  obtain ⟨u, hu, k0, k1, k2⟩ := h q hq
  refine ⟨t, u, ht, hu, h0, k0, ?_⟩
  have hP : (0 : ℝ) ≤ p.2 := Nat.cast_nonneg _
  have hQ : (0 : ℝ) ≤ q.2 := Nat.cast_nonneg _
  have hPQ : (0 : ℝ) ≤ p.2 * q.2 := mul_nonneg hP hQ
  have a1 := mul_le_mul_of_nonneg_right h1 hQ
  have a2 := mul_le_mul_of_nonneg_right h2 hQ
  have b1 := mul_le_mul_of_nonneg_right k1 hP
  have b2 := mul_le_mul_of_nonneg_right k2 hP
  have c := mul_le_mul_of_nonneg_right hLU hPQ
  have e := mul_le_mul_of_nonneg_left b1 hε
  have hu0 : 0 ≤ u ^ 2 * p.2 := mul_nonneg (sq_nonneg _) hP
  rw [abs_le]
  constructor <;> nlinarith

theorem tau_entry {s : List Char} {e : Entry} (h : lookup (lower s) choices = some e) (c : Caller) :
    getTau c (.name s) = .ok (some e.val) := by
  simp only [getTau, h]

theorem spacing_sq (d : ℚ) : (Entry.spacing d).val ^ 2 = 4 * π ^ 2 / (d : ℝ) ^ 2 := by
  rw [Entry.val, div_pow]; ring

theorem pi_sq_bounds : 39.4784 < 4 * π ^ 2 ∧ 4 * π ^ 2 < 39.4785 := by
  have h1 := pi_gt_d6
  have h2 := pi_lt_d6
  constructor <;> nlinarith

theorem spacing_bounds {L U : ℝ} {d : ℚ} {n : ℕ} (hd : 0 < d) (h1 : L * n * (d : ℝ) ^ 2 ≤ 39.4784)
    (h2 : 39.4785 ≤ U * n * (d : ℝ) ^ 2) :
    0 < (Entry.spacing d).val ∧ L * n ≤ (Entry.spacing d).val ^ 2 ∧
      (Entry.spacing d).val ^ 2 ≤ U * n := by
  have hd' : (0 : ℝ) < d := by exact_mod_cast hd
  obtain ⟨p1, p2⟩ := pi_sq_bounds
  refine ⟨by rw [Entry.val]; positivity, ?_, ?_⟩
  · rw [spacing_sq, le_div_iff₀ (by positivity)]; linarith
  · rw [spacing_sq, div_le_iff₀ (by positivity)]; linarith

theorem tau_bounds {L U : ℝ} {q : ℚ} {n : ℕ} (hq : 0 < q) (h1 : L * n ≤ (q : ℝ) ^ 2)
    (h2 : (q : ℝ) ^ 2 ≤ U * n) :
    0 < (Entry.tau q).val ∧ L * n ≤ (Entry.tau q).val ^ 2 ∧ (Entry.tau q).val ^ 2 ≤ U * n :=
  ⟨by rw [Entry.val]; exact_mod_cast hq, h1, h2⟩

/-! ## C227 -/

/-- **C227** the second order of graphite (002) has twice its wavevector. -/
theorem C227_graphite (c : Caller) : ∃ t, getTau c (.name cs!"pg(002)") = .ok (some t) ∧
    getTau c (.name cs!"pg(004)") = .ok (some (2 * t)) := by
  refine ⟨_, tau_entry (e := .tau 1.87325) (by decide +kernel) c, ?_⟩
  rw [tau_entry (e := .tau 3.74650) (by decide +kernel) c]
  simp only [Entry.val]
  norm_num

/-- **C227** the three germanium planes given by their wavevectors belong to one cubic crystal, to
two hundred-thousandths. -/
theorem C227_germanium_near :
    OneCubicCrystal 2e-5 [(cs!"ge(111)", 3), (cs!"ge(220)", 8), (cs!"ge(311)", 11)] := by
  refine oneCubicCrystal_of (L := 1.233476) (U := 1.233490) (by norm_num) (by norm_num) (by norm_num) ?_
  intro p hp
  simp only [List.mem_cons, List.not_mem_nil, or_false] at hp
  rcases hp with rfl | rfl | rfl
  · exact ⟨_, tau_entry (e := .tau 1.92366) (by decide +kernel) _,
      tau_bounds (by norm_num) (by norm_num) (by norm_num)⟩
  · exact ⟨_, tau_entry (e := .tau 3.14131) (by decide +kernel) _,
      tau_bounds (by norm_num) (by norm_num) (by norm_num)⟩
  · exact ⟨_, tau_entry (e := .tau 3.68351) (by decide +kernel) _,
      tau_bounds (by norm_num) (by norm_num) (by norm_num)⟩

/-- **C227** all five germanium planes belong to one cubic crystal, to a thousandth. -/
theorem C227_germanium : OneCubicCrystal 1e-3 [(cs!"ge(111)", 3), (cs!"ge(220)", 8),
    (cs!"ge(311)", 11), (cs!"Ge(511)", 27), (cs!"Ge(533)", 43)] := by
  refine oneCubicCrystal_of (L := 1.2326) (U := 1.2336) (by norm_num) (by norm_num) (by norm_num) ?_
  intro p hp
  simp only [List.mem_cons, List.not_mem_nil, or_false] at hp
  rcases hp with rfl | rfl | rfl | rfl | rfl
  · exact ⟨_, tau_entry (e := .tau 1.92366) (by decide +kernel) _,
      tau_bounds (by norm_num) (by norm_num) (by norm_num)⟩
  · exact ⟨_, tau_entry (e := .tau 3.14131) (by decide +kernel) _,
      tau_bounds (by norm_num) (by norm_num) (by norm_num)⟩
  · exact ⟨_, tau_entry (e := .tau 3.68351) (by decide +kernel) _,
      tau_bounds (by norm_num) (by norm_num) (by norm_num)⟩
  · exact ⟨_, tau_entry (e := .spacing 1.089) (by decide +kernel) _,
      spacing_bounds (by norm_num) (by norm_num) (by norm_num)⟩
  · exact ⟨_, tau_entry (e := .spacing 0.863) (by decide +kernel) _,
      spacing_bounds (by norm_num) (by norm_num) (by norm_num)⟩

/-- **C227** so do copper (002) and (220). -/
theorem C227_copper_partial : OneCubicCrystal 1e-3 [(cs!"Cu(002)", 4), (cs!"Cu(220)", 8)] := by
  refine oneCubicCrystal_of (L := 3.0213) (U := 3.0227) (by norm_num) (by norm_num) (by norm_num) ?_
  intro p hp
  simp only [List.mem_cons, List.not_mem_nil, or_false] at hp
  rcases hp with rfl | rfl
  · exact ⟨_, tau_entry (e := .spacing 1.807) (by decide +kernel) _,
      spacing_bounds (by norm_num) (by norm_num) (by norm_num)⟩
  · exact ⟨_, tau_entry (e := .spacing 1.278) (by decide +kernel) _,
      spacing_bounds (by norm_num) (by norm_num) (by norm_num)⟩

/-- **C227** copper (111) does not belong to the same cubic crystal as copper (002), not even to
seven thousandths: the second line for copper (111), a spacing of 2.095, replaces the first. -/
theorem C227_copper_false : ¬ OneCubicCrystal 7e-3 [(cs!"Cu(111)", 3), (cs!"Cu(002)", 4)] := by
  intro h
  obtain ⟨t, u, ht, hu, _, _, hb⟩ := h (cs!"Cu(111)", 3) (by simp) (cs!"Cu(002)", 4) (by simp)
  rw [tau_entry (e := .spacing 2.095) (by decide +kernel)] at ht
  rw [tau_entry (e := .spacing 1.807) (by decide +kernel)] at hu
  simp only [Except.ok.injEq, Option.some.injEq] at ht hu
  subst ht hu
  rw [spacing_sq, spacing_sq, abs_le] at hb
  obtain ⟨p1, p2⟩ := pi_sq_bounds
  have := hb.1
  push_cast at this
  generalize 4 * π ^ 2 = P at this p1 p2
  norm_num at this
  linarith

/-- **C227** the spacing of the line that is replaced, 2.087, does belong to it, to a thousandth. -/
theorem C227_copper_first_line :
    |(Entry.spacing 2.087).val ^ 2 * 4 - (Entry.spacing 1.807).val ^ 2 * 3| ≤
      1e-3 * ((Entry.spacing 1.807).val ^ 2 * 3) ∧
    (cs!"Cu(111)", Entry.spacing 2.087) ∈ choicesDisplay := by
  refine ⟨?_, by simp [choicesDisplay]⟩
  rw [spacing_sq, spacing_sq, abs_le]
  obtain ⟨p1, p2⟩ := pi_sq_bounds
  push_cast
  generalize 4 * π ^ 2 = P at p1 p2
  norm_num
  constructor <;> linarith

/-- The tolerances mean something: graphite (110) is not a plane of a cubic crystal with (002). -/
example : ¬ OneCubicCrystal 1e-3 [(cs!"pg(110)", 2), (cs!"pg(002)", 4)] := by
  intro h
  obtain ⟨t, u, ht, hu, _, _, hb⟩ := h (cs!"pg(110)", 2) (by simp) (cs!"pg(002)", 4) (by simp)
  rw [tau_entry (e := .tau 5.49806) (by decide +kernel)] at ht
  rw [tau_entry (e := .tau 1.87325) (by decide +kernel)] at hu
  simp only [Except.ok.injEq, Option.some.injEq] at ht hu
  subst ht hu
  rw [abs_le] at hb
  have := hb.2
  simp only [Entry.val] at this
  norm_num at this

end Verif.Tools
