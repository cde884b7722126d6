import Verif.Data.AnalysisProps
import Mathlib.Analysis.SpecialFunctions.Log.Basic
import Mathlib.Analysis.Real.Sqrt

/-!
# `width(fwhm=True)`
-/

namespace Verif.Data

/-- One value of `width` with `fwhm` (data/analysis.py 153-154): the root of a
negative number is nan (`none`). -/
noncomputable def fwhmOf (w : ℝ) : Option ℝ :=
  open Classical in if w < 0 then none else some (√w * 2 * √(2 * Real.log 2))

/-- `width(bounds, background, fwhm=True, hkle)` (data/analysis.py 144-161). -/
noncomputable def widthsFwhm (d : DataObj ℝ) (bounds : Option (List Bool)) (bg : Bg ℝ)
    (hkle : Bool) : Except Err (List (String × Option ℝ)) := do
  return (← widths d bounds bg hkle).map fun p => (p.1, p.2.bind fwhmOf)

theorem lookup_map_snd {β γ : Type} (f : β → γ) (l : List (String × β)) (k : String) :
    (l.map fun p => (p.1, f p.2)).lookup k = (l.lookup k).map f := by
  induction l with
  | nil => rfl
  | cons p l ih =>
    obtain ⟨a, b⟩ := p
    rw [List.map_cons, List.lookup_cons, List.lookup_cons]
    cases h : k == a <;> simp [ih]

/-- **C24** with `fwhm` the widths are the full widths at half maximum of the
Gaussians with the widths returned without it: non-negative, and `exp (-x²/2w)` is
one half at half of them. -/
theorem C24_fwhm {d : DataObj ℝ} {n : Nat} {bg : Bg ℝ} {int : List ℝ} {β : ℝ}
    (h : Measured d n bg int β) {bounds : Option (List Bool)} {sel : List Nat}
    (hs : Selects d n bounds sel) {key : String} (hline : LineScan d sel key)
    (hinc : (column d sel key).Pairwise (· ≤ ·)) (hnn : ∀ y ∈ net int β sel, 0 ≤ y)
    (hpos : 0 < trapSum (column d sel key) (net int β sel)) :
    ∃ ws fs, widths d bounds bg true = .ok ws ∧ widthsFwhm d bounds bg true = .ok fs ∧
      ∀ k ∈ d.qk.values, ∃ w f, ws.lookup k = some (some w) ∧ fs.lookup k = some (some f) ∧
        0 ≤ f ∧ (0 < w → Real.exp (-(f / 2) ^ 2 / (2 * w)) = 1 / 2) := by
  obtain ⟨ws, hws, hw⟩ := C24_width_nonneg h hs hline hinc hnn hpos
  refine ⟨ws, ws.map fun p => (p.1, p.2.bind fwhmOf), hws, ?_, ?_⟩
  · rw [widthsFwhm, hws]; rfl
  · intro k hk
    obtain ⟨w, hl, h0⟩ := hw k hk
    refine ⟨w, √w * 2 * √(2 * Real.log 2), hl, ?_, by positivity, ?_⟩
    · rw [lookup_map_snd (fun o : Option ℝ => o.bind fwhmOf), hl]
      simp [fwhmOf, not_lt.2 h0]
    · intro hw0
      have hlog : 0 ≤ 2 * Real.log 2 := by
        have := Real.log_nonneg (by norm_num : (1 : ℝ) ≤ 2)
        linarith
      have e : -(√w * 2 * √(2 * Real.log 2) / 2) ^ 2 / (2 * w) = -Real.log 2 := by
        have : (√w * 2 * √(2 * Real.log 2) / 2) ^ 2 = w * (2 * Real.log 2) := by
          rw [show √w * 2 * √(2 * Real.log 2) / 2 = √w * √(2 * Real.log 2) by ring, mul_pow,
            Real.sq_sqrt h0, Real.sq_sqrt hlog]
        rw [this]
        field_simp
      rw [e, Real.exp_neg, Real.exp_log (by norm_num)]
      norm_num

/-- A scan along k over the reals. -/
noncomputable def kScanR : DataObj ℝ where
  cols := [("h", [1, 1, 1]), ("k", [1, 2, 3]), ("l", [2, 2, 2]), ("e", [5, 5, 5]),
    ("temp", [300, 300, 300]), ("detector", [10, 20, 10]), ("monitor", [1, 1, 1]),
    ("time", [1, 1, 1])]
  dk := { monitor := "monitor", detector := "detector", time := "time" }
  qk := { h := "h", k := "k", l := "l", e := "e", temp := "temp" }
  m0 := 1
  t0 := 1
  timeNorm := false
  err := none

/-- The hypotheses of `C24_fwhm` are met. -/
example : Measured kScanR 3 .none [10, 20, 10] 0 ∧
    Selects kScanR 3 (some [true, true, true]) [0, 1, 2] ∧ LineScan kScanR [0, 1, 2] "k" ∧
    (column kScanR [0, 1, 2] "k").Pairwise (· ≤ ·) ∧
    (∀ y ∈ net [10, 20, 10] (0 : ℝ) [0, 1, 2], 0 ≤ y) ∧
    0 < trapSum (column kScanR [0, 1, 2] "k") (net [10, 20, 10] 0 [0, 1, 2]) := by
  have hcol : column kScanR [0, 1, 2] "k" = [1, 2, 3] := by
    simp [column, kScanR, List.lookup]
  have hnet : net [10, 20, 10] (0 : ℝ) [0, 1, 2] = [10, 20, 10] := by simp [net]
  refine ⟨⟨?_, by decide, by decide, by decide, ⟨kScanR, ?_⟩, rfl, rfl⟩,
    .mask (d := kScanR) [true, true, true] rfl, ⟨by decide, by decide, ?_⟩, ?_, ?_, ?_⟩
  · simp [Rect, kScanR]
  · simp [intensity, normalise, kScanR, DataObj.monitor, DataObj.detector, Table.get,
      List.lookup, bcast, ok_bind]
  · intro k hk hd hne
    simp only [kScanR, List.map_cons, List.map_nil, List.mem_cons, List.not_mem_nil, or_false] at hk
    rcases hk with rfl | rfl | rfl | rfl | rfl | rfl | rfl | rfl
    · exact ⟨1, by simp [column, kScanR, List.lookup, List.replicate]⟩
    · exact absurd rfl hne
    · exact ⟨2, by simp [column, kScanR, List.lookup, List.replicate]⟩
    · exact ⟨5, by simp [column, kScanR, List.lookup, List.replicate]⟩
    · exact ⟨300, by simp [column, kScanR, List.lookup, List.replicate]⟩
    all_goals exact absurd (by decide) hd
  · rw [hcol]; norm_num
  · rw [hnet]; norm_num
  · rw [hcol, hnet]
    norm_num [trapSum, Finset.sum_range_succ]

end Verif.Data
