import Verif.Resolution.Smooth
import Verif.Resolution.PropsFrame

/-! # Property theorems: smoothing (C156) -/

namespace Verif.Resolution

open Real Matrix
open Verif.Crystal (Fail)
open Verif.Tools (Arg quad SPD)

/-! ## Specification -/

/-- The variance of a Gaussian of full width at half maximum `x`. -/
noncomputable def fwhmVariance (x : ℝ) : ℝ := x ^ 2 / (8 * log 2)

/-- The resolution matrix after convolution with a Gaussian of the given widths: variances add.  The coordinates are
two in the plane, the vertical one and the energy. -/
noncomputable def smoothed (s : Widths) (rms : M4) : M4 :=
  (rms⁻¹ + diagonal ![fwhmVariance s.X, fwhmVariance s.Y, fwhmVariance s.Z, fwhmVariance s.E])⁻¹

/-! ## C156 -/

/-- C156 fails: with the attribute `Smooth` and a width along x the prefactor is `nan`, and so is every element of
the matrix outside the diagonal, for every instrument, point and width. -/
theorem C156_nan {s : Widths} (hX : s.X ≠ 0) (r0 : ℝ) (rms : M4) :
    (smooth (some s) r0 rms).1 = .nan ∧ ∀ i j, i ≠ j → (smooth (some s) r0 rms).2 i j = .nan := by
  have e : ∀ i j, i ≠ j → eDiv (smoothMul s) i j = .nan := by
    intro i j h
    simp [eDiv, smoothMul, h, Flt.div]
  have add : ∀ x, Flt.nan.add x = .nan := fun x => by cases x <;> rfl
  have mul : ∀ x : Flt, x.mul .nan = .nan := fun x => by cases x <;> rfl
  have div : ∀ x : Flt, x.div .nan = .nan := fun x => by cases x <;> rfl
  simp only [smooth, if_neg hX]
  constructor
  · have hv : ∀ M : F4, M 0 1 = .nan → detF M = .nan := by
      intro M hM
      unfold detF values
      rw [dif_neg]
      rintro ⟨N, hN⟩
      have := hN 0 1
      rw [hM] at this
      exact nomatch this
    rw [hv (fun i j => (eDiv (smoothMul s) i j).add (eDiv (fun i j => Flt.num (rms i j)) i j))
      (by rw [e 0 1 (by decide), add])]
    exact mul _
  · intro i j h
    show (Flt.num _).div ((eDiv (smoothMul s) i j).add _) = .nan
    rw [e i j h, add, div]

/-- C156 fails for whole calculations: no point has a prefactor. -/
theorem C156_calc_false {s : Widths} (hX : s.X ≠ 0) (i : Inst) (H K L W : Arg ℝ) {rs : List (Flt × F4)}
    (h : calcSmooth i (some s) H K L W = .ok rs) : ∀ r ∈ rs, r.1 = .nan ∧ ∀ a b, a ≠ b → r.2 a b = .nan := by
  unfold calcSmooth at h
  split at h
  · exact nomatch h
  · obtain rfl := Except.ok.inj h
    intro r hr
    obtain ⟨x, _, rfl⟩ := List.mem_map.1 hr
    exact C156_nan hX _ _

/-- C156 fails on the diagonal as well: the width in energy is taken for the vertical direction and the vertical one
for the energy. -/
theorem C156_swapped {s : Widths} (hX : s.X ≠ 0) (hY : s.Y ≠ 0) (hZ : s.Z ≠ 0) (hE : s.E ≠ 0) (r0 : ℝ) {rms : M4} (h : SPD rms)
    (i : Fin 4) : (smooth (some s) r0 rms).2 i i =
      .num (1 / (![fwhmVariance s.X, fwhmVariance s.Y, fwhmVariance s.E, fwhmVariance s.Z] i + 1 / rms i i)) := by
  have hl : 0 < log 2 := log_pos (by norm_num)
  have w : ∀ x : ℝ, x ≠ 0 → smoothWeight x = .num (1 / fwhmVariance x) := by
    intro x hx
    have : x ^ 2 / 8 / log 2 ≠ 0 := by positivity
    simp only [smoothWeight, Flt.div, if_neg this, fwhmVariance]
    rw [div_div]
  have v : ∀ x : ℝ, x ≠ 0 → 0 < fwhmVariance x := fun x hx => by unfold fwhmVariance; positivity
  have d : 0 < rms i i := ((posDef_iff_spd _).2 h).diag_pos
  have vx := v _ hX
  have vy := v _ hY
  have vz := v _ hZ
  have ve := v _ hE
  have dn : ∀ a b : ℝ, b ≠ 0 → (Flt.num a).div (.num b) = .num (a / b) := fun a b hb => by simp only [Flt.div, if_neg hb]
  have main : ∀ x : ℝ, x ≠ 0 → (Flt.num 1).div (((Flt.num 1).div (smoothWeight x)).add ((Flt.num 1).div (.num (rms i i)))) =
      .num (1 / (fwhmVariance x + 1 / rms i i)) := by
    intro x hx
    have := v x hx
    rw [w x hx, dn _ _ (by positivity), dn _ _ d.ne', one_div_one_div]
    exact dn _ _ (by positivity)
  have e : (smooth (some s) r0 rms).2 i i = (Flt.num 1).div (((Flt.num 1).div
      (![smoothWeight s.X, smoothWeight s.Y, smoothWeight s.E, smoothWeight s.Z] i)).add ((Flt.num 1).div (.num (rms i i)))) := by
    simp only [smooth, if_neg hX, eDiv, smoothMul, if_true]
  rw [e]
  clear e
  fin_cases i
  exacts [main _ hX, main _ hY, main _ hE, main _ hZ]

/-- C156 fails without a width along x: the other widths are ignored. -/
theorem C156_ignored_false {s : Widths} (hX : s.X = 0) (hE : s.E ≠ 0) (r0 : ℝ) {rms : M4} (h : SPD rms) :
    (smooth (some s) r0 rms).2 = (fun i j => .num (rms i j)) ∧ smoothed s rms ≠ rms := by
  refine ⟨by simp only [smooth, if_pos hX], fun he => ?_⟩
  have hl : 0 < log 2 := log_pos (by norm_num)
  have hR := (posDef_iff_spd _).2 h
  have hd : rms.det ≠ 0 := hR.det_pos.ne'
  have v : ∀ x : ℝ, 0 ≤ fwhmVariance x := fun x => by unfold fwhmVariance; positivity
  have hs : (rms⁻¹ + diagonal ![fwhmVariance s.X, fwhmVariance s.Y, fwhmVariance s.Z, fwhmVariance s.E]).PosDef :=
    hR.inv.add_posSemidef (PosSemidef.diagonal fun i => by fin_cases i <;> exact v _)
  unfold smoothed at he
  have h1 := congrArg (·⁻¹) he
  simp only [nonsing_inv_nonsing_inv _ hs.det_pos.ne'.isUnit] at h1
  have h2 := congrFun (congrFun (add_eq_left.1 h1) 3) 3
  simp [fwhmVariance] at h2
  exact h2.elim hE (by norm_num)

/-- C156 in part: if all widths are zero the matrix is the smoothed one, that is, unchanged.  Everything else is
missing, since it is false. -/
theorem C156_zero_partial (r0 : ℝ) {rms : M4} (h : SPD rms) :
    smooth (some ⟨0, 0, 0, 0⟩) r0 rms = (.num r0, fun i j => .num (smoothed ⟨0, 0, 0, 0⟩ rms i j)) := by
  have hR := (posDef_iff_spd _).2 h
  have e : smoothed ⟨0, 0, 0, 0⟩ rms = rms := by
    unfold smoothed
    have : diagonal ![fwhmVariance 0, fwhmVariance 0, fwhmVariance 0, fwhmVariance 0] = (0 : M4) := by
      ext i j
      fin_cases i <;> fin_cases j <;> simp [fwhmVariance]
    rw [this, add_zero, nonsing_inv_nonsing_inv _ hR.det_pos.ne'.isUnit]
  rw [e]
  simp [smooth]

/-- C156 in part, for whole calculations: without the attribute, or with all widths zero, every point has the prefactor and the matrix in the
crystal frame that `calc_resolution` stores, the latter smoothed by nothing. -/
theorem C156_calc_partial {i i' : Inst} {H K L W : Arg ℝ} (h : calcResolution i H K L W = (i', none))
    (spd : ∀ r ∈ i'.result.getD [], SPD r.rms) :
    calcSmooth i none H K L W = .ok ((i'.result.getD []).map fun r => (.num r.r0, fun a b => .num (r.rms a b))) ∧
    calcSmooth i (some ⟨0, 0, 0, 0⟩) H K L W =
      .ok ((i'.result.getD []).map fun r => (.num r.r0, fun a b => .num (smoothed ⟨0, 0, 0, 0⟩ r.rms a b))) := by
  unfold calcSmooth
  rw [h]
  refine ⟨rfl, congrArg _ (List.map_congr_left fun r hr => C156_zero_partial _ (spd r hr))⟩

/-- The hypotheses hold for the resolution matrix of the default instrument. -/
example : ∃ r, calcInQ demo [(1, 1)] = .ok [r] ∧ (smooth (some ⟨0.01, 0.01, 0.02, 0.1⟩) r.1 r.2).1 = .nan ∧
    (smooth (some ⟨0.01, 0.01, 0.02, 0.1⟩) r.1 r.2).2 2 2 = .num (1 / (fwhmVariance 0.1 + 1 / r.2 2 2)) ∧
    smoothed ⟨0, 0.01, 0.02, 0.1⟩ r.2 ≠ r.2 := by
  obtain ⟨rs, h, hl, hall⟩ := C61_spd demo [(1, 1)] (demo_valid 1) (fun p hp => by
    rw [List.mem_singleton.1 hp]; exact demo_reaches (by norm_num) (by norm_num) (by norm_num) (by norm_num))
  obtain ⟨r, rfl⟩ := List.length_eq_one_iff.1 hl
  have hS := (hall r (by simp)).1
  exact ⟨r, h, (C156_nan (by norm_num) _ _).1,
    C156_swapped (by norm_num) (by norm_num) (by norm_num) (by norm_num) _ hS 2, (C156_ignored_false rfl (by norm_num) 1 hS).2⟩

/-- A calculation of the default instrument as in `C156_calc_partial`. -/
example : ∃ i' r, calcResolution (new demoSetup) (.list [3 / 5]) (.list [4 / 5]) (.list [0]) (.list [1]) = (i', none) ∧
    i'.result = some [r] ∧ SPD r.rms := by
  have e : Verif.Crystal.len (Verif.Crystal.vecOf 1 ![3 / 5, 4 / 5, 0]) = 1 := by
    rw [demo_len]
    norm_num
  obtain ⟨r, x, y, z, ac, h1, -, -, h2, -⟩ := C95_crystal_frame_partial (w := 1) demoSetup_valid (demo_valid 1)
    (a := 3 / 5) (b := 4 / 5) (c := 0) (fun h => by have := congrFun h 0; norm_num at this)
    (by rw [e]; exact demo_reaches (by norm_num) (by norm_num) (by norm_num) (by norm_num))
    (by refine ⟨3 / 5, 4 / 5, ?_⟩; funext i; fin_cases i <;> simp [demoSetup])
  have k : (recompute (new demoSetup) (.list [3 / 5]) (.list [4 / 5]) (.list [0]) (.list [1])).2 = .ok [r] := h1
  unfold recompute at k
  cases c : calcResolution (new demoSetup) (.list [3 / 5]) (.list [4 / 5]) (.list [0]) (.list [1]) with
  | mk i' o =>
    rw [c] at k
    cases o with
    | some e => exact nomatch k
    | none =>
      refine ⟨i', r, rfl, ?_, h2⟩
      dsimp only at k
      cases c' : i'.result with
      | none => rw [c'] at k; simp at k
      | some l => rw [c'] at k; simp at k; rw [k]

end Verif.Resolution
