import Verif.Functions.PropsShape

/-!
# Properties C34, C35 and C195 for areas of either sign

A peak has a positive area; with a negative one the same holds upside down.
-/

namespace Verif.Functions

open Real

/-- The shape of a dip: its only minimum is at the position, it is symmetric, and half of the depth is taken exactly half a width away. -/
def IsDip (f : ℝ → ℝ) (x0 w : ℝ) : Prop :=
  (∀ q, q ≠ x0 → f x0 < f q) ∧ (∀ d, f (x0 + d) = f (x0 - d)) ∧ ∀ q, f q = f x0 / 2 ↔ q = x0 - w / 2 ∨ q = x0 + w / 2

theorem isDip_neg {f : ℝ → ℝ} {x0 w : ℝ} (h : (∀ q, q ≠ x0 → f q < f x0) ∧ (∀ d, f (x0 + d) = f (x0 - d)) ∧
    ∀ q, f q = f x0 / 2 ↔ q = x0 - w / 2 ∨ q = x0 + w / 2) : IsDip (fun q => -f q) x0 w := by
  refine ⟨fun q hq => neg_lt_neg (h.1 q hq), fun d => congrArg _ (h.2.1 d), fun q => ?_⟩
  rw [← h.2.2 q]
  constructor <;> intro e <;> linarith

/-- **C34** with a negative area. -/
theorem C34_negative {a x0 w : ℝ} (ha : a < 0) (hw : 0 < w) :
    ∃ f : ℝ → ℝ, (∀ q, gaussian [0, 0, a, x0, w] q = .ok (f q)) ∧ IsDip f x0 w := by
  obtain ⟨f, hf, h⟩ := C34_gaussian_shape (x0 := x0) (neg_pos.2 ha) hw
  refine ⟨fun q => -f q, fun q => ?_, isDip_neg h⟩
  have h1 := C36_gaussian 0 0 (peaks := [(a, x0, w)]) (by simpa using hw) (t := []) (by simp) q
  have h2 := C36_gaussian 0 0 (peaks := [(-a, x0, w)]) (by simpa using hw) (t := []) (by simp) q
  have e := (hf q).symm.trans h2
  refine Eq.trans h1 ?_
  show _ = Except.ok (-f q)
  rw [Except.ok.inj e]
  simp only [List.map_cons, List.map_nil, List.sum_cons, List.sum_nil, gaussPeak]
  congr 1
  ring

/-- **C35** with a negative area. -/
theorem C35_negative {a x0 w : ℝ} (ha : a < 0) (hw : 0 < w) :
    ∃ f : ℝ → ℝ, (∀ q, lorentzian [0, 0, a, x0, w] q = .ok (f q)) ∧ IsDip f x0 w := by
  obtain ⟨f, hf, h⟩ := C35_lorentzian_shape (x0 := x0) (neg_pos.2 ha) hw
  refine ⟨fun q => -f q, fun q => ?_, isDip_neg h⟩
  have h1 := C36_lorentzian 0 0 [(a, x0, w)] (t := []) (by simp) q
  have h2 := C36_lorentzian 0 0 [(-a, x0, w)] (t := []) (by simp) q
  have e := (hf q).symm.trans h2
  refine Eq.trans h1 ?_
  show _ = Except.ok (-f q)
  rw [Except.ok.inj e]
  simp only [List.map_cons, List.map_nil, List.sum_cons, List.sum_nil, lorentzPeak]
  congr 1
  ring

/-- **C195** with a negative area. -/
theorem C195_negative {a x0 wl wg : ℝ} (ha : a < 0) (hl : 0 < wl) (hg : 0 < wg) :
    ∃ v : ℝ → ℝ, (∀ q, voigt faddeeva [0, 0, a, x0, wl, wg] q = .ok (v q)) ∧
      (∀ d, v (x0 + d) = v (x0 - d)) ∧
      (∀ q q', |q - x0| < |q' - x0| → v q < v q') ∧ ∀ q, q ≠ x0 → v x0 < v q := by
  obtain ⟨f, hf, h⟩ := C195_shape (x0 := x0) (neg_pos.2 ha) hl hg
  refine ⟨fun q => -f q, fun q => ?_, fun d => congrArg _ (h.1 d), fun q q' hq => neg_lt_neg (h.2.1 q q' hq),
    fun q hq => neg_lt_neg (h.2.2 q hq)⟩
  have h1 := C36_voigt faddeeva 0 0 [(a, x0, wl, wg)] (t := []) (by simp) q
  have h2 := C36_voigt faddeeva 0 0 [(-a, x0, wl, wg)] (t := []) (by simp) q
  have e := (hf q).symm.trans h2
  refine Eq.trans h1 ?_
  show _ = Except.ok (-f q)
  rw [Except.ok.inj e]
  simp only [List.map_cons, List.map_nil, List.sum_cons, List.sum_nil, voigtPeak]
  congr 1
  ring

example : (-2 : ℝ) < 0 ∧ (0 : ℝ) < 3 := by norm_num

end Verif.Functions
