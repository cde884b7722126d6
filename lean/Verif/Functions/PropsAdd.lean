import Verif.Functions.Props

/-!
# Property C36 for all parameters

The peaks are lists of numbers here, with no condition on them: the widths may have either sign.  (A width of zero is a division by zero in
the code; what is stated then is about the value zero that the model gives to it, and not about the `nan` or `inf` of the code.)
-/

namespace Verif.Functions

open Real

/-- A profile with `k` parameters for each peak is additive: one more peak adds what it gives alone on no background, the peaks
can be given in any order, and what does not make up a peak has no effect. -/
def IsAdditive (k : ℕ) (F : List ℝ → Except Err ℝ) : Prop :=
  ∀ (b0 b1 : ℝ) (peaks : List (List ℝ)), (∀ c ∈ peaks, c.length = k) →
    (∀ c, c.length = k → ∃ v w, F (b0 :: b1 :: peaks.flatten) = .ok v ∧ F (0 :: 0 :: c) = .ok w ∧
      F (b0 :: b1 :: (peaks.flatten ++ c)) = .ok (v + w)) ∧
    (∀ peaks', peaks.Perm peaks' → F (b0 :: b1 :: peaks'.flatten) = F (b0 :: b1 :: peaks.flatten)) ∧
    ∀ t, t.length < k → F (b0 :: b1 :: (peaks.flatten ++ t)) = F (b0 :: b1 :: peaks.flatten)

theorem isAdditive_of {k : ℕ} (hk : 0 < k) {F : List ℝ → Except Err ℝ} {q : ℝ} (P : List ℝ → ℝ)
    (h : ∀ (b0 b1 : ℝ) (peaks : List (List ℝ)), (∀ c ∈ peaks, c.length = k) → ∀ t, t.length < k →
      F (b0 :: b1 :: (peaks.flatten ++ t)) = .ok (b0 + b1 * q + (peaks.map P).sum)) : IsAdditive k F := by
  intro b0 b1 peaks hp
  have h0 (b0 b1 : ℝ) (peaks : List (List ℝ)) (hp : ∀ c ∈ peaks, c.length = k) :
      F (b0 :: b1 :: peaks.flatten) = .ok (b0 + b1 * q + (peaks.map P).sum) := by
    have := h b0 b1 peaks hp [] (by simpa using hk)
    rwa [List.append_nil] at this
  refine ⟨fun c hc => ?_, fun peaks' hperm => ?_, fun t ht => ?_⟩
  · refine ⟨_, P c, h0 b0 b1 peaks hp, ?_, ?_⟩
    · have := h0 0 0 [c] (by simpa using hc)
      simpa using this
    · have := h0 b0 b1 (peaks ++ [c]) (by
        intro d hd
        rcases List.mem_append.1 hd with h | h
        · exact hp d h
        · rw [List.mem_singleton.1 h]; exact hc)
      rw [List.flatten_append, List.flatten_singleton] at this
      rw [this, List.map_append, List.sum_append, List.map_singleton, List.sum_singleton]
      congr 1
      ring
  · rw [h0 b0 b1 peaks hp, h0 b0 b1 peaks' (fun c hc => hp c (hperm.mem_iff.2 hc)), (hperm.map P).sum_eq]
  · rw [h b0 b1 peaks hp t ht, h0 b0 b1 peaks hp]

/-- **C36** for all six profiles and all parameters. -/
theorem C36_additive (wofz : ℂ → ℂ) (erf : ℝ → ℝ) (mode : String) (q : ℝ) (q2 : ℝ × ℝ) :
    IsAdditive 3 (gaussian · q) ∧ IsAdditive 3 (lorentzian · q) ∧ IsAdditive 4 (voigt wofz · q) ∧
    IsAdditive 5 (gaussian2d · q2) ∧ IsAdditive 7 (resolution · q2 mode) ∧ IsAdditive 6 (gaussianRing erf · q2) := by
  refine ⟨?_, ?_, ?_, ?_, ?_, ?_⟩
  · exact isAdditive_of (by norm_num) _ fun b0 b1 peaks hp t ht => withBackground_eq (k := 3) (by norm_num) b0 b1 hp ht q
      (fun g => g 0 / (sigmaOf (g 2) * √(2 * π)) * exp (-(q - g 1) ^ 2 / (2 * sigmaOf (g 2) ^ 2)))
      (by intro g g' h; simp only [h 0 (by norm_num), h 1 (by norm_num), h 2 (by norm_num)])
  · exact isAdditive_of (by norm_num) _ fun b0 b1 peaks hp t ht => withBackground_eq (k := 3) (by norm_num) b0 b1 hp ht q
      (fun g => g 0 / π * 0.5 * g 2 / ((q - g 1) ^ 2 + (0.5 * g 2) ^ 2))
      (by intro g g' h; simp only [h 0 (by norm_num), h 1 (by norm_num), h 2 (by norm_num)])
  · exact isAdditive_of (by norm_num) _ fun b0 b1 peaks hp t ht => withBackground_eq (k := 4) (by norm_num) b0 b1 hp ht q
      (fun g => g 0 / (sigmaOf (g 3) * √(2 * π)) *
        (wofz ((((q - g 1 : ℝ) : ℂ) + Complex.I * ((g 2 / 2 : ℝ) : ℂ)) / ((sigmaOf (g 3) * √2 : ℝ) : ℂ))).re)
      (by intro g g' h; simp only [h 0 (by norm_num), h 1 (by norm_num), h 2 (by norm_num), h 3 (by norm_num)])
  · exact isAdditive_of (by norm_num) _ fun b0 b1 peaks hp t ht => withBackground_eq (k := 5) (by norm_num) b0 b1 hp ht (q2.1 + q2.2)
      (fun g => g 0 / (sigmaOf (g 3) * sigmaOf (g 4) * 2 * π) * exp (
        -((q2.1 - g 1) ^ 2 / (2 * sigmaOf (g 3) ^ 2) + (q2.2 - g 2) ^ 2 / (2 * sigmaOf (g 4) ^ 2))))
      (by intro g g' h; simp only [h 0 (by norm_num), h 1 (by norm_num), h 2 (by norm_num), h 3 (by norm_num), h 4 (by norm_num)])
  · by_cases hm : mode = "gaussian"
    · subst hm
      exact isAdditive_of (by norm_num) _ fun b0 b1 peaks hp t ht => withBackground_eq (k := 7) (by norm_num) b0 b1 hp ht (q2.1 + q2.2)
        (fun g => g 0 * g 3 * ((√(g 4) * √(g 5 - g 6 ^ 2 / g 4)) / (2 * π * g 3)) * exp (-1 / 2 * (
          g 4 * (q2.1 - g 1) ^ 2 + g 5 * (q2.2 - g 2) ^ 2 + 2 * g 6 * (q2.1 - g 1) * (q2.2 - g 2))))
        (by intro g g' h; simp only [h 0 (by norm_num), h 1 (by norm_num), h 2 (by norm_num), h 3 (by norm_num), h 4 (by norm_num),
          h 5 (by norm_num), h 6 (by norm_num)])
    · have e : (resolution · q2 mode) = fun p => withBackground p (q2.1 + q2.2) 7 fun _ => 0 := by
        funext p
        unfold resolution
        rw [if_neg hm]
      rw [e]
      exact isAdditive_of (by norm_num) _ fun b0 b1 peaks hp t ht => withBackground_eq (k := 7) (by norm_num) b0 b1 hp ht (q2.1 + q2.2)
        (fun _ => 0) (by intro g g' _; rfl)
  · exact isAdditive_of (by norm_num) _ fun b0 b1 peaks hp t ht => withBackground_eq (k := 6) (by norm_num) b0 b1 hp ht (q2.1 + q2.2)
      (fun g => g 0 / (2 * π * (exp (-g 3 ^ 2 / (2 * sigmaOf (g 5) ^ 2)) * sigmaOf (g 5) ^ 2 +
        √(π / 2) * g 3 * sigmaOf (g 5) * (1 + erf (g 3 / (√2 * sigmaOf (g 5))))) / g 4) *
        exp (-4 * log 2 * (√((q2.1 - g 1) ^ 2 + g 4 ^ 2 * (q2.2 - g 2) ^ 2) - g 3) ^ 2 / g 5 ^ 2))
      (by intro g g' h; simp only [h 0 (by norm_num), h 1 (by norm_num), h 2 (by norm_num), h 3 (by norm_num), h 4 (by norm_num),
        h 5 (by norm_num)])

/-- Every parameter vector with a background is made of peaks and a rest, for every number of parameters of a peak. -/
example : ([3, 4, 5, 6, 7, 8, 9] : List ℝ) = [[3, 4, 5], [6, 7, 8]].flatten ++ [9] := rfl

end Verif.Functions
