import Verif.Resolution.EllipsoidProps

/-! # Property C163 for odd numbers of grid intervals -/

namespace Verif.Resolution.Ellipsoid

open Real Matrix
open Verif.Crystal (Fail Vec)
open Verif.Tools (fproject SPD quad)

/-- The centre is not a point of the grid, and the largest value found is below the maximum. -/
theorem volMax_odd {r0 : ℝ} (hr : 0 < r0) {A : M4} (hA : Flat A) (c : Vec) {h : Vec} (hh : ∀ k, 0 < h k) (n : ℕ) :
    0 < volMax r0 A c h (2 * n + 1) ∧ volMax r0 A c h (2 * n + 1) < r0 := by
  unfold volMax
  constructor
  · rw [Finset.lt_sup'_iff]
    exact ⟨fun _ => 0, Finset.mem_univ _, mul_pos hr (exp_pos _)⟩
  · rw [Finset.sup'_lt_iff]
    intro s _
    have hne : gridPoint c h (2 * n + 1) (fun k => ((s k : ℕ) : ℝ)) - c ≠ 0 := by
      intro h0
      have h1 := congrFun h0 0
      simp only [gridPoint, Pi.sub_apply, Pi.zero_apply] at h1
      have h2 := hh 0
      have h3 : (0 : ℝ) < ((2 * n + 1 : ℕ) : ℝ) := by positivity
      have h4 : h 0 * (2 * ((s 0 : ℕ) : ℝ) - ((2 * n + 1 : ℕ) : ℝ)) = 0 := by
        field_simp at h1
        nlinarith
      have h5 : 2 * ((s 0 : ℕ) : ℝ) = ((2 * n + 1 : ℕ) : ℝ) := by
        rcases mul_eq_zero.1 h4 with h6 | h6
        · exact absurd h6 h2.ne'
        · linarith
      have h6 : 2 * (s 0 : ℕ) = 2 * n + 1 := by exact_mod_cast h5
      omega
    have hp := exponent_pos hA hne
    unfold volume
    have : exp (-1 / 2 * exponent A (gridPoint c h (2 * n + 1) (fun k => ((s k : ℕ) : ℝ)) - c)) < 1 := by
      rw [exp_lt_one_iff]; linarith
    nlinarith

/-- The surface for any number of intervals. -/
theorem surface_any (r0 : ℝ) (A : M4) (c : Vec) {h : Vec} (hh : ∀ k, 0 < h k) {n : ℕ}
    (hn : 0 < n) (p : Vec) : p ∈ surface r0 A c h n ↔
      (∀ k, |p k - c k| ≤ h k / 2) ∧ volume r0 A c (c + (2 : ℝ) • (p - c)) = volMax r0 A c h n / 2 := by
  have hn' : (0 : ℝ) < n := by exact_mod_cast hn
  unfold surface
  rw [Set.mem_setOf_eq]
  have key : ∀ s : Vec, (∀ k, p k = s k * (h k / (n : ℝ)) + c k - h k / 2) →
      gridPoint c h n s = c + (2 : ℝ) • (p - c) := by
    intro s hs
    funext k
    simp only [gridPoint, Pi.add_apply, Pi.sub_apply, Pi.smul_apply, smul_eq_mul, hs]
    ring
  constructor
  · rintro ⟨s, h1, h2, h3⟩
    refine ⟨fun k => ?_, ?_⟩
    · obtain ⟨a, b⟩ := h1 k
      have e : p k - c k = h k / 2 * (2 * (s k / n) - 1) := by
        rw [h3 k]; field_simp; ring
      rw [e, abs_mul, abs_of_pos (half_pos (hh k))]
      have h4 : s k / n ≤ 1 := by rw [div_le_iff₀ hn']; linarith
      have h5 : 0 ≤ s k / n := by positivity
      have : |2 * (s k / n) - 1| ≤ 1 := by rw [abs_le]; constructor <;> linarith
      nlinarith [hh k]
    · rw [key s h3] at h2
      exact h2
  · rintro ⟨h1, h2⟩
    have hs : ∀ k, p k = ((p k - c k) / h k + 1 / 2) * n * (h k / (n : ℝ)) + c k - h k / 2 := by
      intro k
      have := hh k
      field_simp
      ring
    refine ⟨fun k => ((p k - c k) / h k + 1 / 2) * n, fun k => ?_, ?_, hs⟩
    · have h3 : |(p k - c k) / h k| ≤ 1 / 2 := by
        rw [abs_div, abs_of_pos (hh k), div_le_iff₀ (hh k)]
        linarith [h1 k]
      rw [abs_le] at h3
      constructor
      · nlinarith
      · nlinarith
    · rw [key _ hs]
      exact h2

theorem resolution_upright {r0 : ℝ} {A : M4} (hA : Flat A) (c p : Vec) : resolution r0 (upright A) c p = volume r0 A c p := by
  unfold resolution volume
  dsimp only
  rw [quad4 (upright_symm hA.spd), exponent_eq hA]
  simp only [upright, Pi.sub_apply]
  simp
  left
  ring

/-- **C163** what is drawn when the number of grid intervals is odd: the centre is not a point of the grid, and half of the largest value
`M` found takes the place of half of the maximum.  The surface is again that of the matrix without the correlations
between Q and energy at half of its size, but it lies outside the one drawn for even numbers: there the resolution
function has less than half of its maximum. -/
theorem C163_odd_partial (u v : Vec) {r : Res} (hr : 0 < r.r0) (hA : Flat r.rms) (p : Vec × ℝ) (ps : List (Vec × ℝ)) (n : ℕ) :
    ∃ S s M, draw u v (2 * n + 1) [r] (p :: ps) = .ok [S] ∧ halfSizes r.rms = .ok s ∧ 0 < M ∧ M < r.r0 ∧
      let c : Vec := ![coordinate p.1 u, coordinate p.1 v, p.2]
      (∃ g : Fin 3 → Fin (2 * n + 2), M = resolution r.r0 (upright r.rms) c (fun k => c k - s k + (g k : ℕ) * (2 * s k / (2 * n + 1)))) ∧
      ∀ x, (x ∈ S ↔ (∀ k, |x k - c k| ≤ s k / 2) ∧ resolution r.r0 (upright r.rms) c (c + (2 : ℝ) • (x - c)) = M / 2) ∧
        (x ∈ S → c + (2 : ℝ) • (x - c) ∉ HalfMax r.r0 (upright r.rms) c) := by
  obtain ⟨s, h1, h2, h3⟩ := halfSizes_ok hA.spd
  have hm := volMax_odd hr hA ![coordinate p.1 u, coordinate p.1 v, p.2] h2 n
  have hiff : ∀ x, x ∈ surface r.r0 r.rms ![coordinate p.1 u, coordinate p.1 v, p.2] s (2 * n + 1) ↔
      (∀ k, |x k - (![coordinate p.1 u, coordinate p.1 v, p.2] : Vec) k| ≤ s k / 2) ∧
        resolution r.r0 (upright r.rms) ![coordinate p.1 u, coordinate p.1 v, p.2]
          (![coordinate p.1 u, coordinate p.1 v, p.2] + (2 : ℝ) • (x - ![coordinate p.1 u, coordinate p.1 v, p.2])) =
        volMax r.r0 r.rms ![coordinate p.1 u, coordinate p.1 v, p.2] s (2 * n + 1) / 2 := by
    intro x
    rw [surface_any _ _ _ h2 (by omega), resolution_upright hA]
  refine ⟨surface r.r0 r.rms ![coordinate p.1 u, coordinate p.1 v, p.2] s (2 * n + 1), s,
    volMax r.r0 r.rms ![coordinate p.1 u, coordinate p.1 v, p.2] s (2 * n + 1), ?_, h1, hm.1, hm.2, ?_, fun x => ⟨hiff x, ?_⟩⟩
  · have e : drawOne u v r.r0 r.rms p (2 * n + 1) =
        .ok (surface r.r0 r.rms ![coordinate p.1 u, coordinate p.1 v, p.2] s (2 * n + 1)) := by
      unfold drawOne
      rw [h1]
    show (drawOne u v r.r0 r.rms p (2 * n + 1) >>= fun s => pure [s]) = _
    rw [e, ok_bind]
    rfl
  · obtain ⟨g, _, hg⟩ := Finset.exists_mem_eq_sup' (Finset.univ_nonempty (α := Fin 3 → Fin (2 * n + 1 + 1)))
      fun s' => volume r.r0 r.rms ![coordinate p.1 u, coordinate p.1 v, p.2]
        (gridPoint ![coordinate p.1 u, coordinate p.1 v, p.2] s (2 * n + 1) fun k => ((s' k : ℕ) : ℝ))
    refine ⟨g, ?_⟩
    rw [resolution_upright hA]
    refine Eq.trans hg ?_
    unfold gridPoint
    push_cast
    rfl
  · intro hx hc
    have h4 := ((hiff x).1 hx).2
    have h5 : resolution r.r0 (upright r.rms) ![coordinate p.1 u, coordinate p.1 v, p.2] ![coordinate p.1 u, coordinate p.1 v, p.2] = r.r0 := by
      rw [resolution_upright hA]
      simp [volume, exponent]
    have h6 : resolution r.r0 (upright r.rms) ![coordinate p.1 u, coordinate p.1 v, p.2]
          (![coordinate p.1 u, coordinate p.1 v, p.2] + (2 : ℝ) • (x - ![coordinate p.1 u, coordinate p.1 v, p.2])) = r.r0 / 2 := by
      exact Eq.trans hc (congrArg (· / 2) h5)
    rw [h6] at h4
    linarith [hm.2]

end Verif.Resolution.Ellipsoid
