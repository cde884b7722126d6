import Verif.Resolution.Ellipsoid
import Verif.Tools.PropsWidths

/-! # Property C163: the ellipsoid drawn is that of the resolution function -/

namespace Verif.Resolution.Ellipsoid

open Real Matrix
open Verif.Crystal (Fail Vec)
open Verif.Tools (fproject SPD quad C90_fproject quad_eq)

/-! ## Specification -/

/-- The resolution function at a point of the scattering plane: Q along the two axes and the energy. -/
noncomputable def resolution (r0 : ℝ) (A : M4) (c p : Vec) : ℝ :=
  let d : Fin 4 → ℝ := ![p 0 - c 0, p 1 - c 1, 0, p 2 - c 2]
  r0 * exp (-(d ⬝ᵥ A *ᵥ d) / 2)

/-- The points where the resolution function has half of its maximum. -/
def HalfMax (r0 : ℝ) (A : M4) (c : Vec) : Set Vec := {p | resolution r0 A c p = resolution r0 A c c / 2}

/-- A resolution matrix: symmetric and positive definite, and the vertical direction apart. -/
structure Flat (A : M4) : Prop where
  spd : SPD A
  vert : ∀ i, i ≠ 2 → A i 2 = 0

/-- No correlation between Q and energy. -/
def Upright (A : M4) : Prop := A 0 3 = 0 ∧ A 1 3 = 0

/-- The matrix without the correlations between Q and energy. -/
def upright (A : M4) : M4 := fun i j =>
  if (i = 3 ∧ (j = 0 ∨ j = 1)) ∨ (j = 3 ∧ (i = 0 ∨ i = 1)) then 0 else A i j

/-! ## The form -/

theorem quad4 {A : M4} (h : ∀ k l, A k l = A l k) (x y w : ℝ) : (![x, y, 0, w] : Fin 4 → ℝ) ⬝ᵥ A *ᵥ ![x, y, 0, w] =
    A 0 0 * x ^ 2 + A 1 1 * y ^ 2 + A 3 3 * w ^ 2 + 2 * A 0 1 * x * y + 2 * A 0 3 * x * w + 2 * A 1 3 * y * w := by
  simp [dotProduct, mulVec, Fin.sum_univ_four, h 1 0, h 3 0, h 3 1]
  ring

theorem level_spd {A : M4} (h : SPD A) : SPD (level A) := by
  refine ⟨fun k l => h.symm _ _, fun x hx => ?_⟩
  have h0 := h.pos ![x 0, x 1, 0, x 2] (by
    obtain ⟨k, hk⟩ := hx
    fin_cases k
    · exact ⟨0, hk⟩
    · exact ⟨1, hk⟩
    · exact ⟨3, hk⟩)
  rw [quad_eq, quad4 h.symm] at h0
  rw [quad_eq]
  have h1 := h.symm 1 0
  have h2 := h.symm 3 0
  have h3 := h.symm 3 1
  simp [level, dotProduct, mulVec, Fin.sum_univ_three, h1, h2, h3]
  linarith

theorem exponent_eq {A : M4} (h : Flat A) (d : Vec) :
    exponent A d = A 0 0 * d 0 ^ 2 + A 1 1 * d 1 ^ 2 + A 3 3 * d 2 ^ 2 + 2 * A 0 1 * d 0 * d 1 := by
  unfold exponent
  rw [h.vert 0 (by decide), h.vert 1 (by decide)]
  ring

theorem exponent_pos {A : M4} (h : Flat A) {d : Vec} (hd : d ≠ 0) : 0 < exponent A d := by
  rw [exponent_eq h]
  have h3 := h.spd.diag 3
  by_cases hxy : d 0 = 0 ∧ d 1 = 0
  · have hw : d 2 ≠ 0 := fun h0 => hd (by funext k; fin_cases k; exacts [hxy.1, hxy.2, h0])
    rw [hxy.1, hxy.2]
    have : 0 < d 2 ^ 2 := by positivity
    nlinarith [mul_pos h3 this]
  · have h0 := h.spd.pos ![d 0, d 1, 0, 0] (by
      by_contra hc
      push Not at hc
      exact hxy ⟨hc 0, hc 1⟩)
    rw [quad_eq, quad4 h.spd.symm] at h0
    have : 0 ≤ A 3 3 * d 2 ^ 2 := by positivity
    nlinarith

theorem exponent_nonneg {A : M4} (h : Flat A) (d : Vec) : 0 ≤ exponent A d := by
  by_cases hd : d = 0
  · rw [hd]; simp [exponent]
  · exact (exponent_pos h hd).le

theorem exponent_smul (A : M4) (t : ℝ) (d : Vec) : exponent A (t • d) = t ^ 2 * exponent A d := by
  simp only [exponent, Pi.smul_apply, smul_eq_mul]
  ring

/-! ## The maximum -/

theorem volMax_eq {r0 : ℝ} (hr : 0 < r0) {A : M4} (hA : Flat A) (c h : Vec) {n : ℕ} (hn : 0 < n) :
    volMax r0 A c h (2 * n) = r0 := by
  unfold volMax
  apply le_antisymm
  · refine Finset.sup'_le _ _ fun s _ => ?_
    unfold volume
    have := exponent_nonneg hA (gridPoint c h (2 * n) (fun k => ((s k : ℕ) : ℝ)) - c)
    have : exp (-1 / 2 * exponent A (gridPoint c h (2 * n) (fun k => ((s k : ℕ) : ℝ)) - c)) ≤ 1 := by
      rw [exp_le_one_iff]; linarith
    nlinarith
  · refine le_trans (le_of_eq ?_) (Finset.le_sup' _ (Finset.mem_univ fun _ => ⟨n, by omega⟩))
    have : gridPoint c h (2 * n) (fun _ : Fin 3 => (((⟨n, by omega⟩ : Fin (2 * n + 1)) : ℕ) : ℝ)) = c := by
      funext k
      unfold gridPoint
      have : (0 : ℝ) < n := by exact_mod_cast hn
      push_cast
      field_simp
      ring
    unfold volume
    rw [this]
    simp [exponent]

theorem half_iff {r0 : ℝ} (hr : 0 < r0) (x : ℝ) : r0 * exp (-1 / 2 * x) = r0 / 2 ↔ x = 2 * log 2 := by
  rw [show r0 / 2 = r0 * 2⁻¹ from div_eq_mul_inv _ _, mul_right_inj' hr.ne']
  have : (2 : ℝ)⁻¹ = exp (-log 2) := by rw [exp_neg, exp_log two_pos]
  rw [this, exp_eq_exp]
  constructor <;> intro h <;> linarith

theorem halfMax_iff {r0 : ℝ} (hr : 0 < r0) {A : M4} (hA : ∀ k l, A k l = A l k) (c p : Vec) : p ∈ HalfMax r0 A c ↔
    (let d := p - c
     A 0 0 * d 0 ^ 2 + A 1 1 * d 1 ^ 2 + A 3 3 * d 2 ^ 2 + 2 * A 0 1 * d 0 * d 1 + 2 * A 0 3 * d 0 * d 2 +
      2 * A 1 3 * d 1 * d 2) = 2 * log 2 := by
  simp only [HalfMax, Set.mem_setOf_eq, resolution]
  rw [quad4 hA, quad4 hA, ← half_iff hr]
  simp only [sub_self, Pi.sub_apply]
  rw [show ∀ x : ℝ, -x / 2 = -1 / 2 * x by intro x; ring]
  norm_num

/-- What is drawn: the surface with the correlations left out and the distances to the centre halved. -/
theorem surface_iff {r0 : ℝ} (hr : 0 < r0) {A : M4} (hA : Flat A) (c : Vec) {h : Vec} (hh : ∀ k, 0 < h k) {n : ℕ}
    (hn : 0 < n) (p : Vec) : p ∈ surface r0 A c h (2 * n) ↔
      (∀ k, |p k - c k| ≤ h k / 2) ∧ exponent A ((2 : ℝ) • (p - c)) = 2 * log 2 := by
  have hn' : (0 : ℝ) < n := by exact_mod_cast hn
  unfold surface
  rw [Set.mem_setOf_eq, volMax_eq hr hA c h hn]
  have key : ∀ s : Vec, (∀ k, p k = s k * (h k / ((2 * n : ℕ) : ℝ)) + c k - h k / 2) →
      gridPoint c h (2 * n) s - c = (2 : ℝ) • (p - c) := by
    intro s hs
    funext k
    simp only [gridPoint, Pi.sub_apply, Pi.smul_apply, smul_eq_mul, hs]
    ring
  constructor
  · rintro ⟨s, h1, h2, h3⟩
    refine ⟨fun k => ?_, ?_⟩
    · obtain ⟨a, b⟩ := h1 k
      have e : p k - c k = h k / 2 * (s k / n - 1) := by
        rw [h3 k]; push_cast; field_simp; ring
      rw [e, abs_mul, abs_of_pos (half_pos (hh k))]
      push_cast at b
      have h4 : s k / n ≤ 2 := by rw [div_le_iff₀ hn']; linarith
      have h5 : 0 ≤ s k / n := by positivity
      have : |s k / n - 1| ≤ 1 := by rw [abs_le]; constructor <;> linarith
      nlinarith [hh k]
    · unfold volume at h2
      rw [key s h3, half_iff hr] at h2
      exact h2
  · rintro ⟨h1, h2⟩
    have hs : ∀ k, p k = ((p k - c k) / (h k / 2) + 1) * n * (h k / ((2 * n : ℕ) : ℝ)) + c k - h k / 2 := by
      intro k
      have := hh k
      push_cast
      field_simp
      ring
    refine ⟨fun k => ((p k - c k) / (h k / 2) + 1) * n, fun k => ?_, ?_, hs⟩
    · have h3 : |(p k - c k) / (h k / 2)| ≤ 1 := by
        rw [abs_div, abs_of_pos (half_pos (hh k)), div_le_one (half_pos (hh k))]
        exact h1 k
      rw [abs_le] at h3
      push_cast
      constructor
      · nlinarith
      · nlinarith
    · unfold volume
      rw [key _ hs, half_iff hr]
      exact h2

/-! ## The box -/

theorem spd_det {M : Matrix (Fin 3) (Fin 3) ℝ} (h : SPD M) : IsUnit M.det := by
  rw [isUnit_iff_ne_zero]
  intro h0
  obtain ⟨v, hv, hm⟩ := Matrix.exists_mulVec_eq_zero_iff.2 h0
  have := h.pos v (by by_contra hc; push Not at hc; exact hv (funext hc))
  rw [quad_eq, hm] at this
  simp at this

theorem spd_inv {M : Matrix (Fin 3) (Fin 3) ℝ} (h : SPD M) (k : Fin 3) : M *ᵥ (M⁻¹ *ᵥ Pi.single k 1) = Pi.single k 1 ∧
    (M⁻¹ *ᵥ Pi.single k 1) k = M⁻¹ k k ∧ 0 < M⁻¹ k k := by
  have e1 : M *ᵥ (M⁻¹ *ᵥ Pi.single k 1) = Pi.single k 1 := by
    rw [mulVec_mulVec, Matrix.mul_nonsing_inv _ (spd_det h), one_mulVec]
  have e2 : (M⁻¹ *ᵥ Pi.single k 1) k = M⁻¹ k k := by simp
  refine ⟨e1, e2, ?_⟩
  have := h.pos (M⁻¹ *ᵥ Pi.single k 1) (by
    by_contra hc
    push Not at hc
    have h0 : M⁻¹ *ᵥ Pi.single k 1 = 0 := funext hc
    rw [h0, mulVec_zero] at e1
    have := congrFun e1 k
    simp at this)
  rw [quad_eq, e1, dotProduct_single, mul_one, e2] at this
  exact this

/-- The coordinates of the points of an ellipsoid. -/
theorem coord_le {M : Matrix (Fin 3) (Fin 3) ℝ} (h : SPD M) (x : Vec) (k : Fin 3) :
    x k ^ 2 ≤ (x ⬝ᵥ M *ᵥ x) * M⁻¹ k k := by
  obtain ⟨e1, e2, e3⟩ := spd_inv h k
  generalize M⁻¹ *ᵥ Pi.single k 1 = y at e1 e2
  have hsym : y ⬝ᵥ M *ᵥ x = x ⬝ᵥ M *ᵥ y := by
    rw [dotProduct_mulVec, ← mulVec_transpose, show Mᵀ = M from Matrix.ext fun i j => h.symm j i, dotProduct_comm]
  have nonneg : ∀ z : Vec, 0 ≤ z ⬝ᵥ M *ᵥ z := by
    intro z
    by_cases hz : z = 0
    · rw [hz]; simp
    · rw [← quad_eq]
      exact (h.pos z (by by_contra hc; push Not at hc; exact hz (funext hc))).le
  have h0 := nonneg (x - (x k / M⁻¹ k k) • y)
  rw [mulVec_sub, mulVec_smul, sub_dotProduct, dotProduct_sub, dotProduct_sub, smul_dotProduct, smul_dotProduct,
    dotProduct_smul, dotProduct_smul, hsym, e1, dotProduct_single, dotProduct_single, mul_one, mul_one, e2] at h0
  simp only [smul_eq_mul] at h0
  have : x k ^ 2 / M⁻¹ k k ≤ x ⬝ᵥ M *ᵥ x := by
    have e : x k / M⁻¹ k k * (x k / M⁻¹ k k * M⁻¹ k k) = x k ^ 2 / M⁻¹ k k := by field_simp
    have e' : x k / M⁻¹ k k * x k = x k ^ 2 / M⁻¹ k k := by field_simp
    rw [e, e'] at h0
    linarith
  rwa [div_le_iff₀ e3] at this

theorem halfSizes_ok {A : M4} (h : SPD A) : ∃ s, halfSizes A = .ok s ∧ (∀ k, 0 < s k) ∧
    ∀ k, s k = √(2 * log 2 * (level A)⁻¹ k k) * 1.01 := by
  have h0 := C90_fproject (level_spd h) 0
  have h1 := C90_fproject (level_spd h) 1
  have h2 := C90_fproject (level_spd h) 2
  have hl : 0 < log 2 := log_pos one_lt_two
  have hs : ∀ k, (![√(2 * log 2 * (level A)⁻¹ 0 0) * 1.01, √(2 * log 2 * (level A)⁻¹ 1 1) * 1.01,
      √(2 * log 2 * (level A)⁻¹ 2 2) * 1.01] : Vec) k = √(2 * log 2 * (level A)⁻¹ k k) * 1.01 := by
    intro k; fin_cases k <;> rfl
  refine ⟨_, ?_, fun k => ?_, hs⟩
  · unfold halfSizes
    erw [h0, ok_bind, h1, ok_bind, h2, ok_bind]
    rfl
  · rw [hs]
    have := (spd_inv (level_spd h) k).2.2
    positivity

/-- The ellipsoid lies within the box. -/
theorem halfMax_box {r0 : ℝ} (hr : 0 < r0) {A : M4} (hA : SPD A) {c p : Vec} (hp : p ∈ HalfMax r0 A c) {s : Vec}
    (hs : ∀ k, s k = √(2 * log 2 * (level A)⁻¹ k k) * 1.01) (k : Fin 3) : |p k - c k| ≤ s k := by
  rw [halfMax_iff hr hA.symm] at hp
  have h1 := coord_le (level_spd hA) (p - c) k
  have e : (p - c) ⬝ᵥ level A *ᵥ (p - c) = 2 * log 2 := by
    rw [← hp]
    have h1 := hA.symm 1 0
    have h2 := hA.symm 3 0
    have h3 := hA.symm 3 1
    simp [level, dotProduct, mulVec, Fin.sum_univ_three, h1, h2, h3]
    ring
  rw [e] at h1
  have h2 := Real.abs_le_sqrt h1
  rw [hs k]
  have := Real.sqrt_nonneg (2 * log 2 * (level A)⁻¹ k k)
  simp only [Pi.sub_apply] at h2
  linarith

/-- Along every direction there is a point of the surface. -/
theorem halfMax_along {r0 : ℝ} (hr : 0 < r0) {A : M4} (hA : SPD A) (c : Vec) {d : Vec} (hd : d ≠ 0) :
    ∃ t : ℝ, 0 < t ∧ c + t • d ∈ HalfMax r0 A c := by
  have hl : 0 < log 2 := log_pos one_lt_two
  have h0 := hA.pos ![d 0, d 1, 0, d 2] (by
    by_contra hc
    push Not at hc
    refine hd (funext fun k => ?_)
    fin_cases k
    · exact hc 0
    · exact hc 1
    · exact hc 3)
  rw [quad_eq, quad4 hA.symm] at h0
  generalize hq : A 0 0 * d 0 ^ 2 + A 1 1 * d 1 ^ 2 + A 3 3 * d 2 ^ 2 + 2 * A 0 1 * d 0 * d 1 + 2 * A 0 3 * d 0 * d 2 +
    2 * A 1 3 * d 1 * d 2 = q at h0
  obtain ⟨t, ht, htq⟩ : ∃ t : ℝ, 0 < t ∧ t ^ 2 * q = 2 * log 2 := by
    refine ⟨√(2 * log 2 / q), by positivity, ?_⟩
    rw [Real.sq_sqrt (by positivity)]
    field_simp
  refine ⟨t, ht, ?_⟩
  rw [halfMax_iff hr hA.symm, ← htq, ← hq]
  simp only [add_sub_cancel_left, Pi.smul_apply, smul_eq_mul]
  ring

theorem upright_symm {A : M4} (h : SPD A) (k l : Fin 4) : upright A k l = upright A l k := by
  unfold upright
  rw [h.symm k l]
  exact if_congr (by tauto) rfl rfl

theorem exponent_upright {r0 : ℝ} (hr : 0 < r0) {A : M4} (hA : Flat A) (c d : Vec) :
    c + d ∈ HalfMax r0 (upright A) c ↔ exponent A d = 2 * log 2 := by
  rw [halfMax_iff hr (upright_symm hA.spd), exponent_eq hA]
  simp [upright]

/-! ## The theorems -/

/-- **C163** what is drawn for one position: the half-maximum surface of the matrix without the correlations between Q
and energy, at half of its size. -/
theorem C163_drawn_partial (u v : Vec) {r : Res} (hr : 0 < r.r0) (hA : Flat r.rms) (p : Vec × ℝ) (ps : List (Vec × ℝ)) {n : ℕ}
    (hn : 0 < n) : ∃ S s, draw u v (2 * n) [r] (p :: ps) = .ok [S] ∧ halfSizes r.rms = .ok s ∧ ∀ x,
      let c : Vec := ![coordinate p.1 u, coordinate p.1 v, p.2]
      x ∈ S ↔ (∀ k, |x k - c k| ≤ s k / 2) ∧ c + (2 : ℝ) • (x - c) ∈ HalfMax r.r0 (upright r.rms) c := by
  obtain ⟨s, h1, h2, h3⟩ := halfSizes_ok hA.spd
  refine ⟨surface r.r0 r.rms ![coordinate p.1 u, coordinate p.1 v, p.2] s (2 * n), s, ?_, h1, fun x => ?_⟩
  · have e : drawOne u v r.r0 r.rms p (2 * n) =
        .ok (surface r.r0 r.rms ![coordinate p.1 u, coordinate p.1 v, p.2] s (2 * n)) := by
      unfold drawOne
      rw [h1]
    show (drawOne u v r.r0 r.rms p (2 * n) >>= fun s => pure [s]) = _
    rw [e, ok_bind]
    rfl
  · intro c
    rw [surface_iff hr hA c h2 hn, exponent_upright hr hA]

/-- **C163** is false: without correlations what is drawn is the surface shrunk to half of its size, and no point of it
is on the surface. -/
theorem C163_size_false (u v : Vec) {r : Res} (hr : 0 < r.r0) (hA : Flat r.rms) (hU : Upright r.rms) (p : Vec × ℝ)
    (ps : List (Vec × ℝ)) {n : ℕ} (hn : 0 < n) : ∃ S, draw u v (2 * n) [r] (p :: ps) = .ok [S] ∧ S.Nonempty ∧
      let c : Vec := ![coordinate p.1 u, coordinate p.1 v, p.2]
      (∀ x, x ∈ S ↔ ∃ y ∈ HalfMax r.r0 r.rms c, x = c + (1 / 2 : ℝ) • (y - c)) ∧ ∀ x ∈ S, x ∉ HalfMax r.r0 r.rms c := by
  obtain ⟨S, s, h1, h2, h3⟩ := C163_drawn_partial u v hr hA p ps hn
  have hup : upright r.rms = r.rms := by
    funext i j
    unfold upright
    split
    · rename_i hc
      have s0 := hA.spd.symm 3 0
      have s1 := hA.spd.symm 3 1
      rcases hc with ⟨rfl, rfl | rfl⟩ | ⟨rfl, rfl | rfl⟩
      · rw [s0, hU.1]
      · rw [s1, hU.2]
      · rw [hU.1]
      · rw [hU.2]
    · rfl
  obtain ⟨s', h4, h5, h6⟩ := halfSizes_ok hA.spd
  rw [h2] at h4
  cases h4
  generalize hc : (![coordinate p.1 u, coordinate p.1 v, p.2] : Vec) = c at h3
  simp only [hup] at h3
  have hiff : ∀ x, x ∈ S ↔ ∃ y ∈ HalfMax r.r0 r.rms c, x = c + (1 / 2 : ℝ) • (y - c) := by
    intro x
    rw [h3]
    constructor
    · rintro ⟨_, hx⟩
      exact ⟨_, hx, by simp [smul_smul]⟩
    · rintro ⟨y, hy, rfl⟩
      refine ⟨fun k => ?_, by simpa [smul_smul] using hy⟩
      have := halfMax_box hr hA.spd hy h6 k
      simp only [Pi.add_apply, Pi.smul_apply, Pi.sub_apply, smul_eq_mul, add_sub_cancel_left]
      rw [abs_mul, abs_of_pos (by norm_num : (0 : ℝ) < 1 / 2)]
      linarith
  refine ⟨S, h1, ?_, ?_⟩
  · obtain ⟨t, _, ht⟩ := halfMax_along hr hA.spd c (d := ![1, 0, 0]) (fun h => by simpa using congrFun h 0)
    exact ⟨_, (hiff _).2 ⟨_, ht, rfl⟩⟩
  · refine ⟨hiff, fun x hx hx' => ?_⟩
    obtain ⟨y, hy, rfl⟩ := (hiff x).1 hx
    rw [halfMax_iff hr hA.spd.symm] at hy hx'
    simp only [Pi.add_apply, Pi.smul_apply, Pi.sub_apply, smul_eq_mul, add_sub_cancel_left] at hy hx'
    have hl : 0 < log 2 := log_pos one_lt_two
    nlinarith

/-- **C163** is false also for the shape: with a correlation between Q and energy the surface that is drawn is tilted
differently from the ellipsoid. -/
theorem C163_tilt_false (u v : Vec) {r : Res} (hr : 0 < r.r0) (hA : Flat r.rms) (hU : ¬ Upright r.rms) (p : Vec × ℝ)
    (ps : List (Vec × ℝ)) {n : ℕ} (hn : 0 < n) : ∃ S, draw u v (2 * n) [r] (p :: ps) = .ok [S] ∧
      let c : Vec := ![coordinate p.1 u, coordinate p.1 v, p.2]
      ∃ y ∈ HalfMax r.r0 r.rms c, c + (1 / 2 : ℝ) • (y - c) ∉ S := by
  obtain ⟨S, s, h1, h2, h3⟩ := C163_drawn_partial u v hr hA p ps hn
  refine ⟨S, h1, ?_⟩
  intro c
  have hd : ∃ d : Vec, d ≠ 0 ∧ (r.rms 0 3 * d 0 + r.rms 1 3 * d 1) * d 2 ≠ 0 := by
    by_cases h0 : r.rms 0 3 = 0
    · have h1' : r.rms 1 3 ≠ 0 := fun h => hU ⟨h0, h⟩
      exact ⟨![0, 1, 1], fun h => by simpa using congrFun h 1, by simpa using h1'⟩
    · exact ⟨![1, 0, 1], fun h => by simpa using congrFun h 0, by simpa using h0⟩
  obtain ⟨d, hd0, hd⟩ := hd
  obtain ⟨t, ht, hy⟩ := halfMax_along hr hA.spd c hd0
  refine ⟨_, hy, fun hx => ?_⟩
  have hx2 := ((h3 _).1 hx).2
  have e : (2 : ℝ) • (c + (1 / 2 : ℝ) • (c + t • d - c) - c) = t • d := by simp [smul_smul]
  have hx3 : c + t • d ∈ HalfMax r.r0 (upright r.rms) c := by
    have : c + (2 : ℝ) • (c + (1 / 2 : ℝ) • (c + t • d - c) - c) ∈ HalfMax r.r0 (upright r.rms) c := hx2
    rwa [e] at this
  rw [exponent_upright hr hA, exponent_eq hA] at hx3
  rw [halfMax_iff hr hA.spd.symm] at hy
  simp only [add_sub_cancel_left, Pi.smul_apply, smul_eq_mul] at hy hx3
  have h5 : 2 * t ^ 2 * ((r.rms 0 3 * d 0 + r.rms 1 3 * d 1) * d 2) = 0 := by linear_combination hy - hx3
  have : 2 * t ^ 2 * ((r.rms 0 3 * d 0 + r.rms 1 3 * d 1) * d 2) ≠ 0 := by
    refine mul_ne_zero (by positivity) hd
  exact this h5

/-- **C163** is false for several positions at once: unless there are four of them an exception is raised. -/
theorem C163_several_false (u v : Vec) (dpi : ℕ) {rs : List Res} {ps : List (Vec × ℝ)} (hl : 2 ≤ rs.length)
    (h4 : rs.length ≠ 4) : draw u v dpi rs ps = .error (if rs.length = 2 then .indexError else .valueError) := by
  match rs, ps with
  | [], _ => simp at hl
  | [_], _ => simp at hl
  | [_, _], [] => rfl
  | [_, _], _ :: _ => rfl
  | [_, _, _], _ => rfl
  | [_, _, _, _], _ => simp at h4
  | _ :: _ :: _ :: _ :: _ :: _, _ =>
    simp [draw]

theorem fproject_nan {M : Matrix (Fin 3) (Fin 3) ℝ} (h1 : M 0 2 = 0) (h2 : M 2 2 = 0) : fproject M 0 = .error .nan := by
  have e : Verif.Crystal.npDiv (M 0 2 ^ 2) (M 2 2) = .error .nan := by
    rw [h1, h2]
    simp [Verif.Crystal.npDiv]
  unfold fproject
  rw [if_pos rfl]
  show (Verif.Crystal.npDiv (M 0 2 ^ 2) (M 2 2) >>= _) = _
  rw [e]
  rfl

/-- **C163** is false for four positions too: the matrices are taken apart along the wrong axis, the third of what is then drawn consists
of elements between the vertical direction and the others, which are all zero, and nothing can be drawn. -/
theorem C163_four_false (u v : Vec) (dpi : ℕ) {rs : List Res} {ps : List (Vec × ℝ)} (h4 : rs.length = 4)
    (hA : ∀ r ∈ rs, Flat r.rms) : ∃ e, draw u v dpi rs ps = .error e := by
  match rs, ps with
  | [r0, r1, r2, r3], [p0, p1, p2, p3] =>
    have hz (i j : Fin 4) (hj : j ≠ 2) : mixed ![r0.rms, r1.rms, r2.rms, r3.rms] 2 j i = 0 := by
      unfold mixed
      fin_cases i
      · exact (hA r0 (by simp)).vert j hj
      · exact (hA r1 (by simp)).vert j hj
      · exact (hA r2 (by simp)).vert j hj
      · exact (hA r3 (by simp)).vert j hj
    obtain ⟨e, he⟩ : ∃ e, drawOne u v r2.r0 (mixed ![r0.rms, r1.rms, r2.rms, r3.rms] 2) p2 dpi = .error e := by
      have h1 : level (mixed ![r0.rms, r1.rms, r2.rms, r3.rms] 2) 0 2 = 0 := hz 3 0 (by decide)
      have h2 : level (mixed ![r0.rms, r1.rms, r2.rms, r3.rms] 2) 2 2 = 0 := hz 3 3 (by decide)
      have he : ∃ e, halfSizes (mixed ![r0.rms, r1.rms, r2.rms, r3.rms] 2) = .error e := by
        unfold halfSizes
        rw [fproject_nan h1 h2]
        exact ⟨_, rfl⟩
      obtain ⟨e, he⟩ := he
      refine ⟨.fail e, ?_⟩
      unfold drawOne
      rw [he]
    unfold draw
    dsimp only
    cases drawOne u v r0.r0 (mixed ![r0.rms, r1.rms, r2.rms, r3.rms] 0) p0 dpi with
    | error e => exact ⟨e, rfl⟩
    | ok s0 =>
      cases drawOne u v r1.r0 (mixed ![r0.rms, r1.rms, r2.rms, r3.rms] 1) p1 dpi with
      | error e => exact ⟨e, rfl⟩
      | ok s1 =>
        rw [he]
        exact ⟨e, rfl⟩
  | [_, _, _, _], [] => exact ⟨_, rfl⟩
  | [_, _, _, _], [_] => exact ⟨_, rfl⟩
  | [_, _, _, _], [_, _] => exact ⟨_, rfl⟩
  | [_, _, _, _], [_, _, _] => exact ⟨_, rfl⟩
  | [_, _, _, _], _ :: _ :: _ :: _ :: _ :: _ => exact ⟨_, rfl⟩
  | [], _ => simp at h4
  | [_], _ => simp at h4
  | [_, _], _ => simp at h4
  | [_, _, _], _ => simp at h4
  | _ :: _ :: _ :: _ :: _ :: _, _ => simp at h4

/-- A matrix as in the theorems, with and without correlation. -/
theorem flat_example (e : ℝ) (he : |e| ≤ 1) :
    Flat (!![4, 1, 0, e; 1, 5, 0, 0; 0, 0, 2, 0; e, 0, 0, 3] : M4) := by
  rw [abs_le] at he
  refine ⟨⟨fun k l => ?_, fun x hx => ?_⟩, fun i hi => ?_⟩
  · fin_cases k <;> fin_cases l <;> rfl
  · have e1 : quad (!![4, 1, 0, e; 1, 5, 0, 0; 0, 0, 2, 0; e, 0, 0, 3] : M4) x =
        4 * x 0 ^ 2 + 2 * x 0 * x 1 + 5 * x 1 ^ 2 + 2 * x 2 ^ 2 + 3 * x 3 ^ 2 + 2 * e * x 0 * x 3 := by
      simp [quad, Fin.sum_univ_four]
      ring
    rw [e1]
    have h1 : 2 * e * x 0 * x 3 ≥ -(x 0 ^ 2 + x 3 ^ 2) := by nlinarith [sq_nonneg (x 0 + x 3), sq_nonneg (x 0 - x 3)]
    obtain ⟨k, hk⟩ := hx
    have h2 : 0 < x 0 ^ 2 + x 1 ^ 2 + x 2 ^ 2 + x 3 ^ 2 := by
      have : 0 < x k ^ 2 := by positivity
      fin_cases k <;> simp at this <;> positivity
    nlinarith [sq_nonneg (x 0 + x 1)]
  · fin_cases i
    · rfl
    · rfl
    · exact absurd rfl hi
    · rfl

example : Flat (!![4, 1, 0, 0; 1, 5, 0, 0; 0, 0, 2, 0; 0, 0, 0, 3] : M4) ∧
    Upright (!![4, 1, 0, 0; 1, 5, 0, 0; 0, 0, 2, 0; 0, 0, 0, 3] : M4) ∧
    Flat (!![4, 1, 0, 1; 1, 5, 0, 0; 0, 0, 2, 0; 1, 0, 0, 3] : M4) ∧
    ¬ Upright (!![4, 1, 0, 1; 1, 5, 0, 0; 0, 0, 2, 0; 1, 0, 0, 3] : M4) :=
  ⟨flat_example 0 (by simp), ⟨rfl, rfl⟩, flat_example 1 (by simp), fun h => by simpa using h.1⟩

end Verif.Resolution.Ellipsoid
