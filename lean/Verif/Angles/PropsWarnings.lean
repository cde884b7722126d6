import Verif.Angles.PropsSpurion

/-!
# What the Currat-Axe warnings depend on
-/

namespace Verif.Angles

open Real
open Verif.Crystal (Vec)
open Verif.Resolution (Setup)
open Verif.Energy (Consts)

/-! ## Lemmas -/

theorem mem_scanPoints {u v : Vec} {p0 p1 : ℝ × ℝ × ℝ} {n : ℕ} {x : Vec × ℝ} :
    x ∈ scanPoints u v p0 p1 n ↔ ∃ i < n, x = (p0.1 • u + p0.2.1 • v +
        (if n = 1 then (0 : ℝ) else i / (n - 1)) • (p1.1 • u + p1.2.1 • v - (p0.1 • u + p0.2.1 • v)),
      p0.2.2 + (if n = 1 then (0 : ℝ) else i / (n - 1)) * (p1.2.2 - p0.2.2)) := by
  unfold scanPoints
  simp only [List.mem_map, List.mem_range]
  constructor
  · rintro ⟨i, hi, rfl⟩
    exact ⟨i, hi, rfl⟩
  · rintro ⟨i, hi, rfl⟩
    exact ⟨i, hi, rfl⟩

theorem scanPoints_backwards {u v : Vec} {p0 p1 : ℝ × ℝ × ℝ} {n : ℕ} (hn : n ≠ 1) {x : Vec × ℝ}
    (hx : x ∈ scanPoints u v p0 p1 n) : x ∈ scanPoints u v p1 p0 n := by
  rw [mem_scanPoints] at hx ⊢
  obtain ⟨i, hi, rfl⟩ := hx
  have hn' : ((n : ℝ) - 1) ≠ 0 := by
    intro h
    apply hn
    have : (n : ℝ) = 1 := by linarith
    exact_mod_cast this
  have ht : ((n - 1 - i : ℕ) : ℝ) / (n - 1) = 1 - i / (n - 1) := by
    have : ((n - 1 - i : ℕ) : ℝ) = (n : ℝ) - 1 - i := by
      rw [Nat.cast_sub (by omega), Nat.cast_sub (by omega), Nat.cast_one]
    rw [this, sub_div, div_self hn']
  refine ⟨n - 1 - i, by omega, ?_⟩
  simp only [hn, if_false, ht]
  generalize (i : ℝ) / (n - 1) = t
  refine Prod.ext ?_ ?_
  · ext j
    simp only [Pi.add_apply, Pi.smul_apply, Pi.sub_apply, smul_eq_mul]
    ring
  · ring

theorem scanPoints_finer {u v : Vec} {p0 p1 : ℝ × ℝ × ℝ} {n k : ℕ} (hn : 1 < n) (hk : 0 < k) {x : Vec × ℝ}
    (hx : x ∈ scanPoints u v p0 p1 n) : x ∈ scanPoints u v p0 p1 (k * (n - 1) + 1) := by
  rw [mem_scanPoints] at hx ⊢
  obtain ⟨i, hi, rfl⟩ := hx
  have hpos : 0 < k * (n - 1) := Nat.mul_pos hk (by omega)
  have hk' : (k : ℝ) ≠ 0 := by exact_mod_cast hk.ne'
  have ht : ((k * i : ℕ) : ℝ) / (((k * (n - 1) + 1 : ℕ) : ℝ) - 1) = i / (n - 1) := by
    have : ((k * (n - 1) + 1 : ℕ) : ℝ) - 1 = k * ((n : ℝ) - 1) := by
      push_cast
      rw [Nat.cast_sub (by omega)]
      push_cast
      ring
    rw [this, Nat.cast_mul, mul_div_mul_left _ _ hk']
  refine ⟨k * i, ?_, ?_⟩
  · have : k * i ≤ k * (n - 1) := Nat.mul_le_mul_left k (by omega)
    omega
  · rw [if_neg (by omega), if_neg (by omega), ht]

theorem near_mono {tol tol' : ℝ} (h : tol ≤ tol') {a b : Answer} (hn : Near tol a b) : Near tol' a b := by
  obtain ⟨⟨x, y, h1, h2, h3⟩, x', y', h4, h5, h6⟩ := hn
  exact ⟨⟨x, y, h1, h2, h3.trans h⟩, x', y', h4, h5, h6.trans h⟩

/-! ## C234 -/

variable (c : Consts) (s : Setup) (p0 p1 : ℝ × ℝ × ℝ) (n : ℕ)

/-- C234 (partial: positions given by three indices).  with a larger tolerance and further Bragg positions no warning is lost. -/
theorem C234_more_partial {peaks peaks' : List (ℝ × ℝ × ℝ)} (hp : ∀ p ∈ peaks, p ∈ peaks') {tol tol' : ℝ} (ht : tol ≤ tol') :
    ∃ w w', curratAxe c s p0 p1 n (peaks.map fun p => [p.1, p.2.1, p.2.2]) tol = .ok w ∧
      curratAxe c s p0 p1 n (peaks'.map fun p => [p.1, p.2.1, p.2.2]) tol' = .ok w' ∧ ∀ x ∈ w, x ∈ w' := by
  obtain ⟨w, e, h⟩ := C130_warnings_partial c s p0 p1 n peaks tol
  obtain ⟨w', e', h'⟩ := C130_warnings_partial c s p0 p1 n peaks' tol'
  refine ⟨w, w', e, e', fun x hx => ?_⟩
  obtain ⟨h1, p, h2, h3⟩ := (h x).1 hx
  exact (h' x).2 ⟨h1, p, hp p h2, near_mono ht h3⟩

/-- C234 (partial: positions given by three indices).  the warnings for two lists of Bragg positions together are those for either. -/
theorem C234_together_partial (peaks peaks' : List (ℝ × ℝ × ℝ)) (tol : ℝ) :
    ∃ w w' w'', curratAxe c s p0 p1 n (peaks.map fun p => [p.1, p.2.1, p.2.2]) tol = .ok w ∧
      curratAxe c s p0 p1 n (peaks'.map fun p => [p.1, p.2.1, p.2.2]) tol = .ok w' ∧
      curratAxe c s p0 p1 n ((peaks ++ peaks').map fun p => [p.1, p.2.1, p.2.2]) tol = .ok w'' ∧
      ∀ x, x ∈ w'' ↔ x ∈ w ∨ x ∈ w' := by
  obtain ⟨w, e, h⟩ := C130_warnings_partial c s p0 p1 n peaks tol
  obtain ⟨w', e', h'⟩ := C130_warnings_partial c s p0 p1 n peaks' tol
  obtain ⟨w'', e'', h''⟩ := C130_warnings_partial c s p0 p1 n (peaks ++ peaks') tol
  refine ⟨w, w', w'', e, e', e'', fun x => ?_⟩
  rw [h, h', h'']
  constructor
  · rintro ⟨h1, p, h2, h3⟩
    rcases List.mem_append.1 h2 with h2 | h2
    · exact .inl ⟨h1, p, h2, h3⟩
    · exact .inr ⟨h1, p, h2, h3⟩
  · rintro (⟨h1, p, h2, h3⟩ | ⟨h1, p, h2, h3⟩)
    · exact ⟨h1, p, List.mem_append.2 (.inl h2), h3⟩
    · exact ⟨h1, p, List.mem_append.2 (.inr h2), h3⟩

/-- C234 (partial: positions given by three indices).  a scan in the opposite direction is warned of at the same points. -/
theorem C234_backwards_partial (hn : n ≠ 1) (peaks : List (ℝ × ℝ × ℝ)) (tol : ℝ) :
    ∃ w w', curratAxe c s p0 p1 n (peaks.map fun p => [p.1, p.2.1, p.2.2]) tol = .ok w ∧
      curratAxe c s p1 p0 n (peaks.map fun p => [p.1, p.2.1, p.2.2]) tol = .ok w' ∧ ∀ x, x ∈ w ↔ x ∈ w' := by
  obtain ⟨w, e, h⟩ := C130_warnings_partial c s p0 p1 n peaks tol
  obtain ⟨w', e', h'⟩ := C130_warnings_partial c s p1 p0 n peaks tol
  refine ⟨w, w', e, e', fun x => ?_⟩
  rw [h, h']
  exact and_congr_left fun _ => ⟨scanPoints_backwards hn, scanPoints_backwards hn⟩

/-- C234 (partial: positions given by three indices).  a scan with the steps divided into `k` smaller ones is warned of at least where the
original one is. -/
theorem C234_finer_partial {k : ℕ} (hn : 1 < n) (hk : 0 < k) (peaks : List (ℝ × ℝ × ℝ)) (tol : ℝ) :
    ∃ w w', curratAxe c s p0 p1 n (peaks.map fun p => [p.1, p.2.1, p.2.2]) tol = .ok w ∧
      curratAxe c s p0 p1 (k * (n - 1) + 1) (peaks.map fun p => [p.1, p.2.1, p.2.2]) tol = .ok w' ∧
      ∀ x ∈ w, x ∈ w' := by
  obtain ⟨w, e, h⟩ := C130_warnings_partial c s p0 p1 n peaks tol
  obtain ⟨w', e', h'⟩ := C130_warnings_partial c s p0 p1 (k * (n - 1) + 1) peaks tol
  refine ⟨w, w', e, e', fun x hx => ?_⟩
  obtain ⟨h1, h2⟩ := (h x).1 hx
  exact (h' x).2 ⟨scanPoints_finer hn hk h1, h2⟩

/-- A scan of one point is the exception: it consists of its start, and backwards of its end. -/
example (u v : Vec) : scanPoints u v (0, 0, 0) (0, 0, 1) 1 = [(0, 0)] ∧
    scanPoints u v (0, 0, 1) (0, 0, 0) 1 = [(0, 1)] := by
  constructor <;> simp [scanPoints]

end Verif.Angles
