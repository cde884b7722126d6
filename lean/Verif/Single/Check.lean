import Mathlib.Analysis.Complex.Exponential
import Mathlib.Data.Complex.Basic
import Mathlib.Tactic.Positivity
import Mathlib.Tactic.FieldSimp
import Mathlib.Tactic.Ring
import Mathlib.Tactic.LinearCombination
import Mathlib.Tactic.Linarith

/-!
# Bounds of polynomials and quotients on intervals

Polynomials with whole coefficients as lists, lowest power first.  A polynomial whose coefficients in the basis of Bernstein are
not negative is not negative on the interval; this is decided by computation, and proved to be sound.
-/

namespace Verif.Single

open Real

/-- A polynomial as a function. -/
noncomputable def ev (p : List ℤ) (x : ℝ) : ℝ := p.foldr (fun (c : ℤ) (acc : ℝ) => (c : ℝ) + x * acc) 0

@[simp] theorem ev_nil (x : ℝ) : ev [] x = 0 := rfl
@[simp] theorem ev_cons (c : ℤ) (p : List ℤ) (x : ℝ) : ev (c :: p) x = c + x * ev p x := rfl

/-- Sum. -/
def padd : List ℤ → List ℤ → List ℤ
  | [], q => q
  | a :: p, [] => a :: p
  | a :: p, b :: q => (a + b) :: padd p q

theorem ev_padd : ∀ (p q : List ℤ) (x : ℝ), ev (padd p q) x = ev p x + ev q x
  | [], q, x => by simp [padd]
  | a :: p, [], x => by simp [padd]
  | a :: p, b :: q, x => by
    simp only [padd, ev_cons, ev_padd p q x]
    push_cast
    ring

/-- Multiple. -/
def psmul (c : ℤ) (p : List ℤ) : List ℤ := p.map (c * ·)

theorem ev_psmul (c : ℤ) : ∀ (p : List ℤ) (x : ℝ), ev (psmul c p) x = c * ev p x
  | [], x => by simp [psmul]
  | a :: p, x => by
    have := ev_psmul c p x
    unfold psmul at this ⊢
    simp only [List.map_cons, ev_cons, this]
    push_cast
    ring

/-- Product. -/
def pmul (p q : List ℤ) : List ℤ := p.foldr (fun a acc => padd (psmul a q) (0 :: acc)) []

theorem ev_pmul (p q : List ℤ) (x : ℝ) : ev (pmul p q) x = ev p x * ev q x := by
  induction p with
  | nil => simp [pmul]
  | cons a p ih =>
    unfold pmul at ih ⊢
    rw [List.foldr_cons, ev_padd, ev_psmul, ev_cons, ih, ev_cons]
    push_cast
    ring

/-- The coefficients of `(d + d y) ^ n p((l + r y) / (d + d y))`, and `(d + d y) ^ n`, with `n` the number of coefficients of `p`
(divided by `d + d y` in the first). -/
def bern (p : List ℤ) (l r d : ℤ) : List ℤ × List ℤ :=
  p.foldr (fun c a => (padd (psmul c a.2) (pmul [l, r] a.1), pmul [d, d] a.2)) ([], [1])

theorem ev_bern (p : List ℤ) (l r : ℤ) {d : ℤ} (hd : 0 < d) {y : ℝ} (hy : 0 ≤ y) :
    ev (bern p l r d).1 y * (d + d * y) = ev p ((l + r * y) / (d + d * y)) * ev (bern p l r d).2 y ∧ 0 < ev (bern p l r d).2 y := by
  induction p with
  | nil => simp [bern]
  | cons c p ih =>
    obtain ⟨b, hb⟩ : ∃ b, b = bern p l r d := ⟨_, rfl⟩
    have e : bern (c :: p) l r d = (padd (psmul c b.2) (pmul [l, r] b.1), pmul [d, d] b.2) := by
      rw [hb]
      rfl
    rw [← hb] at ih
    rw [e]
    obtain ⟨h1, h2⟩ := ih
    simp only [ev_padd, ev_psmul, ev_pmul, ev_cons, ev_nil]
    have hd' : (0 : ℝ) < d := by exact_mod_cast hd
    have hy' : 0 < d + d * y := by positivity
    obtain ⟨z, hz⟩ : ∃ z, z = (l + r * y) / (d + d * y) := ⟨_, rfl⟩
    have hz' : z * (d + d * y) = l + r * y := by
      rw [hz, div_mul_cancel₀ _ hy'.ne']
    rw [← hz] at h1 ⊢
    refine ⟨?_, ?_⟩
    · linear_combination (l + r * y) * h1 - ev p z * ev b.2 y * hz'
    · have := mul_pos hy' h2
      linarith

theorem ev_nonneg {p : List ℤ} (h : p.all (fun c => decide (0 ≤ c)) = true) {y : ℝ} (hy : 0 ≤ y) : 0 ≤ ev p y := by
  induction p with
  | nil => simp
  | cons c p ih =>
    rw [List.all_cons, Bool.and_eq_true, decide_eq_true_eq] at h
    rw [ev_cons]
    have := ih h.2
    have hc : (0 : ℝ) ≤ c := by exact_mod_cast h.1
    positivity

/-- The polynomial is not negative on the interval from `l / d` to `r / d`. -/
def nonnegOn (p : List ℤ) (l r d : ℤ) : Bool := (bern p l r d).1.all fun c => decide (0 ≤ c)

theorem nonnegOn_sound {p : List ℤ} {l r d : ℤ} (hd : 0 < d) (h : nonnegOn p l r d = true) {x : ℝ} (hl : l / d ≤ x) (hr : x < r / d) :
    0 ≤ ev p x := by
  have hd' : (0 : ℝ) < d := by exact_mod_cast hd
  have hl' : 0 ≤ d * x - l := by
    rw [div_le_iff₀ hd'] at hl
    linarith
  have hr' : 0 < r - d * x := by
    rw [lt_div_iff₀ hd'] at hr
    linarith
  have hy : 0 ≤ (d * x - l) / (r - d * x) := by positivity
  obtain ⟨h1, h2⟩ := ev_bern p l r hd hy
  have hrl : (r : ℝ) - l ≠ 0 := by
    have : (0 : ℝ) < r - l := by linarith
    exact this.ne'
  have e1 : (d : ℝ) + d * ((d * x - l) / (r - d * x)) = d * (r - l) / (r - d * x) := by
    field_simp
    ring
  have e : ((l : ℝ) + r * ((d * x - l) / (r - d * x))) / (d + d * ((d * x - l) / (r - d * x))) = x := by
    rw [e1, div_eq_iff (by positivity)]
    field_simp
    ring
  rw [e] at h1
  have h3 := mul_nonneg (ev_nonneg h hy) (by positivity : 0 ≤ (d : ℝ) + d * ((d * x - l) / (r - d * x)))
  rw [h1] at h3
  exact nonneg_of_mul_nonneg_left h3 h2

/-- The coefficients of `d ^ n p((l + y) / d)`, and `d ^ n` (divided by `d` in the first). -/
def taylor (p : List ℤ) (l d : ℤ) : List ℤ × ℤ := p.foldr (fun c a => (padd [c * a.2] (pmul [l, 1] a.1), a.2 * d)) ([], 1)

theorem ev_taylor (p : List ℤ) (l : ℤ) {d : ℤ} (hd : 0 < d) (y : ℝ) :
    ev (taylor p l d).1 y * d = ev p ((l + y) / d) * (taylor p l d).2 ∧ 0 < (taylor p l d).2 := by
  induction p with
  | nil => simp [taylor]
  | cons c p ih =>
    obtain ⟨b, hb⟩ : ∃ b, b = taylor p l d := ⟨_, rfl⟩
    have e : taylor (c :: p) l d = (padd [c * b.2] (pmul [l, 1] b.1), b.2 * d) := by
      rw [hb]
      rfl
    rw [← hb] at ih
    rw [e]
    obtain ⟨h1, h2⟩ := ih
    have hd' : (0 : ℝ) < d := by exact_mod_cast hd
    obtain ⟨z, hz⟩ : ∃ z, z = (l + y) / d := ⟨_, rfl⟩
    have hz' : z * d = l + y := by
      rw [hz, div_mul_cancel₀ _ hd'.ne']
    simp only [ev_padd, ev_pmul, ev_cons, ev_nil]
    rw [← hz] at h1 ⊢
    refine ⟨?_, mul_pos h2 hd⟩
    push_cast
    linear_combination (l + y) * h1 - ev p z * b.2 * hz'

/-- The polynomial is not negative beyond `l / d`. -/
def nonnegFrom (p : List ℤ) (l d : ℤ) : Bool := (taylor p l d).1.all fun c => decide (0 ≤ c)

theorem nonnegFrom_sound {p : List ℤ} {l d : ℤ} (hd : 0 < d) (h : nonnegFrom p l d = true) {x : ℝ} (hl : l / d ≤ x) : 0 ≤ ev p x := by
  have hd' : (0 : ℝ) < d := by exact_mod_cast hd
  have hl' : 0 ≤ d * x - l := by
    rw [div_le_iff₀ hd'] at hl
    linarith
  have h1 := ev_nonneg h hl'
  obtain ⟨h2, h3⟩ := ev_taylor p l hd (d * x - l)
  rw [add_sub_cancel, mul_div_cancel_left₀ _ hd'.ne'] at h2
  have h4 := mul_nonneg h1 hd'.le
  rw [h2] at h4
  exact nonneg_of_mul_nonneg_left h4 (by exact_mod_cast h3)

/-! ## Complex values -/

/-- Real and imaginary part. -/
abbrev CPoly := List ℤ × List ℤ

/-- A complex polynomial in a real variable as a function. -/
noncomputable def cev (p : CPoly) (x : ℝ) : ℂ := ⟨ev p.1 x, ev p.2 x⟩

def cadd (p q : CPoly) : CPoly := (padd p.1 q.1, padd p.2 q.2)
def csmul (c : ℤ) (p : CPoly) : CPoly := (psmul c p.1, psmul c p.2)
def cmul (p q : CPoly) : CPoly := (padd (pmul p.1 q.1) (psmul (-1) (pmul p.2 q.2)), padd (pmul p.1 q.2) (pmul p.2 q.1))

theorem cev_cadd (p q : CPoly) (x : ℝ) : cev (cadd p q) x = cev p x + cev q x := by
  apply Complex.ext <;> simp [cev, cadd, ev_padd]

theorem cev_csmul (c : ℤ) (p : CPoly) (x : ℝ) : cev (csmul c p) x = c * cev p x := by
  apply Complex.ext <;> simp [cev, csmul, ev_psmul]

theorem cev_cmul (p q : CPoly) (x : ℝ) : cev (cmul p q) x = cev p x * cev q x := by
  apply Complex.ext <;> simp [cev, cmul, ev_padd, ev_pmul, ev_psmul]
  ring

/-- A polynomial with whole coefficients at a complex number. -/
noncomputable def cpoly (cs : List ℤ) (t : ℂ) : ℂ := cs.foldr (fun (c : ℤ) (acc : ℂ) => (c : ℂ) + t * acc) 0

/-- The same along the curve `T / τ`, times a power of `τ`. -/
def along (cs : List ℤ) (T : CPoly) (τ : ℤ) : CPoly × ℤ :=
  cs.foldr (fun c a => (cadd ([c * a.2], []) (cmul T a.1), a.2 * τ)) (([], []), 1)

theorem cev_along (cs : List ℤ) (T : CPoly) {τ : ℤ} (hτ : 0 < τ) (x : ℝ) :
    cev (along cs T τ).1 x * τ = cpoly cs (cev T x / τ) * (τ : ℂ) ^ cs.length ∧ ((along cs T τ).2 : ℂ) = (τ : ℂ) ^ cs.length := by
  induction cs with
  | nil =>
    refine ⟨?_, by simp [along]⟩
    have : cev (along [] T τ).1 x = 0 := by apply Complex.ext <;> simp [along, cev]
    rw [this]
    simp [cpoly]
  | cons c cs ih =>
    obtain ⟨b, hb⟩ : ∃ b, b = along cs T τ := ⟨_, rfl⟩
    have e : along (c :: cs) T τ = (cadd ([c * b.2], []) (cmul T b.1), b.2 * τ) := by
      rw [hb]
      rfl
    have e2 : cpoly (c :: cs) (cev T x / τ) = c + cev T x / τ * cpoly cs (cev T x / τ) := rfl
    rw [← hb] at ih
    rw [e, e2]
    obtain ⟨h1, h2⟩ := ih
    have hτ' : (τ : ℂ) ≠ 0 := by exact_mod_cast hτ.ne'
    have e3 : cev ([c * b.2], []) x = c * b.2 := by apply Complex.ext <;> simp [cev]
    obtain ⟨z, hz⟩ : ∃ z, z = cev T x / τ := ⟨_, rfl⟩
    have hz' : z * τ = cev T x := by
      rw [hz, div_mul_cancel₀ _ hτ']
    rw [← hz] at h1 ⊢
    rw [cev_cadd, cev_cmul, e3, h2, List.length_cons]
    refine ⟨?_, ?_⟩
    · rw [pow_succ]
      linear_combination cev T x * h1 - cpoly cs z * (τ : ℂ) ^ cs.length * hz'
    · push_cast
      rw [h2, pow_succ]

/-- Numerator and denominator of the real part of a quotient. -/
def reNum (N D : CPoly) : List ℤ := padd (pmul N.1 D.1) (pmul N.2 D.2)
def sqAbs (D : CPoly) : List ℤ := padd (pmul D.1 D.1) (pmul D.2 D.2)

theorem ev_reNum (N D : CPoly) (x : ℝ) : ev (reNum N D) x = (cev N x / cev D x).re * ev (sqAbs D) x ∨ cev D x = 0 := by
  by_cases h : cev D x = 0
  · exact .inr h
  · left
    have e : ev (sqAbs D) x = Complex.normSq (cev D x) := by
      rw [sqAbs, ev_padd, ev_pmul, ev_pmul, Complex.normSq_apply]
      rfl
    rw [e, Complex.div_re, reNum, ev_padd, ev_pmul, ev_pmul]
    have hn : Complex.normSq (cev D x) ≠ 0 := fun h0 => h (Complex.normSq_eq_zero.1 h0)
    field_simp
    rfl

theorem ev_sqAbs (D : CPoly) (x : ℝ) : ev (sqAbs D) x = Complex.normSq (cev D x) := by
  rw [sqAbs, ev_padd, ev_pmul, ev_pmul, Complex.normSq_apply]
  rfl

/-- The real part of a quotient of polynomials. -/
theorem along_re {N D : List ℤ} (h : D.length = N.length + 1) (T : CPoly) {τ : ℤ} (hτ : 0 < τ) {x : ℝ} (hD : cpoly D (cev T x / τ) ≠ 0) :
    cev (along D T τ).1 x ≠ 0 ∧
      τ * ev (reNum (along N T τ).1 (along D T τ).1) x = (cpoly N (cev T x / τ) / cpoly D (cev T x / τ)).re * ev (sqAbs (along D T τ).1) x := by
  obtain ⟨n1, -⟩ := cev_along N T hτ x
  obtain ⟨d1, -⟩ := cev_along D T hτ x
  have hτ' : (τ : ℂ) ≠ 0 := by exact_mod_cast hτ.ne'
  have hp : (τ : ℂ) ^ N.length ≠ 0 := pow_ne_zero _ hτ'
  rw [h, pow_succ, ← mul_assoc] at d1
  have d2 := mul_right_cancel₀ hτ' d1
  have h0 : cev (along D T τ).1 x ≠ 0 := by
    rw [d2]
    exact mul_ne_zero hD hp
  refine ⟨h0, ?_⟩
  have e := (ev_reNum (along N T τ).1 (along D T τ).1 x).resolve_right h0
  have q : (τ : ℝ) * (cev (along N T τ).1 x / cev (along D T τ).1 x) = cpoly N (cev T x / τ) / cpoly D (cev T x / τ) := by
    push_cast
    rw [← mul_div_assoc, mul_comm, n1, d2, mul_div_mul_right _ _ hp]
  rw [e, ← mul_assoc, ← q, Complex.re_ofReal_mul]

/-- The two polynomials that have to be positive for `|E / κ - re (N₁/D₁) - re (N₂/D₂)| ≤ ε / κ` along the line `T / τ`. -/
def gap (E : List ℤ) (κ : ℤ) (T : CPoly) (τ : ℤ) (N₁ D₁ N₂ D₂ : List ℤ) (ε : ℤ) : List ℤ × List ℤ :=
  let A := (along D₁ T τ).1
  let B := (along D₂ T τ).1
  let a := sqAbs A
  let b := sqAbs B
  let ab := pmul a b
  let G := padd (pmul E ab) (psmul (-(κ * τ)) (padd (pmul (reNum (along N₁ T τ).1 A) b) (pmul (reNum (along N₂ T τ).1 B) a)))
  let e := psmul ε ab
  (padd e G, padd e (psmul (-1) G))

theorem gap_sound {E : List ℤ} {κ : ℤ} (hκ : 0 < κ) {T : CPoly} {τ : ℤ} (hτ : 0 < τ) {N₁ D₁ N₂ D₂ : List ℤ} {ε : ℤ} {x : ℝ}
    (l1 : D₁.length = N₁.length + 1) (l2 : D₂.length = N₂.length + 1) (h1 : 0 ≤ ev (gap E κ T τ N₁ D₁ N₂ D₂ ε).1 x)
    (h2 : 0 ≤ ev (gap E κ T τ N₁ D₁ N₂ D₂ ε).2 x) (hA : cpoly D₁ (cev T x / τ) ≠ 0) (hB : cpoly D₂ (cev T x / τ) ≠ 0) :
    |ev E x / κ - (cpoly N₁ (cev T x / τ) / cpoly D₁ (cev T x / τ)).re - (cpoly N₂ (cev T x / τ) / cpoly D₂ (cev T x / τ)).re| ≤ ε / κ := by
  obtain ⟨a1, e1⟩ := along_re l1 T hτ hA
  obtain ⟨a2, e2⟩ := along_re l2 T hτ hB
  have hκ' : (0 : ℝ) < κ := by exact_mod_cast hκ
  have pa : 0 < ev (sqAbs (along D₁ T τ).1) x := by
    rw [ev_sqAbs]
    exact Complex.normSq_pos.2 a1
  have pb : 0 < ev (sqAbs (along D₂ T τ).1) x := by
    rw [ev_sqAbs]
    exact Complex.normSq_pos.2 a2
  unfold gap at h1 h2
  simp only [ev_padd, ev_psmul, ev_pmul] at h1 h2
  obtain ⟨a, ha⟩ : ∃ a, a = ev (sqAbs (along D₁ T τ).1) x := ⟨_, rfl⟩
  obtain ⟨b, hb⟩ : ∃ b, b = ev (sqAbs (along D₂ T τ).1) x := ⟨_, rfl⟩
  obtain ⟨p, hp⟩ : ∃ p, p = (cpoly N₁ (cev T x / τ) / cpoly D₁ (cev T x / τ)).re := ⟨_, rfl⟩
  obtain ⟨q, hq⟩ : ∃ q, q = (cpoly N₂ (cev T x / τ) / cpoly D₂ (cev T x / τ)).re := ⟨_, rfl⟩
  obtain ⟨m, hm⟩ : ∃ m, m = ev (reNum (along N₁ T τ).1 (along D₁ T τ).1) x := ⟨_, rfl⟩
  obtain ⟨n, hn⟩ : ∃ n, n = ev (reNum (along N₂ T τ).1 (along D₂ T τ).1) x := ⟨_, rfl⟩
  rw [← ha] at e1 h1 h2 pa
  rw [← hb] at e2 h1 h2 pb
  rw [← hp, ← hm] at e1
  rw [← hq, ← hn] at e2
  rw [← hm, ← hn] at h1 h2
  rw [← hp, ← hq]
  push_cast at h1 h2
  have pab := mul_pos pa pb
  have key : ev E x / κ - p - q = (ev E x - κ * p - κ * q) / κ := by field_simp
  rw [key, abs_div, abs_of_pos hκ', div_le_div_iff_of_pos_right hκ', abs_le]
  constructor
  · refine le_of_mul_le_mul_right ?_ pab
    have : (ev E x - κ * p - κ * q) * (a * b) = ev E x * (a * b) - κ * (τ * m) * b - κ * (τ * n) * a := by
      rw [e1, e2]
      ring
    rw [this]
    linarith
  · refine le_of_mul_le_mul_right ?_ pab
    have : (ev E x - κ * p - κ * q) * (a * b) = ev E x * (a * b) - κ * (τ * m) * b - κ * (τ * n) * a := by
      rw [e1, e2]
      ring
    rw [this]
    linarith

end Verif.Single
