import Verif.Single.Pieces

/-!
# Polynomials in two variables

A list of polynomials in `x`, the coefficients of the powers of `a`.  Where the coefficients in the basis of Bernstein (in `a`) are
polynomials that are not negative beyond a point, the polynomial is not negative on the strip.
-/

namespace Verif.Single

open Real

/-- A polynomial in two variables as a function. -/
noncomputable def ev2 (P : List (List ℤ)) (a x : ℝ) : ℝ := P.foldr (fun (c : List ℤ) (acc : ℝ) => ev c x + a * acc) 0

@[simp] theorem ev2_nil (a x : ℝ) : ev2 [] a x = 0 := rfl
@[simp] theorem ev2_cons (c : List ℤ) (P : List (List ℤ)) (a x : ℝ) : ev2 (c :: P) a x = ev c x + a * ev2 P a x := rfl

/-- Sum. -/
def padd2 : List (List ℤ) → List (List ℤ) → List (List ℤ)
  | [], Q => Q
  | c :: P, [] => c :: P
  | c :: P, d :: Q => padd c d :: padd2 P Q

theorem ev2_padd2 : ∀ (P Q : List (List ℤ)) (a x : ℝ), ev2 (padd2 P Q) a x = ev2 P a x + ev2 Q a x
  | [], Q, a, x => by simp [padd2]
  | c :: P, [], a, x => by simp [padd2]
  | c :: P, d :: Q, a, x => by
    simp only [padd2, ev2_cons, ev2_padd2 P Q a x, ev_padd]
    ring

/-- Product with a polynomial in `x`. -/
def pscale2 (c : List ℤ) (P : List (List ℤ)) : List (List ℤ) := P.map (pmul c)

theorem ev2_pscale2 (c : List ℤ) : ∀ (P : List (List ℤ)) (a x : ℝ), ev2 (pscale2 c P) a x = ev c x * ev2 P a x
  | [], a, x => by simp [pscale2]
  | d :: P, a, x => by
    have := ev2_pscale2 c P a x
    unfold pscale2 at this ⊢
    simp only [List.map_cons, ev2_cons, this, ev_pmul]
    ring

/-- Product. -/
def pmul2 (P Q : List (List ℤ)) : List (List ℤ) := P.foldr (fun c acc => padd2 (pscale2 c Q) ([] :: acc)) []

theorem ev2_pmul2 (P Q : List (List ℤ)) (a x : ℝ) : ev2 (pmul2 P Q) a x = ev2 P a x * ev2 Q a x := by
  induction P with
  | nil => simp [pmul2]
  | cons c P ih =>
    unfold pmul2 at ih ⊢
    rw [List.foldr_cons, ev2_padd2, ev2_pscale2, ev2_cons, ih, ev2_cons, ev_nil]
    ring

/-- The product of a polynomial in `x` and one in `a`. -/
def outer (c q : List ℤ) : List (List ℤ) := q.map fun k => psmul k c

theorem ev2_outer (c : List ℤ) : ∀ (q : List ℤ) (a x : ℝ), ev2 (outer c q) a x = ev c x * ev q a
  | [], a, x => by simp [outer]
  | k :: q, a, x => by
    have := ev2_outer c q a x
    unfold outer at this ⊢
    simp only [List.map_cons, ev2_cons, this, ev_psmul, ev_cons]
    ring

/-- As `bern`, in the first variable. -/
def bern2 (P : List (List ℤ)) (l r d : ℤ) : List (List ℤ) × List ℤ :=
  P.foldr (fun c a => (padd2 (outer c a.2) (pmul2 [[l], [r]] a.1), pmul [d, d] a.2)) ([], [1])

theorem ev2_bern2 (P : List (List ℤ)) (l r : ℤ) {d : ℤ} (hd : 0 < d) {y : ℝ} (hy : 0 ≤ y) (x : ℝ) :
    ev2 (bern2 P l r d).1 y x * (d + d * y) = ev2 P ((l + r * y) / (d + d * y)) x * ev (bern2 P l r d).2 y ∧ 0 < ev (bern2 P l r d).2 y := by
  induction P with
  | nil => simp [bern2]
  | cons c p ih =>
    obtain ⟨b, hb⟩ : ∃ b, b = bern2 p l r d := ⟨_, rfl⟩
    have e : bern2 (c :: p) l r d = (padd2 (outer c b.2) (pmul2 [[l], [r]] b.1), pmul [d, d] b.2) := by
      rw [hb]
      rfl
    rw [← hb] at ih
    rw [e]
    obtain ⟨h1, h2⟩ := ih
    simp only [ev2_padd2, ev2_outer, ev2_pmul2, ev2_cons, ev2_nil, ev_pmul, ev_cons, ev_nil]
    have hd' : (0 : ℝ) < d := by exact_mod_cast hd
    have hy' : 0 < d + d * y := by positivity
    obtain ⟨z, hz⟩ : ∃ z, z = (l + r * y) / (d + d * y) := ⟨_, rfl⟩
    have hz' : z * (d + d * y) = l + r * y := by
      rw [hz, div_mul_cancel₀ _ hy'.ne']
    rw [← hz] at h1 ⊢
    refine ⟨?_, ?_⟩
    · linear_combination (l + r * y) * h1 - ev2 p z x * ev b.2 y * hz'
    · have := mul_pos hy' h2
      linarith

/-- The polynomial is not negative for `l / d ≤ a < r / d` and `m ≤ x`. -/
def nonnegStrip (P : List (List ℤ)) (l r d m : ℤ) : Bool := (bern2 P l r d).1.all fun c => nonnegFrom c m 1

theorem ev2_nonneg {P : List (List ℤ)} {m : ℤ} (h : P.all (fun c => nonnegFrom c m 1) = true) {y x : ℝ} (hy : 0 ≤ y) (hx : m ≤ x) :
    0 ≤ ev2 P y x := by
  induction P with
  | nil => simp
  | cons c P ih =>
    rw [List.all_cons, Bool.and_eq_true] at h
    rw [ev2_cons]
    have h1 := nonnegFrom_sound one_pos h.1 (x := x) (by simpa using hx)
    have h2 := ih h.2
    positivity

theorem nonnegStrip_sound {P : List (List ℤ)} {l r d m : ℤ} (hd : 0 < d) (h : nonnegStrip P l r d m = true) {a x : ℝ} (hl : l / d ≤ a)
    (hr : a < r / d) (hx : m ≤ x) : 0 ≤ ev2 P a x := by
  have hd' : (0 : ℝ) < d := by exact_mod_cast hd
  have hl' : 0 ≤ d * a - l := by
    rw [div_le_iff₀ hd'] at hl
    linarith
  have hr' : 0 < r - d * a := by
    rw [lt_div_iff₀ hd'] at hr
    linarith
  have hy : 0 ≤ (d * a - l) / (r - d * a) := by positivity
  obtain ⟨h1, h2⟩ := ev2_bern2 P l r hd hy x
  have hrl : (r : ℝ) - l ≠ 0 := by
    have : (0 : ℝ) < r - l := by linarith
    exact this.ne'
  have e1 : (d : ℝ) + d * ((d * a - l) / (r - d * a)) = d * (r - l) / (r - d * a) := by
    field_simp
    ring
  have e : ((l : ℝ) + r * ((d * a - l) / (r - d * a))) / (d + d * ((d * a - l) / (r - d * a))) = a := by
    rw [e1, div_eq_iff (by positivity)]
    field_simp
    ring
  rw [e] at h1
  have h3 := mul_nonneg (ev2_nonneg h hy hx) (by positivity : 0 ≤ (d : ℝ) + d * ((d * a - l) / (r - d * a)))
  rw [h1] at h3
  exact nonneg_of_mul_nonneg_left h3 h2

/-! ## At `a - i x` -/

/-- Product with `a` and with a multiple of `x`. -/
def timesA (P : List (List ℤ)) : List (List ℤ) := [] :: P
def timesX (k : ℤ) (P : List (List ℤ)) : List (List ℤ) := pscale2 [0, k] P

/-- Real and imaginary part of a polynomial with whole coefficients at `a - i x`. -/
def plane (cs : List ℤ) : List (List ℤ) × List (List ℤ) :=
  cs.foldr (fun c p => (padd2 [[c]] (padd2 (timesA p.1) (timesX 1 p.2)), padd2 (timesA p.2) (timesX (-1) p.1))) ([], [])

theorem plane_eq (cs : List ℤ) (a x : ℝ) :
    cpoly cs ((a : ℂ) - Complex.I * x) = ⟨ev2 (plane cs).1 a x, ev2 (plane cs).2 a x⟩ := by
  induction cs with
  | nil => apply Complex.ext <;> simp [cpoly, plane]
  | cons c cs ih =>
    obtain ⟨b, hb⟩ : ∃ b, b = plane cs := ⟨_, rfl⟩
    have e : plane (c :: cs) = (padd2 [[c]] (padd2 (timesA b.1) (timesX 1 b.2)), padd2 (timesA b.2) (timesX (-1) b.1)) := by
      rw [hb]
      rfl
    have e2 : cpoly (c :: cs) ((a : ℂ) - Complex.I * x) = c + ((a : ℂ) - Complex.I * x) * cpoly cs ((a : ℂ) - Complex.I * x) := rfl
    rw [e2, ih, ← hb, e]
    apply Complex.ext
    · simp only [ev2_padd2, timesA, timesX, ev2_cons, ev2_nil, ev2_pscale2, ev_cons, ev_nil]
      simp
    · simp only [ev2_padd2, timesA, timesX, ev2_cons, ev2_nil, ev2_pscale2, ev_cons, ev_nil]
      simp

/-- Minus the real part of `N / D`, times the square of `|D|`. -/
def minusRe (N D : List ℤ) : List (List ℤ) :=
  pscale2 [-1] (padd2 (pmul2 (plane N).1 (plane D).1) (pmul2 (plane N).2 (plane D).2))

/-- The square of `|D|`. -/
def planeSq (D : List ℤ) : List (List ℤ) := padd2 (pmul2 (plane D).1 (plane D).1) (pmul2 (plane D).2 (plane D).2)

theorem ev2_planeSq (D : List ℤ) (a x : ℝ) : ev2 (planeSq D) a x = Complex.normSq (cpoly D ((a : ℂ) - Complex.I * x)) := by
  rw [plane_eq, Complex.normSq_apply, planeSq, ev2_padd2, ev2_pmul2, ev2_pmul2]

theorem ev2_minusRe (N D : List ℤ) (a x : ℝ) (hD : cpoly D ((a : ℂ) - Complex.I * x) ≠ 0) :
    ev2 (minusRe N D) a x = -(cpoly N ((a : ℂ) - Complex.I * x) / cpoly D ((a : ℂ) - Complex.I * x)).re * ev2 (planeSq D) a x := by
  have hn : Complex.normSq (cpoly D ((a : ℂ) - Complex.I * x)) ≠ 0 := fun h0 => hD (Complex.normSq_eq_zero.1 h0)
  rw [ev2_planeSq, Complex.div_re, minusRe, ev2_pscale2, ev2_padd2, ev2_pmul2, ev2_pmul2]
  have h1 := congrArg Complex.re (plane_eq N a x)
  have h2 := congrArg Complex.im (plane_eq N a x)
  have h3 := congrArg Complex.re (plane_eq D a x)
  have h4 := congrArg Complex.im (plane_eq D a x)
  dsimp only at h1 h2 h3 h4
  rw [← h1, ← h2, ← h3, ← h4]
  simp only [ev_cons, ev_nil]
  field_simp
  push_cast
  ring

theorem strip_1 : nonnegStrip (minusRe N₄ D₄) 0 3 4 1 = true := by decide +kernel

theorem strip_5 : nonnegStrip (padd2 (pscale2 [0, 0, 2] (minusRe N₄ D₄)) (pscale2 [-1] (timesA (planeSq D₄)))) 0 3 4 5 = true := by decide +kernel

end Verif.Single
