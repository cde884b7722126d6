import Verif.Single.Check
import Mathlib.Analysis.SpecialFunctions.Exp

/-!
# Bounds of the exponential along a line

The exponential near a point is compared with a polynomial, whose factor is the exponential at that point to eight digits.
-/

namespace Verif.Single

open Real

/-! ## The exponential series -/

/-- Its first `n + 1` coefficients times `n!`. -/
def ser (n : ℕ) : List ℤ := (List.range (n + 1)).map fun k => ((n.descFactorial (n - k) : ℕ) : ℤ)

theorem cpoly_append (l : List ℤ) (c : ℤ) (t : ℂ) : cpoly (l ++ [c]) t = cpoly l t + c * t ^ l.length := by
  induction l with
  | nil => simp [cpoly]
  | cons a l ih =>
    unfold cpoly at ih ⊢
    rw [List.cons_append, List.foldr_cons, List.foldr_cons, ih, List.length_cons]
    ring

theorem cpoly_map (f : ℕ → ℤ) (n : ℕ) (t : ℂ) : cpoly ((List.range n).map f) t = ∑ m ∈ Finset.range n, (f m : ℂ) * t ^ m := by
  induction n with
  | zero => simp [cpoly]
  | succ n ih =>
    rw [List.range_succ, List.map_append, List.map_singleton, cpoly_append, ih, Finset.sum_range_succ]
    simp

theorem cpoly_ser (n : ℕ) (t : ℂ) : cpoly (ser n) t = (n.factorial : ℂ) * ∑ m ∈ Finset.range (n + 1), t ^ m / (m.factorial : ℂ) := by
  unfold ser
  rw [cpoly_map, Finset.mul_sum]
  refine Finset.sum_congr rfl fun m hm => ?_
  have hm' : m ≤ n := by
    have := Finset.mem_range.1 hm
    omega
  have h := Nat.factorial_mul_descFactorial (Nat.sub_le n m)
  rw [Nat.sub_sub_self hm'] at h
  have h' : (m.factorial : ℂ) * (n.descFactorial (n - m) : ℂ) = n.factorial := by exact_mod_cast h
  have h0 : (m.factorial : ℂ) ≠ 0 := by exact_mod_cast m.factorial_ne_zero
  rw [← h']
  push_cast
  field_simp

/-! ## The exponential at a point -/

/-- Complex whole numbers. -/
abbrev CZ := ℤ × ℤ

noncomputable def CZ.val (z : CZ) : ℂ := ⟨z.1, z.2⟩
def CZ.mul (z w : CZ) : CZ := (z.1 * w.1 - z.2 * w.2, z.1 * w.2 + z.2 * w.1)
def CZ.smul (c : ℤ) (z : CZ) : CZ := (c * z.1, c * z.2)
def CZ.sub (z w : CZ) : CZ := (z.1 - w.1, z.2 - w.2)
def CZ.nsq (z : CZ) : ℤ := z.1 * z.1 + z.2 * z.2

/-- A polynomial at `z / τ`, times a power of `τ`. -/
def CZ.horner (cs : List ℤ) (z : CZ) (τ : ℤ) : CZ × ℤ :=
  cs.foldr (fun c a => ((c * a.2 + (CZ.mul z a.1).1, (CZ.mul z a.1).2), a.2 * τ)) ((0, 0), 1)

theorem CZ.val_mul (z w : CZ) : (CZ.mul z w).val = z.val * w.val := by
  apply Complex.ext <;> simp [CZ.val, CZ.mul]

theorem CZ.val_smul (c : ℤ) (z : CZ) : (CZ.smul c z).val = c * z.val := by
  apply Complex.ext <;> simp [CZ.val, CZ.smul]

theorem CZ.val_sub (z w : CZ) : (CZ.sub z w).val = z.val - w.val := by
  apply Complex.ext <;> simp [CZ.val, CZ.sub]

theorem CZ.norm_le {z : CZ} {c : ℤ} (hc : 0 ≤ c) (h : z.nsq ≤ c * c) : ‖z.val‖ ≤ c := by
  have hc' : (0 : ℝ) ≤ c := by exact_mod_cast hc
  refine abs_le_of_sq_le_sq' ?_ hc' |>.2
  rw [← Complex.normSq_eq_norm_sq, Complex.normSq_apply]
  unfold CZ.nsq at h
  have h' : ((z.1 : ℝ) * z.1 + z.2 * z.2) ≤ c * c := by exact_mod_cast h
  unfold CZ.val
  dsimp only
  rw [sq]
  exact h'

theorem CZ.val_horner (cs : List ℤ) (z : CZ) {τ : ℤ} (hτ : 0 < τ) :
    (CZ.horner cs z τ).1.val * τ = cpoly cs (z.val / τ) * (τ : ℂ) ^ cs.length ∧ ((CZ.horner cs z τ).2 : ℂ) = (τ : ℂ) ^ cs.length := by
  induction cs with
  | nil =>
    refine ⟨?_, by simp [CZ.horner]⟩
    have : (CZ.horner [] z τ).1.val = 0 := by apply Complex.ext <;> simp [CZ.horner, CZ.val]
    rw [this]
    simp [cpoly]
  | cons c cs ih =>
    obtain ⟨b, hb⟩ : ∃ b, b = CZ.horner cs z τ := ⟨_, rfl⟩
    have e : CZ.horner (c :: cs) z τ = ((c * b.2 + (CZ.mul z b.1).1, (CZ.mul z b.1).2), b.2 * τ) := by
      rw [hb]
      rfl
    have e2 : cpoly (c :: cs) (z.val / τ) = c + z.val / τ * cpoly cs (z.val / τ) := rfl
    have e3 : CZ.val (c * b.2 + (CZ.mul z b.1).1, (CZ.mul z b.1).2) = c * b.2 + z.val * b.1.val := by
      rw [← CZ.val_mul]
      apply Complex.ext <;> simp [CZ.val]
    rw [← hb] at ih
    rw [e, e2, e3]
    obtain ⟨h1, h2⟩ := ih
    have hτ' : (τ : ℂ) ≠ 0 := by exact_mod_cast hτ.ne'
    obtain ⟨w, hw⟩ : ∃ w, w = z.val / τ := ⟨_, rfl⟩
    have hw' : w * τ = z.val := by
      rw [hw, div_mul_cancel₀ _ hτ']
    rw [← hw] at h1 ⊢
    rw [h2, List.length_cons, pow_succ]
    refine ⟨?_, ?_⟩
    · linear_combination z.val * h1 - cpoly cs w * (τ : ℂ) ^ cs.length * hw'
    · push_cast
      rw [h2]

/-- The factor of the numbers in `expAt`. -/
def scale : ℤ := 6227020800 * 1600 ^ 13

/-- `z / 10 ^ 9` is the exponential of `u / 100` to eight digits. -/
def expAt (u z : CZ) : Bool :=
  let s := (CZ.horner (ser 13) u 1600).1
  let s2 := CZ.mul s s
  let s4 := CZ.mul s2 s2
  let s8 := CZ.mul s4 s4
  let s16 := CZ.mul s8 s8
  decide (u.nsq ≤ 1600 * 1600) && decide (u.1 ≤ 0) &&
    decide ((CZ.sub (CZ.smul 1000000000 s16) (CZ.smul (scale ^ 16) z)).nsq ≤ (10 * scale ^ 16) * (10 * scale ^ 16))

theorem square_near {a b : ℂ} {d : ℝ} (ha : ‖a‖ ≤ 1) (hd : d ≤ 1) (h : ‖a - b‖ ≤ d) : ‖a ^ 2 - b ^ 2‖ ≤ 3 * d := by
  have e : a ^ 2 - b ^ 2 = (a - b) * (2 * a - (a - b)) := by ring
  have h2 : ‖2 * a - (a - b)‖ ≤ 3 := by
    calc _ ≤ ‖2 * a‖ + ‖a - b‖ := norm_sub_le _ _
      _ ≤ 2 * 1 + 1 := by
        rw [norm_mul]
        have : ‖(2 : ℂ)‖ = 2 := by simp
        rw [this]
        linarith
      _ = 3 := by norm_num
  rw [e, norm_mul, mul_comm 3 d]
  exact mul_le_mul h h2 (norm_nonneg _) ((norm_nonneg _).trans h)

theorem expAt_sound {u z : CZ} (h : expAt u z = true) : (u.val / 100).re ≤ 0 ∧ ‖Complex.exp (u.val / 100) - z.val / 1000000000‖ ≤ 2e-8 := by
  unfold expAt at h
  simp only [Bool.and_eq_true, decide_eq_true_eq] at h
  obtain ⟨⟨h1, h2⟩, h3⟩ := h
  have hu : u.val.re ≤ 0 := by
    change (u.1 : ℝ) ≤ 0
    exact_mod_cast h2
  have hre : (u.val / 100).re ≤ 0 := by
    have : (u.val / 100).re = u.val.re / 100 := by
      rw [show (100 : ℂ) = ((100 : ℝ) : ℂ) by norm_num, Complex.div_ofReal_re]
    rw [this]
    linarith
  refine ⟨hre, ?_⟩
  have n1 := CZ.norm_le (by norm_num) h1
  have n3 := CZ.norm_le (by unfold scale; norm_num) h3
  obtain ⟨w, hw⟩ : ∃ w : ℂ, w = u.val / (1600 : ℤ) := ⟨_, rfl⟩
  have hwn : ‖w‖ ≤ 1 := by
    rw [hw, norm_div, div_le_one (by norm_num)]
    simpa using n1
  have wu : u.val / 100 = 16 * w := by
    rw [hw]
    push_cast
    ring
  have hwre : w.re ≤ 0 := by
    rw [wu] at hre
    have : (16 * w).re = 16 * w.re := by simp
    linarith
  obtain ⟨S, hS⟩ : ∃ S : ℂ, S = ∑ m ∈ Finset.range 14, w ^ m / (m.factorial : ℂ) := ⟨_, rfl⟩
  have b0 : ‖Complex.exp w - S‖ ≤ 1e-10 := by
    have b := Complex.exp_bound hwn (n := 14) (by norm_num)
    rw [hS]
    refine b.trans ?_
    have p1 : ‖w‖ ^ 14 ≤ 1 := pow_le_one₀ (norm_nonneg _) hwn
    calc _ ≤ 1 * (((14 : ℕ).succ : ℝ) * ((14 : ℕ).factorial * (14 : ℕ) : ℝ)⁻¹) := mul_le_mul_of_nonneg_right p1 (by positivity)
      _ ≤ _ := by norm_num [Nat.factorial]
  have sc : (scale : ℂ) = ((13 : ℕ).factorial : ℂ) * 1600 ^ 13 := by
    unfold scale
    norm_num [Nat.factorial]
  have hs : (CZ.horner (ser 13) u 1600).1.val = scale * S := by
    obtain ⟨v1, -⟩ := CZ.val_horner (ser 13) u (τ := 1600) (by norm_num)
    rw [← hw, cpoly_ser, ← hS] at v1
    have len : (ser 13).length = 14 := by simp [ser]
    rw [len, pow_succ, ← mul_assoc] at v1
    have := mul_right_cancel₀ (by norm_num) v1
    rw [this, sc]
    push_cast
    ring
  have le1 : ∀ k : ℕ, ‖Complex.exp w ^ k‖ ≤ 1 := fun k => by
    rw [norm_pow]
    refine pow_le_one₀ (norm_nonneg _) ?_
    rw [Complex.norm_exp, exp_le_one_iff]
    exact hwre
  have b2 := square_near (by simpa using le1 1) (by norm_num) b0
  have b4 := square_near (le1 2) (by norm_num) b2
  have b8 := square_near (by simpa [← pow_mul] using le1 4) (by norm_num) b4
  have b16 := square_near (by simpa [← pow_mul] using le1 8) (by norm_num) b8
  rw [CZ.val_sub, CZ.val_smul, CZ.val_smul] at n3
  simp only [CZ.val_mul, hs] at n3
  have e : Complex.exp (u.val / 100) = (((Complex.exp w ^ 2) ^ 2) ^ 2) ^ 2 := by
    rw [wu, ← pow_mul, ← pow_mul, ← pow_mul, ← Complex.exp_nat_mul]
    congr 1
  have hsp : (0 : ℝ) < (scale : ℝ) ^ 16 := by
    have : (0 : ℝ) < scale := by unfold scale; norm_num
    positivity
  have n4 : ‖(((S ^ 2) ^ 2) ^ 2) ^ 2 - z.val / 1000000000‖ ≤ 1e-8 := by
    have e2 : ((1000000000 : ℤ) : ℂ) * ((scale * S * (scale * S) * (scale * S * (scale * S))) * (scale * S * (scale * S) * (scale * S * (scale * S))) *
        ((scale * S * (scale * S) * (scale * S * (scale * S))) * (scale * S * (scale * S) * (scale * S * (scale * S))))) - ((scale ^ 16 : ℤ) : ℂ) * z.val =
        ((1000000000 * (scale : ℝ) ^ 16 : ℝ) : ℂ) * ((((S ^ 2) ^ 2) ^ 2) ^ 2 - z.val / 1000000000) := by
      push_cast
      ring
    rw [e2, norm_mul, Complex.norm_real, norm_eq_abs, abs_of_pos (by positivity)] at n3
    push_cast at n3
    have : 1000000000 * (scale : ℝ) ^ 16 * ‖(((S ^ 2) ^ 2) ^ 2) ^ 2 - z.val / 1000000000‖ ≤ 1000000000 * (scale : ℝ) ^ 16 * 1e-8 := by
      norm_num at n3 ⊢
      linarith
    exact le_of_mul_le_mul_left this (by positivity)
  rw [e]
  have tri := norm_sub_le_norm_sub_add_norm_sub ((((Complex.exp w ^ 2) ^ 2) ^ 2) ^ 2) ((((S ^ 2) ^ 2) ^ 2) ^ 2) (z.val / 1000000000)
  norm_num at b16 n4 tri ⊢
  linarith

/-! ## The exponential along a line -/

/-- The square of the point of the line `T / τ` relative to `u / 100`, times `100 τ²`. -/
def rel (T : CPoly) (τ : ℤ) (u : CZ) : CPoly := cadd (cmul ([100], []) (cmul T T)) ([-(u.1 * (τ * τ))], [-(u.2 * (τ * τ))])

/-- The real part of the exponential of the square, as a polynomial, times `factor τ`. -/
def expPoly (T : CPoly) (τ : ℤ) (u z : CZ) : List ℤ := (cmul ([z.1], [z.2]) (along (ser 10) (rel T τ u) (100 * (τ * τ))).1).1

def factor (τ : ℤ) : ℤ := 1000000000 * 3628800 * (100 * (τ * τ)) ^ 10

/-- The polynomial is near the exponential on the interval. -/
def expOn (T : CPoly) (τ l r : ℤ) (u z : CZ) : Bool :=
  expAt u z && nonnegOn (padd [(100 * (τ * τ)) * (100 * (τ * τ))] (psmul (-1) (sqAbs (rel T τ u)))) l r 100

theorem cev_rel (T : CPoly) {τ : ℤ} (hτ : 0 < τ) (u : CZ) (x : ℝ) :
    cev (rel T τ u) x / ((100 * (τ * τ) : ℤ) : ℂ) = (cev T x / τ) ^ 2 - u.val / 100 := by
  have hτ' : (τ : ℂ) ≠ 0 := by exact_mod_cast hτ.ne'
  have e : cev (rel T τ u) x = 100 * (cev T x * cev T x) - u.val * (τ * τ) := by
    unfold rel
    rw [cev_cadd, cev_cmul, cev_cmul, sub_eq_add_neg]
    congr 1
    · congr 1
      apply Complex.ext <;> simp [cev]
    · apply Complex.ext <;> simp [cev, CZ.val]
  rw [e]
  push_cast
  field_simp

theorem expOn_sound {T : CPoly} {τ l r : ℤ} (hτ : 0 < τ) {u z : CZ} (h : expOn T τ l r u z = true) {x : ℝ} (hl : l / 100 ≤ x) (hr : x < r / 100) :
    |(Complex.exp ((cev T x / τ) ^ 2)).re - ev (expPoly T τ u z) x / factor τ| ≤ 2e-7 := by
  unfold expOn at h
  rw [Bool.and_eq_true] at h
  obtain ⟨hre, hz⟩ := expAt_sound h.1
  have hν : 0 < 100 * (τ * τ) := by positivity
  have hs := nonnegOn_sound (by norm_num) h.2 (by exact_mod_cast hl) (by exact_mod_cast hr)
  rw [ev_padd, ev_psmul, ev_sqAbs] at hs
  have hνr : (0 : ℝ) < ((100 * (τ * τ) : ℤ) : ℝ) := by exact_mod_cast hν
  have hνc : ((100 * (τ * τ) : ℤ) : ℂ) ≠ 0 := by exact_mod_cast hν.ne'
  obtain ⟨ν, hνd⟩ : ∃ ν : ℤ, ν = 100 * (τ * τ) := ⟨_, rfl⟩
  have vdef := cev_rel T hτ u x
  obtain ⟨va, hva⟩ := cev_along (ser 10) (rel T τ u) hν x
  have fdef : (factor τ : ℂ) = 1000000000 * 3628800 * ((100 * (τ * τ) : ℤ) : ℂ) ^ 10 := by
    unfold factor
    push_cast
    ring
  have ep : expPoly T τ u z = (cmul ([z.1], [z.2]) (along (ser 10) (rel T τ u) (100 * (τ * τ))).1).1 := rfl
  rw [← hνd] at hνr hνc va vdef fdef hs ep
  obtain ⟨v, hv⟩ : ∃ v, v = cev (rel T τ u) x / (ν : ℂ) := ⟨_, rfl⟩
  rw [← hv] at va vdef
  simp only [ev_cons, ev_nil] at hs
  push_cast at hs
  have hn : ‖v‖ ≤ 1 := by
    rw [hv, norm_div, Complex.norm_intCast, abs_of_pos hνr, div_le_one hνr]
    refine abs_le_of_sq_le_sq' ?_ hνr.le |>.2
    rw [← Complex.normSq_eq_norm_sq]
    linarith
  obtain ⟨S, hS⟩ : ∃ S : ℂ, S = ∑ m ∈ Finset.range 11, v ^ m / (m.factorial : ℂ) := ⟨_, rfl⟩
  have hb' : ‖Complex.exp v - S‖ ≤ 3e-8 := by
    have hb := Complex.exp_bound hn (n := 11) (by norm_num)
    rw [hS]
    refine hb.trans ?_
    have p1 : ‖v‖ ^ 11 ≤ 1 := pow_le_one₀ (norm_nonneg _) hn
    calc _ ≤ 1 * (((11 : ℕ).succ : ℝ) * ((11 : ℕ).factorial * (11 : ℕ) : ℝ)⁻¹) := mul_le_mul_of_nonneg_right p1 (by positivity)
      _ ≤ _ := by norm_num [Nat.factorial]
  have hSn : ‖S‖ ≤ 3 := by
    have h1 : ‖Complex.exp v‖ ≤ exp 1 := by
      rw [Complex.norm_exp, exp_le_exp]
      exact ((le_abs_self _).trans (Complex.abs_re_le_norm v)).trans hn
    have h2 : exp 1 ≤ 2.8 := by
      have := Real.exp_bound' (x := 1) (by norm_num) (by norm_num) (n := 5) (by norm_num)
      refine this.trans ?_
      norm_num [Finset.sum_range_succ, Nat.factorial]
    have h3 := norm_le_norm_add_norm_sub' S (Complex.exp v)
    rw [norm_sub_rev] at h3
    norm_num at h2 hb' ⊢
    linarith
  have e1 : Complex.exp ((cev T x / τ) ^ 2) = Complex.exp (u.val / 100) * Complex.exp v := by
    rw [← Complex.exp_add, vdef]
    congr 1
    ring
  have e2 : ev (expPoly T τ u z) x / factor τ = (z.val / 1000000000 * S).re := by
    have h1 := cev_cmul ([z.1], [z.2]) (along (ser 10) (rel T τ u) ν).1 x
    have e3 : cev ([z.1], [z.2]) x = z.val := by apply Complex.ext <;> simp [cev, CZ.val]
    rw [cpoly_ser] at va
    have len : (ser 10).length = 11 := by simp [ser]
    rw [len, pow_succ, ← mul_assoc, ← hS] at va
    have va' := mul_right_cancel₀ hνc va
    rw [e3, va'] at h1
    have h2 : z.val * ((((10 : ℕ).factorial : ℂ) * S) * (ν : ℂ) ^ 10) = ((factor τ : ℝ) : ℂ) * (z.val / 1000000000 * S) := by
      have : ((factor τ : ℝ) : ℂ) = (factor τ : ℂ) := by push_cast; rfl
      rw [this, fdef]
      norm_num [Nat.factorial]
      ring
    rw [h2] at h1
    have h3 := congrArg Complex.re h1
    rw [Complex.re_ofReal_mul] at h3
    have hf : (factor τ : ℝ) ≠ 0 := by
      have : 0 < factor τ := by unfold factor; positivity
      exact_mod_cast this.ne'
    rw [div_eq_iff hf, mul_comm, ep]
    exact h3
  rw [e1, e2, ← Complex.sub_re]
  refine (Complex.abs_re_le_norm _).trans ?_
  have e4 : Complex.exp (u.val / 100) * Complex.exp v - z.val / 1000000000 * S =
      Complex.exp (u.val / 100) * (Complex.exp v - S) + (Complex.exp (u.val / 100) - z.val / 1000000000) * S := by ring
  have n0 : ‖Complex.exp (u.val / 100)‖ ≤ 1 := by
    rw [Complex.norm_exp, exp_le_one_iff]
    exact hre
  rw [e4]
  calc _ ≤ ‖Complex.exp (u.val / 100)‖ * ‖Complex.exp v - S‖ + ‖Complex.exp (u.val / 100) - z.val / 1000000000‖ * ‖S‖ := by
        rw [← norm_mul, ← norm_mul]
        exact norm_add_le _ _
    _ ≤ 1 * 3e-8 + 2e-8 * 3 := add_le_add (mul_le_mul n0 hb' (norm_nonneg _) zero_le_one) (mul_le_mul hz hSn (norm_nonneg _) (by norm_num))
    _ ≤ 2e-7 := by norm_num

/-- The bound `e` millionths holds on a piece of the line. -/
def piece (T : CPoly) (τ : ℤ) (N₁ D₁ N₂ D₂ : List ℤ) (e l r : ℤ) (u z : CZ) : Bool :=
  expOn T τ l r u z &&
    (let g := gap (expPoly T τ u z) (factor τ) T τ N₁ D₁ N₂ D₂ (e * (1000 * 3628800 * (100 * (τ * τ)) ^ 10))
     nonnegOn g.1 l r 100 && nonnegOn g.2 l r 100)

theorem piece_sound {T : CPoly} {τ : ℤ} (hτ : 0 < τ) {N₁ D₁ N₂ D₂ : List ℤ} (l1 : D₁.length = N₁.length + 1) (l2 : D₂.length = N₂.length + 1)
    {e l r : ℤ} {u z : CZ} (h : piece T τ N₁ D₁ N₂ D₂ e l r u z = true) {x : ℝ}
    (hl : l / 100 ≤ x) (hr : x < r / 100) (hA : cpoly D₁ (cev T x / τ) ≠ 0) (hB : cpoly D₂ (cev T x / τ) ≠ 0) :
    |(Complex.exp ((cev T x / τ) ^ 2)).re - (cpoly N₁ (cev T x / τ) / cpoly D₁ (cev T x / τ)).re - (cpoly N₂ (cev T x / τ) / cpoly D₂ (cev T x / τ)).re| ≤
      e / 1000000 + 2e-7 := by
  unfold piece at h
  simp only [Bool.and_eq_true] at h
  obtain ⟨h1, h2, h3⟩ := h
  have hf : 0 < factor τ := by unfold factor; positivity
  have a := expOn_sound hτ h1 hl hr
  have b := gap_sound hf hτ l1 l2 (nonnegOn_sound (by norm_num) h2 (by exact_mod_cast hl) (by exact_mod_cast hr))
    (nonnegOn_sound (by norm_num) h3 (by exact_mod_cast hl) (by exact_mod_cast hr)) hA hB
  have c : ((e * (1000 * 3628800 * (100 * (τ * τ)) ^ 10) : ℤ) : ℝ) / factor τ = e / 1000000 := by
    have h0 : (τ : ℝ) ≠ 0 := by exact_mod_cast hτ.ne'
    unfold factor
    push_cast
    field_simp
    ring
  rw [c] at b
  rw [abs_le] at a b ⊢
  constructor <;> linarith

end Verif.Single
