import Verif.Data.Contour

/-! # Property theorems: the mesh of contour plots (C161) -/

namespace Verif.Data.Contour

open Verif.Convolution (linspace)

/-! ## Specification -/

/-- The `n` values `a`, `a + s`, `a + 2 s`, … -/
noncomputable def values (a s : ℝ) (n : ℕ) : List ℝ := List.ofFn fun i : Fin n => a + i * s

/-- The points were measured on a regular axis with `n` values and a spacing that is a multiple of 1e-4. -/
structure Regular (l : List ℝ) (a s : ℝ) (n : ℕ) : Prop where
  pos : 0 < s
  fine : ∃ k : ℤ, s * 10 ^ 4 = k
  two : 2 ≤ n
  mem : ∀ x, x ∈ l ↔ x ∈ values a s n

/-! ## Lemmas -/

theorem values_sorted {a s : ℝ} (hs : 0 < s) (n : ℕ) : (values a s n).SortedLT := by
  unfold values
  rw [List.sortedLT_ofFn_iff]
  intro i j hij
  have : (i : ℝ) < j := by exact_mod_cast hij
  dsimp only
  nlinarith

theorem unique_regular {l : List ℝ} {a s : ℝ} {n : ℕ} (h : Regular l a s n) : unique l = values a s n := by
  unfold unique
  have e : l.toFinset = (values a s n).toFinset := by
    ext x
    simp [h.mem]
  have hs := values_sorted (a := a) h.pos n
  rw [e]
  exact (List.toFinset_sort (· ≤ ·) hs.nodup).2 hs.sortedLE.pairwise

theorem values_cons (a s : ℝ) (n : ℕ) : values a s (n + 1) = a :: values (a + s) s n := by
  unfold values
  rw [List.ofFn_succ]
  simp only [Fin.val_zero, Nat.cast_zero, zero_mul, add_zero, Fin.val_succ, Nat.cast_add, Nat.cast_one]
  congr 2
  funext i
  ring

theorem step_regular {l : List ℝ} {a s : ℝ} {n : ℕ} (h : Regular l a s n) : axisStep l = .ok s := by
  obtain ⟨m, rfl⟩ : ∃ m, n = m + 1 + 1 := ⟨n - 2, by have := h.two; omega⟩
  obtain ⟨k, hk⟩ := h.fine
  unfold axisStep
  rw [unique_regular h, values_cons, values_cons]
  dsimp only
  rw [add_sub_cancel_left, abs_of_pos h.pos]
  unfold around4
  rw [hk, round_intCast, ← hk, mul_div_cancel_right₀ _ (by norm_num)]

theorem head_values (a s : ℝ) {n : ℕ} (hn : 2 ≤ n) : (values a s n).headD 0 = a := by
  obtain ⟨m, rfl⟩ : ∃ m, n = m + 1 := ⟨n - 1, by omega⟩
  rw [values_cons]
  rfl

theorem last_values (a s : ℝ) {n : ℕ} (hn : 2 ≤ n) : (values a s n).getLastD 0 = a + (n - 1 : ℕ) * s := by
  obtain ⟨m, rfl⟩ : ∃ m, n = m + 1 := ⟨n - 1, by omega⟩
  rw [List.getLastD_eq_getLast?, List.getLast?_eq_getElem?]
  unfold values
  rw [List.getElem?_eq_getElem (by simp), List.getElem_ofFn]
  simp

/-- The number of values that the code uses for an axis from `a` to `b`. -/
theorem sparse_regular {l : List ℝ} {a s : ℝ} {n : ℕ} (h : Regular l a s n) :
    sparse l s = if toInt (a + (n - 1 : ℕ) * s - a / s) + 1 < 0 then .error .valueError
      else .ok (linspace a (a + (n - 1 : ℕ) * s) (toInt (a + (n - 1 : ℕ) * s - a / s) + 1).toNat) := by
  unfold sparse
  rw [unique_regular h, head_values a s h.two, last_values a s h.two]
  dsimp only
  rw [if_neg h.pos.ne']

theorem linspace_length (a b : ℝ) (n : ℕ) : (linspace a b n).length = n := by
  simp [linspace]

theorem linspace_values (a s : ℝ) {n : ℕ} (hn : 2 ≤ n) : linspace a (a + (n - 1 : ℕ) * s) n = values a s n := by
  have h1 : ((n - 1 : ℕ) : ℝ) ≠ 0 := by
    have : n - 1 ≠ 0 := by omega
    exact_mod_cast this
  have h4 : (n : ℝ) - 1 = ((n - 1 : ℕ) : ℝ) := by push_cast [Nat.cast_sub (by omega : 1 ≤ n)]; ring
  unfold linspace values
  refine List.ext_getElem (by simp) fun i h2 h3 => ?_
  rw [List.getElem_map, List.getElem_range, List.getElem_ofFn, if_neg (by omega), h4]
  dsimp only
  field_simp
  ring

theorem toInt_nonneg {x : ℝ} (h : 0 ≤ x) : 0 ≤ toInt x := by
  unfold toInt
  rw [if_pos h]
  exact Int.floor_nonneg.2 h

theorem mesh_regular {x y : List ℝ} {a s b t : ℝ} {n m : ℕ} (hx : Regular x a s n) (hy : Regular y b t m) :
    mesh x y = (do let xs ← sparse x s; let ys ← sparse y t; pure (xs, ys)) := by
  unfold mesh
  rw [step_regular hx, step_regular hy]
  rfl

/-! ## C161 -/

/-- Exactly when the mesh of a contour plot has the columns and rows of the data: if the number calculated by the code,
`int(max - min / step) + 1`, is the number of values on both axes. -/
theorem C161_exact {x y : List ℝ} {a s b t : ℝ} {n m : ℕ} (hx : Regular x a s n) (hy : Regular y b t m) :
    mesh x y = .ok (values a s n, values b t m) ↔
      toInt (a + (n - 1 : ℕ) * s - a / s) + 1 = n ∧ toInt (b + (m - 1 : ℕ) * t - b / t) + 1 = m := by
  rw [mesh_regular hx hy, sparse_regular hx, sparse_regular hy]
  constructor
  · intro h
    split_ifs at h with h1 h2
    · exact nomatch h
    · exact nomatch h
    · exact nomatch h
    · have h := Prod.mk.inj (Except.ok.inj h)
      have l1 := congrArg List.length h.1
      have l2 := congrArg List.length h.2
      simp only [linspace_length, values, List.length_ofFn] at l1 l2
      exact ⟨by omega, by omega⟩
  · rintro ⟨h1, h2⟩
    rw [if_neg (by omega), if_neg (by omega), h1, h2, Int.toNat_natCast, Int.toNat_natCast,
      linspace_values a s hx.two, linspace_values b t hy.two]
    rfl

/-- C161 (partial): axes with unit spacing, and axes that end at zero, are drawn with the columns and rows of the data.
Missing: all other axes (`C161_columns_false`, `C161_raises_false`). -/
theorem C161_partial {x y : List ℝ} {a s b t : ℝ} {n m : ℕ} (hx : Regular x a s n) (hy : Regular y b t m)
    (h1 : s = 1 ∨ a + (n - 1 : ℕ) * s = 0) (h2 : t = 1 ∨ b + (m - 1 : ℕ) * t = 0) :
    mesh x y = .ok (values a s n, values b t m) := by
  have key {a s : ℝ} {n : ℕ} (hn : 2 ≤ n) (hs : 0 < s) (h : s = 1 ∨ a + (n - 1 : ℕ) * s = 0) :
      toInt (a + (n - 1 : ℕ) * s - a / s) + 1 = n := by
    have e : a + (n - 1 : ℕ) * s - a / s = ((n - 1 : ℕ) : ℤ) := by
      rcases h with rfl | h
      · push_cast
        ring
      · rw [h, zero_sub]
        have : a = -((n - 1 : ℕ) * s) := by linarith
        rw [this]
        push_cast
        field_simp
    rw [e]
    unfold toInt
    rw [if_pos (by positivity), Int.floor_intCast]
    omega
  exact (C161_exact hx hy).2 ⟨key hx.two hx.pos h1, key hy.two hy.pos h2⟩

/-- C161 is false: with axes that start at zero and have a spacing below one, the mesh always has fewer columns and rows than
there are values. -/
theorem C161_columns_false {x y : List ℝ} {s t : ℝ} {n m : ℕ} (hx : Regular x 0 s n) (hy : Regular y 0 t m) (h1 : s < 1) (h2 : t < 1) :
    ∃ xs ys, mesh x y = .ok (xs, ys) ∧ xs.length < n ∧ ys.length < m := by
  have key {s : ℝ} {n : ℕ} (hn : 2 ≤ n) (hs : 0 < s) (h : s < 1) :
      0 ≤ toInt (0 + (n - 1 : ℕ) * s - 0 / s) ∧ toInt (0 + (n - 1 : ℕ) * s - 0 / s) + 1 < n := by
    have e : 0 + (n - 1 : ℕ) * s - 0 / s = (n - 1 : ℕ) * s := by ring
    have h0 : 0 ≤ ((n - 1 : ℕ) : ℝ) * s := by positivity
    have hp : (0 : ℝ) < (n - 1 : ℕ) := by
      have : 0 < n - 1 := by omega
      exact_mod_cast this
    rw [e]
    refine ⟨toInt_nonneg h0, ?_⟩
    unfold toInt
    rw [if_pos h0]
    have : ⌊((n - 1 : ℕ) : ℝ) * s⌋ < ((n - 1 : ℕ) : ℤ) := Int.floor_lt.2 (by push_cast; nlinarith)
    omega
  obtain ⟨p1, q1⟩ := key hx.two hx.pos h1
  obtain ⟨p2, q2⟩ := key hy.two hy.pos h2
  rw [mesh_regular hx hy, sparse_regular hx, sparse_regular hy, if_neg (by omega), if_neg (by omega)]
  refine ⟨_, _, rfl, ?_, ?_⟩ <;> rw [linspace_length] <;> omega

/-- … and if the first axis starts at a value that is large compared to the spacing, nothing is drawn. -/
theorem C161_raises_false {x y : List ℝ} {a s b t : ℝ} {n m : ℕ} (hx : Regular x a s n) (hy : Regular y b t m)
    (h : a + (n - 1 : ℕ) * s + 2 ≤ a / s) : mesh x y = .error .valueError := by
  have hc : toInt (a + (n - 1 : ℕ) * s - a / s) + 1 < 0 := by
    unfold toInt
    rw [if_neg (by linarith)]
    have : ⌈a + (n - 1 : ℕ) * s - a / s⌉ ≤ -2 := Int.ceil_le.2 (by push_cast; linarith)
    omega
  rw [mesh_regular hx hy, sparse_regular hx, if_pos hc]
  rfl

theorem regular_values {a s : ℝ} {n : ℕ} (hs : 0 < s) (hn : 2 ≤ n) (hk : ∃ k : ℤ, s * 10 ^ 4 = k) : Regular (values a s n) a s n :=
  ⟨hs, hk, hn, fun _ => Iff.rfl⟩

/-- Energies 0, 1, …, 10 at temperatures 1, 2, …, 6 are drawn as they are … -/
example : mesh (values 0 1 11) (values 1 1 6) = .ok (values 0 1 11, values 1 1 6) :=
  C161_partial (regular_values one_pos (by norm_num) ⟨10 ^ 4, by norm_num⟩) (regular_values one_pos (by norm_num) ⟨10 ^ 4, by norm_num⟩)
    (Or.inl rfl) (Or.inl rfl)

/-- … of eleven positions between 0 and 1 only some are left … -/
example : ∃ xs ys, mesh (values 0 0.1 11) (values 0 0.5 9) = .ok (xs, ys) ∧ xs.length < 11 ∧ ys.length < 9 :=
  C161_columns_false (regular_values (by norm_num) (by norm_num) ⟨10 ^ 3, by norm_num⟩)
    (regular_values (by norm_num) (by norm_num) ⟨5 * 10 ^ 3, by norm_num⟩) (by norm_num) (by norm_num)

/-- … and a scan from 1 to 2 in steps of 0.1 cannot be drawn. -/
example : mesh (values 1 0.1 11) (values 0 1 9) = .error .valueError :=
  C161_raises_false (regular_values (by norm_num) (by norm_num) ⟨10 ^ 3, by norm_num⟩)
    (regular_values one_pos (by norm_num) ⟨10 ^ 4, by norm_num⟩) (by norm_num)

end Verif.Data.Contour
