import Verif.Data.Whole

/-! # Property C188: data sets made of whole numbers -/

namespace Verif.Data.Whole

/-- Specification: the same numbers as floating point numbers. -/
noncomputable def Col.floats (c : Col) : Col := .float c.vals

theorem floats_vals (c : Col) : c.floats.vals = c.vals := rfl

theorem floor_div_int (x n : ℤ) : (⌊(x : ℝ) / n⌋ : ℤ) = x.fdiv n := by
  rcases le_total 0 n with h | h
  · rw [Int.floor_div_cast_of_nonneg h, Int.floor_intCast, Int.fdiv_eq_ediv_of_nonneg _ h]
  · have h' : 0 ≤ -n := by omega
    rw [← Int.neg_fdiv_neg, Int.fdiv_eq_ediv_of_nonneg _ h', ← neg_div_neg_eq, ← Int.cast_neg, ← Int.cast_neg,
      Int.floor_div_cast_of_nonneg h', Int.floor_intCast]

/-- **C188**: products, quotients and quotients rounded down have the values that they have for floating point numbers, and these are the
products, quotients and rounded quotients of the counts. -/
theorem C188_binary (c : Col) (y : Num) (hy : y.val ≠ 0) :
    (mul c y).vals = (mul c.floats y).vals ∧ (mul c y).vals = c.vals.map (· * y.val) ∧
    (div c y).vals = (div c.floats y).vals ∧ (div c y).vals = c.vals.map (· / y.val) ∧
    (floordiv c y).vals = (floordiv c.floats y).vals ∧ (floordiv c y).vals = c.vals.map fun x => (⌊x / y.val⌋ : ℝ) := by
  have m (c : Col) : (mul c y).vals = c.vals.map (· * y.val) := by
    cases c <;> cases y <;> simp [mul, Col.vals, Num.val]
  have f (c : Col) : (floordiv c y).vals = c.vals.map fun x => (⌊x / y.val⌋ : ℝ) := by
    cases c with
    | float xs => rfl
    | int xs =>
      cases y with
      | float q => rfl
      | int n =>
        simp only [floordiv, Col.vals, List.map_map, Num.val]
        refine List.map_congr_left fun x _ => ?_
        simp only [Function.comp, floor_div_int]
  exact ⟨by rw [m, m, floats_vals], m c, rfl, rfl, by rw [f, f, floats_vals], f c⟩

/-- The hypothesis of `C188_binary` is met: 7 and -7 divided by two, rounded down, are 3 and -4. -/
example : (Num.int 2).val ≠ 0 ∧ (floordiv (.int [7, -7]) (.int 2)).vals = [3, -4] := by
  refine ⟨by norm_num [Num.val], ?_⟩
  have a : Int.fdiv 7 2 = 3 := by decide
  have b : Int.fdiv (-7) 2 = -4 := by decide
  simp [floordiv, Col.vals, a, b]

/-- **C188**, the part that holds: in place the values are those of the operator if the counts are floating point numbers, and for whole
counts if they are multiplied by a whole number or raised to a power that is a whole number and not negative. -/
theorem C188_inplace_partial (y : Num) :
    (∀ xs, imul (.float xs) y = .ok (mul (.float xs) y) ∧ idiv (.float xs) y = .ok (div (.float xs) y)) ∧
    (∀ xs n, imul (.int xs) (.int n) = .ok (mul (.int xs) (.int n))) ∧
    (∀ xs : List ℤ, ∀ n : ℕ, ∃ a b, ipow (.int xs) (.int n) = .ok a ∧ ipow (Col.int xs).floats (.int n) = .ok b ∧ a.vals = b.vals ∧
      a.vals = (Col.int xs).vals.map (· ^ n)) := by
  refine ⟨fun xs => ⟨?_, rfl⟩, fun xs n => rfl, fun xs n => ?_⟩
  · cases y <;> rfl
  · refine ⟨.int (xs.map (· ^ n)), .float ((Col.int xs).vals.map fun x => x ^ ((n : ℤ) : ℝ)), ?_, rfl, ?_, ?_⟩
    · simp [ipow]
    · simp only [Col.vals, List.map_map]
      refine List.map_congr_left fun x _ => ?_
      simp [Function.comp]
    · simp only [Col.vals, List.map_map]
      refine List.map_congr_left fun x _ => ?_
      simp [Function.comp]

/-- **C188** is false in place: whole counts can be multiplied by a floating point number, and divided by any number, only by the operator
that makes a new data set; in place, which for the same counts as floating point numbers has the right values, there is a `TypeError`. -/
theorem C188_inplace_false (xs : List ℤ) :
    (∀ q, imul (.int xs) (.float q) = .error .typeError ∧
      ∃ b, imul (Col.int xs).floats (.float q) = .ok b ∧ b.vals = (mul (.int xs) (.float q)).vals) ∧
    ∀ y, idiv (.int xs) y = .error .typeError ∧ ∃ b, idiv (Col.int xs).floats y = .ok b ∧ b.vals = (div (.int xs) y).vals :=
  ⟨fun _ => ⟨rfl, _, rfl, rfl⟩, fun _ => ⟨rfl, _, rfl, rfl⟩⟩

/-- **C188** is false for powers, though `d ** c` makes a new data set: whole counts cannot be raised to a power that is a floating point
number or negative, of which the same counts as floating point numbers have the values. -/
theorem C188_power_false (xs : List ℤ) :
    (∀ q, ipow (.int xs) (.float q) = .error .typeError ∧
      ∃ b, ipow (Col.int xs).floats (.float q) = .ok b ∧ b.vals = (Col.int xs).vals.map (· ^ q)) ∧
    ∀ n : ℤ, n < 0 → ipow (.int xs) (.int n) = .error .valueError ∧
      ∃ b, ipow (Col.int xs).floats (.int n) = .ok b ∧ b.vals = (Col.int xs).vals.map (· ^ n) := by
  refine ⟨fun q => ⟨rfl, _, rfl, rfl⟩, fun n hn => ⟨by simp [ipow, hn], _, rfl, ?_⟩⟩
  simp [Col.vals, Num.val, Real.rpow_intCast, Col.floats]

/-- The hypothesis of `C188_power_false` is met by the inverse. -/
example : ipow (.int [4]) (.int (-1)) = .error .valueError := ((C188_power_false [4]).2 (-1) (by decide)).1

/-! ### Combining -/

theorem sum_set (xs : List ℝ) (j : ℕ) (x y : ℝ) (h : xs[j]? = some x) : (xs.set j (x + y)).sum = xs.sum + y := by
  induction xs generalizing j with
  | nil => simp at h
  | cons a t ih =>
    cases j with
    | zero =>
      obtain rfl : a = x := by simpa using h
      simp only [List.set_cons_zero, List.sum_cons]
      ring
    | succ k =>
      simp only [List.set_cons_succ, List.sum_cons, ih k (by simpa using h)]
      ring

theorem map_set_cast (xs : List ℤ) (j : ℕ) (n : ℤ) :
    (Col.int (xs.set j n)).vals = (Col.int xs).vals.set j n := by simp [Col.vals, List.map_set]

/-- Whole numbers only. -/
def whole : Num → Prop
  | .int _ => True
  | .float _ => False

def Col.isFloat : Col → Prop
  | .int _ => False
  | .float _ => True

/-- The sum of the counts of a column. -/
noncomputable def Col.total (c : Col) : ℝ := c.vals.sum

/-- The sum of the counts that are added. -/
noncomputable def added (ys : List (Option ℕ × Num)) : ℝ := (ys.map fun y => y.2.val).sum

theorem append_total (c : Col) (y : Num) : (append c y).total = c.total + y.val := by
  cases c <;> cases y <;> simp [append, Col.total, Col.vals, Num.val]

theorem addAt_float {xs : List ℝ} {j : ℕ} {y : Num} {d : Col} (h : addAt (.float xs) j y = .ok d) :
    d.isFloat ∧ d.total = (Col.float xs).total + y.val := by
  simp only [addAt] at h
  cases hx : xs[j]? with
  | none => rw [hx] at h; exact absurd h (by simp)
  | some x =>
    rw [hx] at h
    obtain rfl : Col.float (xs.set j (x + y.val)) = d := by simpa using h
    exact ⟨trivial, sum_set xs j x y.val hx⟩

theorem addAt_int {xs : List ℤ} {j n : _} {d : Col} (h : addAt (.int xs) j (.int n) = .ok d) :
    ∃ zs, d = .int zs ∧ d.total = (Col.int xs).total + n := by
  simp only [addAt] at h
  cases hx : xs[j]? with
  | none => rw [hx] at h; exact absurd h (by simp)
  | some x =>
    rw [hx] at h
    obtain rfl : Col.int (xs.set j (x + n)) = d := by simpa using h
    refine ⟨_, rfl, ?_⟩
    have h' : (Col.int xs).vals[j]? = some (x : ℝ) := by simp [Col.vals, hx]
    have := sum_set _ j (x : ℝ) n h'
    rw [Col.total, map_set_cast, Int.cast_add, this, Col.total]

/-- One iteration conserves the counts if the column is of floating point numbers or what is added is whole, and then the next one does. -/
theorem step_ok {c d : Col} {y : Option ℕ × Num} (hc : c.isFloat ∨ whole y.2) (h : step c y = .ok d) :
    (c.isFloat → d.isFloat) ∧ d.total = c.total + y.2.val := by
  obtain ⟨j | _, v⟩ := y
  · obtain rfl : append c v = d := by simpa [step] using h
    refine ⟨fun hf => ?_, append_total c v⟩
    cases c with
    | int xs => exact hf.elim
    | float xs => cases v <;> trivial
  · rename_i j
    cases c with
    | float xs => exact ⟨fun _ => (addAt_float h).1, (addAt_float h).2⟩
    | int xs =>
      cases v with
      | float q => rcases hc with hc | hc <;> exact hc.elim
      | int n =>
        obtain ⟨zs, -, hz⟩ := addAt_int h
        exact ⟨fun hf => hf.elim, hz⟩

/-- **C188**, the part that holds for combining: if the counts of the first data set are floating point numbers, or those of the second are
whole numbers, the sum of all counts is conserved. -/
theorem C188_combine_partial (c d : Col) (ys : List (Option ℕ × Num)) (hc : c.isFloat ∨ ∀ y ∈ ys, whole y.2)
    (h : combine c ys = .ok d) : d.total = c.total + added ys := by
  induction ys generalizing c with
  | nil =>
    obtain rfl : c = d := by simpa [combine, pure, Except.pure] using h
    simp [added]
  | cons y t ih =>
    simp only [combine, List.foldlM_cons, bind, Except.bind] at h
    cases hs : step c y with
    | error e => rw [hs] at h; exact absurd h (by simp)
    | ok m =>
      rw [hs] at h
      obtain ⟨hf, ht⟩ := step_ok (hc.imp id fun w => w y (by simp)) hs
      rw [ih m (hc.imp hf fun w z hz => w z (List.mem_cons_of_mem _ hz)) h, ht]
      simp only [added, List.map_cons, List.sum_cons]
      ring

/-- The hypotheses of `C188_combine_partial` are met: 3 counts are added to the second row and a row with 4 is new. -/
example : combine (.int [1, 2]) [(some 1, .int 3), (none, .int 4)] = .ok (.int [1, 5, 4]) := by
  simp [combine, step, addAt, append, bind, Except.bind, pure, Except.pure]

theorem truncate_nonneg {x : ℝ} (h : 0 ≤ x) : 0 ≤ truncate x ∧ (truncate x : ℝ) ≤ x ∧ x < truncate x + 1 := by
  simp only [truncate, if_pos h]
  exact ⟨Int.floor_nonneg.2 h, Int.floor_le x, Int.lt_floor_add_one x⟩

/-- **C188** is false for combining: if the counts of the first data set are whole numbers, a count that is added to a row of it and is not
a whole number loses its fraction, without an error; the other way around, and for floating point numbers, nothing is lost. -/
theorem C188_combine_false (xs : List ℤ) (j : ℕ) (x : ℤ) (q : ℝ) (hx : xs[j]? = some x) (h0 : 0 ≤ x + q) :
    ∃ zs : List ℤ, combine (.int xs) [(some j, .float q)] = .ok (.int zs) ∧ (Col.int zs).total = (Col.int xs).total + ⌊q⌋ ∧
      ∃ b, combine (Col.int xs).floats [(some j, .float q)] = .ok b ∧ b.total = (Col.int xs).total + q := by
  have ht : truncate ((x : ℝ) + q) = x + ⌊q⌋ := by
    rw [truncate, if_pos h0, Int.floor_intCast_add]
  have hv : (Col.int xs).vals[j]? = some (x : ℝ) := by simp [Col.vals, hx]
  refine ⟨xs.set j (x + ⌊q⌋), ?_, ?_, .float ((Col.int xs).vals.set j ((x : ℝ) + q)), ?_, sum_set _ j _ q hv⟩
  · simp [combine, step, addAt, hx, ht, bind, Except.bind, pure, Except.pure]
  · rw [Col.total, map_set_cast, Int.cast_add, sum_set _ j _ _ hv, Col.total]
  · simp [combine, step, addAt, Col.floats, hv, Num.val, bind, Except.bind, pure, Except.pure]

/-- The hypotheses of `C188_combine_false` are met: half a count that is added to one count is lost. -/
example : ∃ zs : List ℤ, combine (.int [1]) [(some 0, .float (1 / 2))] = .ok (.int zs) ∧ (Col.int zs).total = 1 := by
  obtain ⟨zs, h, ht, -⟩ := C188_combine_false [1] 0 1 (1 / 2) rfl (by norm_num)
  refine ⟨zs, h, ?_⟩
  rw [ht]
  norm_num [Col.total, Col.vals]

/-- **C03** and **C06** are false for columns of different types: the counts of a row are then not the sum of the counts that belong to it,
and they depend on the order.  A whole count and one that is not whole, at the same point. -/
theorem C06_types_false (x : ℤ) (q : ℝ) (h0 : 0 ≤ x + q) (hq : (⌊q⌋ : ℝ) ≠ q) :
    combine (.int [x]) [(some 0, .float q)] = .ok (.int [x + ⌊q⌋]) ∧ combine (.float [q]) [(some 0, .int x)] = .ok (.float [q + x]) ∧
      (Col.int [x + ⌊q⌋]).vals ≠ [x + q] ∧ (Col.int [x + ⌊q⌋]).vals ≠ (Col.float [q + x]).vals := by
  have ht : truncate ((x : ℝ) + q) = x + ⌊q⌋ := by
    rw [truncate, if_pos h0, Int.floor_intCast_add]
  refine ⟨?_, ?_, fun h => hq ?_, fun h => hq ?_⟩
  · simp [combine, step, addAt, ht, bind, Except.bind, pure, Except.pure]
  · simp [combine, step, addAt, Num.val, bind, Except.bind, pure, Except.pure]
  · simpa [Col.vals] using h
  · simp only [Col.vals, List.map_cons, List.map_nil, List.cons.injEq, and_true, Int.cast_add] at h
    linarith

/-- The hypotheses of `C06_types_false` are met by one and a half. -/
example : (0 : ℝ) ≤ (1 : ℤ) + 1 / 2 ∧ ((⌊(1 / 2 : ℝ)⌋ : ℤ) : ℝ) ≠ 1 / 2 := by
  have : ⌊(1 / 2 : ℝ)⌋ = 0 := by rw [Int.floor_eq_iff]; norm_num
  rw [this]
  norm_num

/-- The number of counts that are added to rows that are there. -/
def matched (ys : List (Option ℕ × Num)) : ℕ := (ys.filter fun y => y.1.isSome).length

theorem nonneg_set {xs : List ℝ} (h : ∀ x ∈ xs, 0 ≤ x) (j : ℕ) {z : ℝ} (hz : 0 ≤ z) : ∀ x ∈ xs.set j z, 0 ≤ x := fun x hx =>
  (List.mem_or_eq_of_mem_set hx).elim (h x) fun e => e ▸ hz

theorem step_bound {c d : Col} {y : Option ℕ × Num} (hc : ∀ x ∈ c.vals, 0 ≤ x) (hy : 0 ≤ y.2.val) (h : step c y = .ok d) :
    (∀ x ∈ d.vals, 0 ≤ x) ∧ d.total ≤ c.total + y.2.val ∧ c.total + y.2.val ≤ d.total + matched [y] := by
  obtain ⟨j | j, v⟩ := y
  · obtain rfl : append c v = d := by simpa [step] using h
    refine ⟨fun x hx => ?_, (append_total c v).le, by simp [append_total, matched]⟩
    have : (append c v).vals = c.vals ++ [v.val] := by
      cases c <;> cases v <;> simp [append, Col.vals, Num.val]
    rw [this, List.mem_append, List.mem_singleton] at hx
    exact hx.elim (hc x) fun e => e ▸ hy
  · replace h : addAt c j v = .ok d := h
    have hm : ((matched [(some j, v)] : ℕ) : ℝ) = 1 := by simp [matched]
    rw [hm]
    cases c with
    | float xs =>
      simp only [addAt] at h
      cases hx : xs[j]? with
      | none => rw [hx] at h; exact absurd h (by simp)
      | some x =>
        rw [hx] at h
        obtain rfl : Col.float (xs.set j (x + v.val)) = d := by simpa using h
        have e : (Col.float (xs.set j (x + v.val))).total = (Col.float xs).total + v.val := sum_set xs j x v.val hx
        refine ⟨nonneg_set hc j (add_nonneg (hc x (List.mem_of_getElem? hx)) hy), e.le, ?_⟩
        rw [e]
        linarith
    | int xs =>
      simp only [addAt] at h
      cases hx : xs[j]? with
      | none => rw [hx] at h; exact absurd h (by simp)
      | some x =>
        rw [hx] at h
        have hv : (Col.int xs).vals[j]? = some (x : ℝ) := by simp [Col.vals, hx]
        have hx0 : (0 : ℝ) ≤ x := hc x (List.mem_of_getElem? hv)
        have key (n : ℤ) : (Col.int (xs.set j n)).total = (Col.int xs).total + ((n : ℝ) - x) := by
          have := sum_set _ j (x : ℝ) ((n : ℝ) - x) hv
          rw [add_sub_cancel] at this
          rw [Col.total, map_set_cast, this, Col.total]
        have pos (n : ℤ) (hn : 0 ≤ n) : ∀ x ∈ (Col.int (xs.set j n)).vals, 0 ≤ x := by
          rw [map_set_cast]
          exact nonneg_set hc j (by exact_mod_cast hn)
        cases v with
        | int n =>
          obtain rfl : Col.int (xs.set j (x + n)) = d := by simpa using h
          refine ⟨pos _ ?_, ?_, ?_⟩
          · have : (0 : ℝ) ≤ ((x + n : ℤ) : ℝ) := by
              rw [Int.cast_add]
              exact add_nonneg hx0 hy
            exact_mod_cast this
          · rw [key, Int.cast_add]
            simp [Num.val]
          · rw [key, Int.cast_add]
            simp [Num.val]
        | float q =>
          obtain rfl : Col.int (xs.set j (truncate (x + q))) = d := by simpa using h
          obtain ⟨t0, t1, t2⟩ := truncate_nonneg (add_nonneg hx0 hy)
          simp only [Num.val] at t1 t2 ⊢
          refine ⟨pos _ t0, ?_, ?_⟩
          · rw [key]
            linarith
          · rw [key]
            linarith

/-- **C188**, how much is lost: for counts that are not negative, of any type, the sum of the counts of the combination is at most that of
the counts that are put together, and lacks at most one count for each count that is added to a row that is there. -/
theorem C188_lost_partial (c d : Col) (ys : List (Option ℕ × Num)) (hc : ∀ x ∈ c.vals, 0 ≤ x) (hy : ∀ y ∈ ys, 0 ≤ y.2.val)
    (h : combine c ys = .ok d) : d.total ≤ c.total + added ys ∧ c.total + added ys ≤ d.total + matched ys := by
  induction ys generalizing c with
  | nil =>
    obtain rfl : c = d := by simpa [combine, pure, Except.pure] using h
    simp [added, matched]
  | cons y t ih =>
    simp only [combine, List.foldlM_cons, bind, Except.bind] at h
    cases hs : step c y with
    | error e => rw [hs] at h; exact absurd h (by simp)
    | ok m =>
      rw [hs] at h
      obtain ⟨hm, h1, h2⟩ := step_bound hc (hy y (by simp)) hs
      obtain ⟨i1, i2⟩ := ih m hm (fun z hz => hy z (List.mem_cons_of_mem _ hz)) h
      have e1 : added (y :: t) = y.2.val + added t := by simp [added]
      have e2 : ((matched (y :: t) : ℕ) : ℝ) = matched [y] + matched t := by
        rw [← Nat.cast_add]
        congr 1
        simp only [matched, List.filter_cons, List.filter_nil]
        split <;> simp [Nat.add_comm]
      rw [e1, e2]
      exact ⟨by linarith, by linarith⟩

/-- The hypotheses of `C188_lost_partial` are met, and as much as it allows is nearly lost: nine tenths are added to the same row twice. -/
example : combine (.int [1]) [(some 0, .float (9 / 10)), (some 0, .float (9 / 10))] = .ok (.int [1]) := by
  have : truncate ((1 : ℤ) + 9 / 10) = 1 := by
    rw [truncate, if_pos (by norm_num), Int.floor_eq_iff]
    norm_num
  simp only [combine, List.foldlM_cons, List.foldlM_nil, step, addAt, List.getElem?_cons_zero, this, List.set_cons_zero, bind, Except.bind,
    pure, Except.pure]

end Verif.Data.Whole
