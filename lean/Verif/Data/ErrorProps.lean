import Verif.Data.ArithProps

set_option linter.unusedSectionVars false

/-!
# Properties C186 and C187: errors of results

What scaling (`d * c`, `d / c`) and combining (`a + b`, `a.combine_data(b)`) do to the errors and to the normalisation.
-/

namespace Verif.Data

/-! ## C186 -/

private theorem error_mul {a : DataObj ℝ} {n : Nat} {da ma ta : List ℝ} (ha : Counted a n da ma ta) (c : ℝ) :
    ∃ r ea er a₁ r₁, mul a c = .ok r ∧ error Real.sqrt a = .ok (ea, a₁) ∧ error Real.sqrt r = .ok (er, r₁) ∧
      ea = List.zipWith (fun x y => x / y * normVal a ma ta) (errCol Real.sqrt a da) (normCol a ma ta) ∧
      er = List.zipWith (fun x y => x / y * normVal a ma ta)
        (match a.err with | some e => e | none => da.map fun x => √(x * c)) (normCol a ma ta) := by
  obtain ⟨r, h1, h2, h3, h4, h5, h6, h7, h8⟩ := mul_ok ha c
  obtain ⟨a1, i1, _⟩ := ha.error Real.sqrt
  obtain ⟨r1, i2, _⟩ := h2.error Real.sqrt
  refine ⟨r, _, _, a1, r1, h1, i1, i2, rfl, ?_⟩
  have nv : normVal r ma ta = normVal a ma ta := by unfold normVal; rw [h3, h4, h5]
  have nc : normCol r ma ta = normCol a ma ta := by unfold normCol; rw [h5]
  rw [nv, nc]
  congr 1
  unfold errCol
  rw [h6]
  cases a.err with
  | none => simp [Function.comp_def]
  | some e => rfl

/-- **C186** fails for errors that were given: the product has the errors of the data set itself, so that they are those of the product
exactly if the factor is 1 or -1, or all errors are zero. -/
theorem C186_given_false {a : DataObj ℝ} {n : Nat} {da ma ta e : List ℝ} (ha : Counted a n da ma ta) (he : a.err = some e) (c : ℝ) :
    ∃ r ea er a₁ r₁, mul a c = .ok r ∧ error Real.sqrt a = .ok (ea, a₁) ∧ error Real.sqrt r = .ok (er, r₁) ∧
      er = ea ∧ (er = ea.map (|c| * ·) ↔ |c| = 1 ∨ ∀ x ∈ ea, x = 0) := by
  obtain ⟨r, ea, er, a1, r1, h1, h2, h3, h4, h5⟩ := error_mul ha c
  have e1 : er = ea := by
    rw [h4, h5]
    unfold errCol
    rw [he]
  refine ⟨r, ea, er, a1, r1, h1, h2, h3, e1, ?_⟩
  rw [e1]
  clear h1 h2 h3 h4 h5 e1
  induction ea with
  | nil => simp
  | cons x xs ih =>
    simp only [List.map_cons, List.cons.injEq, List.mem_cons, forall_eq_or_imp]
    constructor
    · rintro ⟨h, hs⟩
      rcases ih.1 hs with h' | h'
      · exact .inl h'
      · by_cases hx : x = 0
        · exact .inr ⟨hx, h'⟩
        · exact .inl (mul_right_cancel₀ hx (by rw [← h, one_mul]))
    · rintro (h | ⟨h, hs⟩)
      · exact ⟨by rw [h, one_mul], ih.2 (.inl h)⟩
      · exact ⟨by rw [h, mul_zero], ih.2 (.inr hs)⟩

/-- **C186** fails for errors of counting: the errors of a product with a positive factor are multiplied by the square root of the
factor; they are those of the product exactly if the factor is 0 or 1, or all errors are zero. -/
theorem C186_counted_false {a : DataObj ℝ} {n : Nat} {da ma ta : List ℝ} (ha : Counted a n da ma ta) (he : a.err = none) {c : ℝ} (hc : 0 ≤ c) :
    ∃ r ea er a₁ r₁, mul a c = .ok r ∧ error Real.sqrt a = .ok (ea, a₁) ∧ error Real.sqrt r = .ok (er, r₁) ∧
      er = ea.map (√c * ·) ∧ (er = ea.map (|c| * ·) ↔ c = 0 ∨ c = 1 ∨ ∀ x ∈ ea, x = 0) := by
  obtain ⟨r, ea, er, a1, r1, h1, h2, h3, h4, h5⟩ := error_mul ha c
  have e1 : er = ea.map (√c * ·) := by
    rw [h4, h5, List.map_zipWith]
    unfold errCol
    rw [he]
    simp only [List.zipWith_map_left]
    congr 1
    funext x y
    rw [Real.sqrt_mul' x hc]
    ring
  have key : √c = c ↔ c = 0 ∨ c = 1 := by
    constructor
    · intro h
      have := Real.mul_self_sqrt hc
      rw [h] at this
      rcases eq_or_ne c 0 with h0 | h0
      · exact .inl h0
      · exact .inr (mul_right_cancel₀ h0 (by rw [this, one_mul]))
    · rintro (rfl | rfl) <;> simp
  refine ⟨r, ea, er, a1, r1, h1, h2, h3, e1, ?_⟩
  rw [e1, abs_of_nonneg hc, ← or_assoc, ← key]
  clear h1 h2 h3 h4 h5 e1
  induction ea with
  | nil => simp
  | cons x xs ih =>
    simp only [List.map_cons, List.cons.injEq, List.mem_cons, forall_eq_or_imp]
    constructor
    · rintro ⟨h, hs⟩
      rcases ih.1 hs with h' | h'
      · exact .inl h'
      · by_cases hx : x = 0
        · exact .inr ⟨hx, h'⟩
        · exact .inl (mul_right_cancel₀ hx h)
    · rintro (h | ⟨h, hs⟩)
      · exact ⟨by rw [h], ih.2 (.inl h)⟩
      · exact ⟨by rw [h, mul_zero, mul_zero], ih.2 (.inr hs)⟩

/-- The same for quotients: dividing by `c` is multiplying by its inverse. -/
theorem C186_quotient (a : DataObj ℝ) (c : ℝ) : div a c = mul a c⁻¹ := div_eq_mul a c

/-- **C186** (partial): right for the factor 1, and for 0 with errors of counting.  Missing: all other factors (the two theorems above). -/
theorem C186_errors_partial {a : DataObj ℝ} {n : Nat} {da ma ta : List ℝ} (ha : Counted a n da ma ta) {c : ℝ}
    (h : c = 1 ∨ (c = -1 ∧ a.err ≠ none) ∨ (c = 0 ∧ a.err = none)) :
    ∃ r ea er a₁ r₁, mul a c = .ok r ∧ error Real.sqrt a = .ok (ea, a₁) ∧ error Real.sqrt r = .ok (er, r₁) ∧ er = ea.map (|c| * ·) := by
  cases he : a.err with
  | none =>
    have hc : c = 0 ∨ c = 1 := by
      rcases h with h | ⟨_, h⟩ | ⟨h, _⟩
      · exact .inr h
      · exact absurd he h
      · exact .inl h
    obtain ⟨r, ea, er, a1, r1, h1, h2, h3, _, h5⟩ := C186_counted_false ha he (c := c) (by rcases hc with rfl | rfl <;> norm_num)
    exact ⟨r, ea, er, a1, r1, h1, h2, h3, h5.2 (hc.imp id .inl)⟩
  | some e =>
    have hc : |c| = 1 := by
      rcases h with rfl | ⟨rfl, _⟩ | ⟨_, h⟩
      · simp
      · simp
      · rw [he] at h; cases h
    obtain ⟨r, ea, er, a1, r1, h1, h2, h3, _, h5⟩ := C186_given_false ha he c
    exact ⟨r, ea, er, a1, r1, h1, h2, h3, h5.2 (.inl hc)⟩

/-- Ten times the data set of two points: the errors are not ten times as large. -/
example : ∃ r ea er a₁ r₁, mul exN 10 = .ok r ∧ error Real.sqrt exN = .ok (ea, a₁) ∧ error Real.sqrt r = .ok (er, r₁) ∧
    er = ea.map (√10 * ·) := by
  obtain ⟨r, ea, er, a1, r1, h1, h2, h3, h4, _⟩ := C186_counted_false exN_counted rfl (c := 10) (by norm_num)
  exact ⟨r, ea, er, a1, r1, h1, h2, h3, h4⟩

/-! ## C187 -/

private theorem countAt_add_nonneg {dk : DataKeys} {keys : List String} {k : String} {x y : Row ℝ}
    (hx : 0 ≤ countAt dk keys k x) (hy : 0 ≤ countAt dk keys k y) : 0 ≤ countAt dk keys k (x.add y) := by
  unfold countAt at *
  generalize colIdx (fun k => decide (k ∈ dk.values)) keys k = i at *
  simp only [Row.add, List.getD_eq_getElem?_getD, List.getElem?_zipWith] at *
  cases h1 : x.counts[i]? <;> cases h2 : y.counts[i]? <;> simp_all
  linarith

private theorem specMerge_nonneg {dk : DataKeys} {keys : List String} {k : String} {ts : List ℝ} {A B : List (Row ℝ)}
    (hA : ∀ r ∈ A, 0 ≤ countAt dk keys k r) (hB : ∀ r ∈ B, 0 ≤ countAt dk keys k r) :
    ∀ r ∈ specMerge ts A B, 0 ≤ countAt dk keys k r := by
  intro r hr
  unfold specMerge at hr
  rcases List.mem_append.1 hr with hr | hr
  · obtain ⟨j, hj, rfl⟩ := List.mem_mapIdx.1 hr
    have go : ∀ (l : List (Row ℝ)) (x : Row ℝ), 0 ≤ countAt dk keys k x → (∀ y ∈ l, 0 ≤ countAt dk keys k y) →
        0 ≤ countAt dk keys k (l.foldl Row.add x) := by
      intro l
      induction l with
      | nil => exact fun x hx _ => hx
      | cons y l ih =>
        exact fun x hx hl => ih _ (countAt_add_nonneg hx (hl y List.mem_cons_self)) fun z hz => hl z (List.mem_cons_of_mem _ hz)
    exact go _ _ (hA _ (List.getElem_mem hj)) fun y hy => hB y (List.mem_of_mem_filter hy)
  · exact hB r (List.mem_of_mem_filter hr)

private theorem sum_sq_sqrt {l : List ℝ} (h : ∀ x ∈ l, 0 ≤ x) : ((l.map Real.sqrt).map (· ^ 2)).sum = l.sum := by
  rw [List.map_map]
  congr 1
  conv_rhs => rw [← List.map_id l]
  exact List.map_congr_left fun x hx => Real.sq_sqrt (h x hx)

/-- **C187** (partial): for data sets without given errors the counts that were put together have the error of the sum: the squares of
the errors of all points add up, both for `a.combine_data(b)` and for `a + b`; the first is normalised as `a`, the second by monitor.
Missing: errors that were given (`C187_given_false`, `C187_kept_false`) and normalisation by time (`C187_time_false`). -/
theorem C187_counted_partial {a b : DataObj ℝ} {na nb : Nat} (hc : Combinable a b na nb)
    {tols : Option (Tols ℝ)} {ts : List ℝ} (ht : TolsMean (ncoord a) tols ts) (ea : a.err = none) (eb : b.err = none)
    {ca cb : List ℝ} (ha : a.detector = .ok ca) (hb : b.detector = .ok cb) (pa : ∀ x ∈ ca, 0 ≤ x) (pb : ∀ x ∈ cb, 0 ≤ x) :
    ∃ r xa xb xr, combineInPlace a b tols = .ok r ∧ rawError Real.sqrt a = .ok xa ∧ rawError Real.sqrt b = .ok xb ∧
      rawError Real.sqrt r = .ok xr ∧ (xr.map (· ^ 2)).sum = (xa.map (· ^ 2)).sum + (xb.map (· ^ 2)).sum ∧ r.timeNorm = a.timeNorm ∧
      (a.dk = .default → ∃ r', combineRet a b tols = .ok r' ∧ rawError Real.sqrt r' = .ok xr ∧ r'.timeNorm = false) := by
  have hk : a.dk.detector ∈ a.dk.values := by simp [DataKeys.values]
  obtain ⟨t, R, _, h2, h3, hR, hrep⟩ := combine_result hc ht
  have hka := hc.present _ hk
  have la := get_eq_ok.1 ha
  have lb := get_eq_ok.1 hb
  rw [hc.dk] at lb
  obtain ⟨cr, lr, _⟩ := lookup_rect hrep.rect (hrep.keys ▸ hka)
  have ia := column_counts hk hc.rectA la
  have ib := column_counts hk hc.rectB lb
  have ir := column_counts hk hrep.rect lr
  rw [hrep.rows, hrep.keys] at ir
  rw [hc.keys] at ib
  have hp : R.Perm (specMerge ts (rowsOf a.dk na a.cols) (rowsOf a.dk nb b.cols)) := by
    rw [hR]; exact isort_perm _ _
  have pr : ∀ x ∈ cr, 0 ≤ x := by
    intro x hx
    rw [ir] at hx
    obtain ⟨r, hr, rfl⟩ := List.mem_map.1 hx
    refine specMerge_nonneg (ts := ts) (A := rowsOf a.dk na a.cols) (B := rowsOf a.dk nb b.cols) ?_ ?_ r (hp.mem_iff.1 hr)
    · exact fun r hr => pa _ (ia ▸ List.mem_map_of_mem hr)
    · exact fun r hr => pb _ (ib ▸ List.mem_map_of_mem hr)
  have sum : cr.sum = ca.sum + cb.sum := by
    obtain ⟨r, ca', cb', cr', k1, k2, k3, k4, k5⟩ := C01_combine_conserves_counts_partial hc ht (.inl rfl)
    rw [h2] at k1
    cases k1
    rw [la] at k2; cases k2
    rw [lb] at k3; cases k3
    rw [lr] at k4; cases k4
    exact k5
  refine ⟨_, ca.map Real.sqrt, cb.map Real.sqrt, cr.map Real.sqrt, h2, ?_, ?_, ?_, ?_, rfl, fun hd => ⟨_, h3, ?_, rfl⟩⟩
  · unfold rawError; rw [ea, ha]; rfl
  · unfold rawError; rw [eb, hb]; rfl
  · unfold rawError
    simp only [ea]
    unfold DataObj.detector
    rw [get_eq_ok.2 lr]; rfl
  · rw [sum_sq_sqrt pa, sum_sq_sqrt pb, sum_sq_sqrt pr, sum]
  · unfold rawError
    show (do return (← DataObj.detector _).map Real.sqrt) = _
    unfold DataObj.detector
    rw [hd] at lr
    rw [show (emptyData (α := ℝ)).dk = .default from rfl, get_eq_ok.2 lr]; rfl

/-- **C187** fails for `a + b` if errors were given: whatever they are, and those of `b`, the sum has the square roots of its counts, and
is normalised by monitor. -/
theorem C187_given_false {a b r : DataObj ℝ} {tols : Option (Tols ℝ)} (h : combineRet a b tols = .ok r) :
    r.err = none ∧ r.timeNorm = false ∧ rawError Real.sqrt r = (r.detector).map fun c => c.map Real.sqrt := by
  unfold combineRet at h
  cases ht : combineTable a b tols with
  | error e => rw [ht] at h; cases h
  | ok t =>
    rw [ht] at h
    cases h
    refine ⟨rfl, rfl, ?_⟩
    unfold rawError
    simp only [emptyData]
    cases DataObj.detector _ <;> rfl

/-- **C187** fails for `a.combine_data(b)` if errors were given: those of `a` are kept as they are, whatever `b` is and wherever the points
are after sorting; and if there are new points, of more than one, reading the error raises `ValueError`. -/
theorem C187_kept_false {α : Type} [Field α] [LinearOrder α] (sqrt : α → α) {a b r : DataObj α} {tols : Option (Tols α)} {e : List α} (he : a.err = some e)
    (h : combineInPlace a b tols = .ok r) :
    rawError sqrt r = .ok e ∧
    ∀ {m : List α}, (if a.timeNorm then r.time else r.monitor) = .ok m → m.length ≠ e.length → 2 ≤ e.length → 2 ≤ m.length →
      error sqrt r = .error .valueError := by
  unfold combineInPlace at h
  cases ht : combineTable a b tols with
  | error e => rw [ht] at h; cases h
  | ok t =>
    rw [ht] at h
    cases h
    have raw : rawError sqrt { a with cols := t } = .ok e := by unfold rawError; rw [he]
    refine ⟨raw, fun {m} hm hne h2 h3 => ?_⟩
    have hb : bcast (fun x y : α => x / y) e m = .error .valueError := by
      unfold bcast
      rw [if_neg (Ne.symm hne)]
      match e, m, h2, h3 with
      | _ :: _ :: _, _ :: _ :: _, _, _ => rfl
    have nm : ∃ v : α, nanmax m = .ok v := by
      match m, h3 with
      | x :: xs, _ => exact ⟨_, rfl⟩
    obtain ⟨v, nm⟩ := nm
    unfold error
    rw [raw]
    show (do
      let (d', m, m0) ← normalise { a with cols := t }
      let q ← bcast (· / ·) e m
      return (q.map (· * m0), d')) = _
    unfold normalise
    by_cases hn : a.timeNorm = true
    · simp only [hn, if_true] at hm ⊢
      rw [hm]
      by_cases h0 : a.t0 = 0
      · simp only [h0, if_true, nm, bind, Except.bind, pure, Except.pure, hb]
      · simp only [h0, if_false, bind, Except.bind, pure, Except.pure, hb]
    · simp only [hn, Bool.false_eq_true, if_false] at hm ⊢
      rw [hm]
      by_cases h0 : a.m0 = 0
      · simp only [h0, if_true, nm, bind, Except.bind, pure, Except.pure, hb]
      · simp only [h0, if_false, bind, Except.bind, pure, Except.pure, hb]

/-- Two points at 1 and 0, of which the first has the error 5 and the second the error 2. -/
def exGiven : DataObj ℚ where
  cols := [("h", [1, 0]), ("detector", [100, 4]), ("monitor", [1, 1]), ("time", [1, 2])]
  dk := .default
  qk := .default
  m0 := 1
  t0 := 2
  timeNorm := true
  err := some [5, 2]

/-- One more point at 0. -/
def exMore : DataObj ℚ where
  cols := [("h", [0]), ("detector", [6]), ("monitor", [1]), ("time", [2])]
  dk := .default
  qk := .default
  m0 := 1
  t0 := 2
  timeNorm := true
  err := some [3]

/-- A point elsewhere. -/
def exElse : DataObj ℚ := { exMore with cols := [("h", [7]), ("detector", [6]), ("monitor", [1]), ("time", [2])] }

/-- After adding a point elsewhere the errors cannot be read. -/
example : ∃ r, combineInPlace exGiven exElse = .ok r ∧ ∀ sqrt, error sqrt r = .error .valueError := by
  refine ⟨{ exGiven with cols := [("h", [0, 1, 7]), ("detector", [4, 100, 6]), ("monitor", [1, 1, 1]), ("time", [2, 1, 2])] },
    by decide +kernel, fun sqrt => ?_⟩
  exact (C187_kept_false sqrt (a := exGiven) (b := exElse) (tols := none) rfl (by decide +kernel)).2 (m := [2, 1, 2]) rfl (by decide) (by decide) (by decide)

/-- The data set of two points with itself: no errors are given. -/
example : ∃ r xa xr, combineInPlace exN exN = .ok r ∧ rawError Real.sqrt exN = .ok xa ∧ rawError Real.sqrt r = .ok xr ∧
    (xr.map (· ^ 2)).sum = 2 * (xa.map (· ^ 2)).sum := by
  have hc : Combinable exN exN 2 2 := ⟨rfl, by decide, by unfold Rect; simp [exN], by unfold Rect; simp [exN], rfl, by decide, by decide,
    ⟨"h", by decide, by decide⟩⟩
  obtain ⟨r, xa, xb, xr, h1, h2, h3, h4, h5, -⟩ := C187_counted_partial hc TolsMean.default rfl rfl (ca := [10, 40]) (cb := [10, 40]) rfl rfl
    (by simp) (by simp)
  rw [h2] at h3
  cases h3
  exact ⟨r, xa, xr, h1, h2, h4, by rw [h5]; ring⟩

/-- **C187** fails: after combining, the errors belong to other points.  The point at 1 had the error 5, afterwards the point at 0 has it. -/
theorem C187_order_false : ∃ r, combineInPlace exGiven exMore = .ok r ∧ exGiven.cols.get "h" = .ok [1, 0] ∧ r.cols.get "h" = .ok [0, 1] ∧
    ∀ sqrt, rawError sqrt exGiven = .ok [5, 2] ∧ rawError sqrt r = .ok [5, 2] := by
  refine ⟨{ exGiven with cols := [("h", [0, 1]), ("detector", [10, 100]), ("monitor", [2, 1]), ("time", [4, 1])] }, ?_, rfl, rfl,
    fun _ => ⟨rfl, rfl⟩⟩
  decide +kernel

/-- **C187** fails for data normalised by time: the sum is normalised by monitor and has other intensities than the data set combined in
place. -/
theorem C187_time_false : ∃ r r' i i' r₁ r₁', combineInPlace exGiven exMore = .ok r ∧ combineRet exGiven exMore = .ok r' ∧
    intensity r = .ok (i, r₁) ∧ intensity r' = .ok (i', r₁') ∧ r'.cols = r.cols ∧ i = [5, 200] ∧ i' = [10, 200] := by
  refine ⟨{ exGiven with cols := [("h", [0, 1]), ("detector", [10, 100]), ("monitor", [2, 1]), ("time", [4, 1])] },
    { emptyData with cols := [("h", [0, 1]), ("detector", [10, 100]), ("monitor", [2, 1]), ("time", [4, 1])] },
    [5, 200], [10, 200], { exGiven with cols := [("h", [0, 1]), ("detector", [10, 100]), ("monitor", [2, 1]), ("time", [4, 1])] },
    { emptyData with m0 := 2, cols := [("h", [0, 1]), ("detector", [10, 100]), ("monitor", [2, 1]), ("time", [4, 1])] },
    ?_, ?_, ?_, ?_, rfl, rfl, rfl⟩
  all_goals decide +kernel

end Verif.Data
