import Verif.Data.ArithLemmas
import Verif.Data.Props
import Verif.Data.Heap
import Mathlib.Analysis.SpecialFunctions.Sqrt

set_option linter.unusedSectionVars false

/-!
# Properties C05, C15–C19

Operators, normalisation and assignment.
-/

namespace Verif.Data

variable {α : Type} [Field α] [LinearOrder α]

/-! ## C05 -/

/-- **C05** `a + b` computes, in newly allocated arrays, the table that the
in-place combination leaves in `a`, and no array that existed before (in
particular no column of `a` or `b`, which may even be the same object) changes. -/
theorem C05_add_leaves_operands_unchanged {H : Heap α} {a b : HObj} (ha : Valid H a.dict)
    (hb : Valid H b.dict) {na nb : Nat} (hc : Combinable (a.obj H) (b.obj H) na nb)
    {tols : Tols α} {ts : List α} (ht : TolsMean (ncoord (a.obj H)) (some tols) ts) :
    ∃ H' d', combineH H a b tols = .ok (H', d') ∧
      view H' a.dict = view H a.dict ∧ view H' b.dict = view H b.dict ∧
      (∀ addr < H.length, H'.getD addr [] = H.getD addr []) ∧
      (∀ c ∈ d', H.length ≤ c.2) ∧
      ∃ r, combineInPlace (a.obj H) (b.obj H) (some tols) = .ok r ∧ r.cols = view H' d' ∧
        ∃ r', combineRet (a.obj H) (b.obj H) (some tols) = .ok r' ∧ r'.cols = view H' d' := by
  obtain ⟨t, _, h1, h2, h3, _, _⟩ := combine_result hc ht
  obtain ⟨H', d', k1, k2, k3, k4⟩ := combineH_ok ha hb h1
  exact ⟨H', d', k1, k2.view ha, k2.view hb, k2.2, k3.new, _, h2, k4.symm, _, h3, k4.symm⟩

/-- A heap holding two one-point data sets that share an array. -/
example : ∃ H' d', combineH ([[0], [1], [5]] : Heap ℚ)
    ⟨[("h", 0), ("detector", 2), ("monitor", 1), ("time", 1)], .default⟩
    ⟨[("h", 0), ("detector", 2), ("monitor", 1), ("time", 1)], .default⟩ (.scalar 0) = .ok (H', d') ∧
    view H' d' = [("h", [0]), ("detector", [10]), ("monitor", [2]), ("time", [2])] := by
  refine ⟨[[0], [1], [5], [0], [10], [2], [2], [0], [10], [2], [2]],
    [("h", 7), ("detector", 8), ("monitor", 9), ("time", 10)], ?_, ?_⟩ <;> decide +kernel

/-! ## C15, C16 -/

/-- **C15** the intensity of `a - b` is the difference of the intensities; the
columns of `a` and `b` are unchanged. -/
theorem C15_subtract_intensities {sqrt : α → α} {a b : DataObj α} {n : Nat}
    {da ma ta db mb tb : List α} (ha : Counted a n da ma ta) (hb : Counted b n db mb tb) :
    ∃ r a' b' ia ib ir a₁ b₁ r₁, subtract sqrt a b = .ok (r, a', b') ∧
      intensity a = .ok (ia, a₁) ∧ intensity b = .ok (ib, b₁) ∧ intensity r = .ok (ir, r₁) ∧
      ia.length = n ∧ ib.length = n ∧ ir = List.zipWith (· - ·) ia ib ∧
      a'.cols = a.cols ∧ b'.cols = b.cols ∧
      ∀ k ∉ a.dk.values, r.cols.lookup k = a.cols.lookup k := by
  obtain ⟨r, a', b', ia, ib, ea, eb, a1, b1, a2, b2, h1, h2, h3, _, _, h6, h7, h8, _, l1, l2, l3, l4,
    hr, hca⟩ := subtract_ok (sqrt := sqrt) ha hb
  have hc := withSubtracted_counted hca (int := List.zipWith (· - ·) ia ib)
    (err := List.zipWith (fun a b => sqrt (max (a ^ 2) (b ^ 2))) ea eb) (by simp [l1, l2])
    (by simp [l3, l4])
  rw [← hr] at hc
  obtain ⟨r1, hi, _⟩ := hc.intensity
  have hn := withSubtracted_norm (d := a') (n := n) (int := List.zipWith (· - ·) ia ib)
    (err := List.zipWith (fun a b => sqrt (max (a ^ 2) (b ^ 2))) ea eb)
  rw [← hr] at hn
  rw [hn.1, hn.2, zipWith_one _ n (by simp [l1, l2])] at hi
  refine ⟨r, a', b', ia, ib, _, a1, b1, r1, h1, h2, h3, hi, l1, l2, rfl, h6, h7, ?_⟩
  intro k hk
  simp only [DataKeys.values, List.mem_cons, List.not_mem_nil, or_false, not_or] at hk
  rw [hr]
  simp [withSubtracted, lookup_put, h8, hk, h6]

/-- **C16** the error of `a - b` is at every point the larger of the two errors
in absolute value. -/
theorem C16_subtract_error {a b : DataObj ℝ} {n : Nat}
    {da ma ta db mb tb : List ℝ} (ha : Counted a n da ma ta) (hb : Counted b n db mb tb) :
    ∃ r a' b' ea eb er a₁ b₁ r₁, subtract Real.sqrt a b = .ok (r, a', b') ∧
      error Real.sqrt a = .ok (ea, a₁) ∧ error Real.sqrt b = .ok (eb, b₁) ∧
      error Real.sqrt r = .ok (er, r₁) ∧ ea.length = n ∧ eb.length = n ∧
      er = List.zipWith (fun x y => max |x| |y|) ea eb := by
  obtain ⟨r, a', b', ia, ib, ea, eb, a1, b1, a2, b2, h1, _, _, h4, h5, _, _, _, _, l1, l2, l3, l4,
    hr, hca⟩ := subtract_ok (sqrt := Real.sqrt) ha hb
  have hc := withSubtracted_counted hca (int := List.zipWith (· - ·) ia ib)
    (err := List.zipWith (fun a b => Real.sqrt (max (a ^ 2) (b ^ 2))) ea eb) (by simp [l1, l2])
    (by simp [l3, l4])
  rw [← hr] at hc
  obtain ⟨r1, hi, _⟩ := hc.error Real.sqrt
  have hn := withSubtracted_norm (d := a') (n := n) (int := List.zipWith (· - ·) ia ib)
    (err := List.zipWith (fun a b => Real.sqrt (max (a ^ 2) (b ^ 2))) ea eb)
  rw [← hr] at hn
  have he : errCol Real.sqrt r (List.zipWith (· - ·) ia ib) =
      List.zipWith (fun a b => Real.sqrt (max (a ^ 2) (b ^ 2))) ea eb := by
    rw [hr]; rfl
  rw [hn.1, hn.2, he, zipWith_one _ n (by simp [l3, l4])] at hi
  refine ⟨r, a', b', ea, eb, _, a2, b2, r1, h1, h4, h5, hi, l3, l4, ?_⟩
  congr 1
  funext x y
  rcases le_total |x| |y| with h | h
  · rw [max_eq_right h, max_eq_right (sq_le_sq.2 h), Real.sqrt_sq_eq_abs]
  · rw [max_eq_left h, max_eq_left (sq_le_sq.2 h), Real.sqrt_sq_eq_abs]

/-- **C16** subtracting a data set from itself: zero intensity, the error in
absolute value is unchanged. -/
theorem C16_subtract_self {a : DataObj ℝ} {n : Nat} {da ma ta : List ℝ}
    (ha : Counted a n da ma ta) :
    ∃ r a' b' ea ir er a₁ r₁ r₂, subtract Real.sqrt a a = .ok (r, a', b') ∧
      error Real.sqrt a = .ok (ea, a₁) ∧ intensity r = .ok (ir, r₁) ∧
      error Real.sqrt r = .ok (er, r₂) ∧ ir = List.replicate n 0 ∧ er = ea.map abs := by
  obtain ⟨r, a', b', ia, ib, ir, a1, b1, r1, h1, h2, h3, h4, l1, l2, e1, _⟩ :=
    C15_subtract_intensities (sqrt := Real.sqrt) ha ha
  obtain ⟨r', _, _, ea, eb, er, a2, b2, r2, k1, k2, k3, k4, m1, m2, e2⟩ := C16_subtract_error ha ha
  rw [h1] at k1; cases k1
  rw [h2] at h3; cases h3
  rw [k2] at k3; cases k3
  refine ⟨r, a', b', ea, ir, er, a2, r1, r2, h1, k2, h4, k4, ?_, ?_⟩
  · rw [e1, List.zipWith_self]
    simp [l1]
  · rw [e2, List.zipWith_self]
    simp

/-- Two data sets with different normalisation modes and counting times. -/
def exN : DataObj ℝ where
  cols := [("h", [0, 1]), ("detector", [10, 40]), ("monitor", [1, 2]), ("time", [4, 8])]
  dk := .default
  qk := .default
  m0 := 2
  t0 := 0
  timeNorm := false
  err := none

/-- See `exN`. -/
def exT : DataObj ℝ where
  cols := [("h", [0, 1]), ("detector", [3, 4]), ("monitor", [5, 5]), ("time", [1, 2])]
  dk := .default
  qk := .default
  m0 := 5
  t0 := 0
  timeNorm := true
  err := some [1, 1]

theorem exN_counted : Counted exN 2 [10, 40] [1, 2] [4, 8] :=
  ⟨by decide, by decide, rfl, rfl, rfl, rfl, rfl, rfl, by simp [exN]⟩

theorem exT_counted : Counted exT 2 [3, 4] [5, 5] [1, 2] :=
  ⟨by decide, by decide, rfl, rfl, rfl, rfl, rfl, rfl, by
    intro e h; simp only [exT, Option.some.injEq] at h; rw [← h]; rfl⟩

example : ∃ r a' b' ia ib ir a₁ b₁ r₁, subtract Real.sqrt exN exT = .ok (r, a', b') ∧
    intensity exN = .ok (ia, a₁) ∧ intensity exT = .ok (ib, b₁) ∧ intensity r = .ok (ir, r₁) ∧
    ir = List.zipWith (· - ·) ia ib := by
  obtain ⟨r, a', b', ia, ib, ir, a1, b1, r1, h1, h2, h3, h4, _, _, h5, _⟩ :=
    C15_subtract_intensities (sqrt := Real.sqrt) exN_counted exT_counted
  exact ⟨r, a', b', ia, ib, ir, a1, b1, r1, h1, h2, h3, h4, h5⟩

/-! ## C17 -/

/-- **C17** data sets that differ only in the unit of the monitor (built by the
constructor, so that the stored normaliser is the largest monitor value) report
the same intensities and errors. -/
theorem C17_monitor_unit [IsStrictOrderedRing α] (sqrt : α → α) (args : CtorArgs α) {c : α}
    (hc : 0 < c) {mon : List α} (hmon : args.monitor = .arr mon) {d : DataObj α}
    (hd : mkData args = .ok d) {n : Nat} {det time : List α} (hcnt : Counted d n det mon time) :
    ∃ d' i e d₁ d₁' d₂ d₂', mkData { args with monitor := .arr (mon.map (c * ·)) } = .ok d' ∧
      intensity d = .ok (i, d₁) ∧ intensity d' = .ok (i, d₁') ∧
      error sqrt d = .ok (e, d₂) ∧ error sqrt d' = .ok (e, d₂') := by
  have hlen : ([args.h, args.k, args.l, args.e, args.temp, args.detector,
      .arr (mon.map (c * ·)), args.time].filterMap Arg.len?) =
      ([args.h, args.k, args.l, args.e, args.temp, args.detector,
      args.monitor, args.time].filterMap Arg.len?) := by
    rw [hmon]
    simp only [List.filterMap_cons, Arg.len?, List.length_map]
  unfold mkData at hd
  obtain ⟨h1, h2, h3, h4, h5, h6, h7, h8, _⟩ := finishCtor_ok hd
  rw [hmon] at h7 h2
  obtain ⟨e7, p7⟩ := nanmax_eq h7
  have h7' : nanmax ((Arg.arr (mon.map (c * ·))).spread 0) = .ok (maxOf (mon.map (c * ·))) :=
    nanmax_ok (by simp only [Arg.spread] at p7 ⊢; simpa using p7)
  have hex : ∃ d', mkData { args with monitor := .arr (mon.map (c * ·)) } = .ok d' := by
    unfold mkData
    rw [hlen]
    unfold finishCtor
    simp only [Arg.spread] at h7' h8 ⊢
    rw [h7']
    simp only [h8, ok_bind]
    exact ⟨_, rfl⟩
  obtain ⟨d', hd'⟩ := hex
  have hd'0 := hd'
  unfold mkData at hd'
  rw [hlen] at hd'
  obtain ⟨k1, k2, k3, k4, k5, k6, k7, k8, _⟩ := finishCtor_ok hd'
  obtain ⟨f7, _⟩ := nanmax_eq k7
  have hdet := hcnt.hdet
  have htime := hcnt.htime
  rw [h4] at hdet htime
  have hdet' : d.cols.lookup "detector" = some det := hdet
  have htime' : d.cols.lookup "time" = some time := htime
  rw [h1] at hdet'
  rw [h3] at htime'
  have hcnt' : Counted d' n det (mon.map (c * ·)) time := by
    refine ⟨hcnt.pos, by rw [k4]; decide, ?_, ?_, ?_, hcnt.ldet, by simp [hcnt.lmon], hcnt.ltime,
      by rw [k6]; intro e he; cases he⟩
    · rw [k4]; exact k1.trans hdet'
    · rw [k4]; exact k2
    · rw [k4]; exact k3.trans htime'
  obtain ⟨d1, i1, _⟩ := hcnt.intensity
  obtain ⟨d2, i2, _⟩ := hcnt'.intensity
  obtain ⟨d3, i3, _⟩ := hcnt.error sqrt
  obtain ⟨d4, i4, _⟩ := hcnt'.error sqrt
  have nv : normVal d mon time = maxOf mon := by
    simp only [normVal, h5, Arg.spread] at e7 ⊢
    rw [← e7]; simp
  have nv' : normVal d' (mon.map (c * ·)) time = c * maxOf mon := by
    simp only [normVal, k5, Arg.spread] at f7 ⊢
    rw [← maxOf_map_mul hc, ← f7]; simp
  have nc : normCol d mon time = mon := by simp [normCol, h5]
  have nc' : normCol d' (mon.map (c * ·)) time = mon.map (c * ·) := by simp [normCol, k5]
  have ee : errCol sqrt d' det = errCol sqrt d det := by unfold errCol; rw [h6, k6]
  rw [nv, nc] at i1 i3
  rw [nv', nc', zipWith_map_right_mul hc.ne'] at i2 i4
  rw [ee] at i4
  exact ⟨d', _, _, d1, d2, d3, d4, hd'0, i1, i2, i3, i4⟩

/-- A data set built with array arguments. -/
example : ∃ d, mkData (α := ℚ) ⟨.arr [0, 1], .num 0, .num 0, .num 5, .num 300, .arr [10, 20],
    .arr [1, 2], .num 1⟩ = .ok d ∧ Counted d 2 [10, 20] [1, 2] [1, 1] :=
  ⟨_, rfl, by decide, by decide, rfl, rfl, rfl, rfl, rfl, rfl, fun e h => by cases h⟩

/-! ## C18 -/

/-- **C18** multiplying a data set by a number multiplies the intensity and
leaves every other column alone. -/
theorem C18_mul_scales {a : DataObj α} {n : Nat} {da ma ta : List α} (ha : Counted a n da ma ta)
    (c : α) : ∃ r ia ir a₁ r₁, mul a c = .ok r ∧ intensity a = .ok (ia, a₁) ∧
      intensity r = .ok (ir, r₁) ∧ ir = ia.map (c * ·) ∧
      ∀ k, k ≠ a.dk.detector → r.cols.lookup k = a.cols.lookup k := by
  obtain ⟨r, h1, h2, h3, h4, h5, h6, h7, h8⟩ := mul_ok ha c
  obtain ⟨a1, i1, _⟩ := ha.intensity
  obtain ⟨r1, i2, _⟩ := h2.intensity
  refine ⟨r, _, _, a1, r1, h1, i1, i2, ?_, h8⟩
  have nv : normVal r ma ta = normVal a ma ta := by unfold normVal; rw [h3, h4, h5]
  have nc : normCol r ma ta = normCol a ma ta := by unfold normCol; rw [h5]
  rw [nv, nc, List.zipWith_map_left, List.map_zipWith]
  congr 1
  funext x y
  rw [div_eq_mul_inv, div_eq_mul_inv]; ring

/-- **C18** dividing by a number divides the intensity. -/
theorem C18_div_scales {a : DataObj α} {n : Nat} {da ma ta : List α} (ha : Counted a n da ma ta)
    (c : α) : ∃ r ia ir a₁ r₁, div a c = .ok r ∧ intensity a = .ok (ia, a₁) ∧
      intensity r = .ok (ir, r₁) ∧ ir = ia.map (· / c) ∧
      ∀ k, k ≠ a.dk.detector → r.cols.lookup k = a.cols.lookup k := by
  obtain ⟨r, ia, ir, a1, r1, h1, h2, h3, h4, h5⟩ := C18_mul_scales ha c⁻¹
  refine ⟨r, ia, ir, a1, r1, by rw [div_eq_mul]; exact h1, h2, h3, ?_, h5⟩
  rw [h4]; congr 1; funext x; rw [div_eq_mul_inv, mul_comm]

/-- **C18** `d * c / c` reports the intensity of `d`. -/
theorem C18_mul_div_cancel {a : DataObj α} {n : Nat} {da ma ta : List α}
    (ha : Counted a n da ma ta) {c : α} (hc : c ≠ 0) :
    ∃ r s i a₁ s₁, mul a c = .ok r ∧ div r c = .ok s ∧ intensity a = .ok (i, a₁) ∧
      intensity s = .ok (i, s₁) := by
  obtain ⟨r, ia, ir, a1, r1, h1, h2, h3, h4, _⟩ := C18_mul_scales ha c
  obtain ⟨r', g1, g2, _⟩ := mul_ok ha c
  rw [h1] at g1; cases g1
  obtain ⟨s, ir', is, _, s1, k1, k2, k3, k4, _⟩ := C18_div_scales g2 c
  rw [h3] at k2; cases k2
  refine ⟨r, s, ia, a1, s1, h1, k1, h2, ?_⟩
  have : is = ia := by
    rw [k4, h4, List.map_map]
    conv_rhs => rw [← List.map_id ia]
    apply List.map_congr_left
    intro x _
    simp [hc]
  rw [← this]; exact k3

example : ∃ r ia ir a₁ r₁, mul exN 3 = .ok r ∧ intensity exN = .ok (ia, a₁) ∧
    intensity r = .ok (ir, r₁) ∧ ir = ia.map (3 * ·) := by
  obtain ⟨r, ia, ir, a1, r1, h1, h2, h3, h4, _⟩ := C18_mul_scales exN_counted 3
  exact ⟨r, ia, ir, a1, r1, h1, h2, h3, h4⟩

/-! ## C19 -/

/-- All five coordinate columns are present with the length of the detector
column, and so is a stored error. -/
structure Consistent (d : DataObj α) (det : List α) : Prop where
  hdet : d.cols.lookup d.dk.detector = some det
  coords : ∀ q : QName, ∃ c, d.cols.lookup (d.qk.at q) = some c ∧ c.length = det.length
  err : ∀ e, d.err = some e → e.length = det.length
  distinct : ∀ q : QName, d.qk.at q ≠ d.dk.detector

/-- The length an argument has after numbers are repeated. -/
def Arg.fits (v : Arg α) (n : Nat) : Prop := ∀ xs, v = .arr xs → xs.length = n

theorem spread_length_iff (v : Arg α) (n : Nat) : (v.spread n).length = n ↔ v.fits n := by
  cases v with
  | num x => simp [Arg.spread, Arg.fits]
  | arr xs => simp [Arg.spread, Arg.fits]

/-- **C19** (a coordinate) an assignment `d.h = v` and so on of a number or an
array of the right length succeeds, the column reads back, nothing else changes
and the data set stays consistent. -/
theorem C19_assign_coord {d : DataObj α} {det : List α} (h : Consistent d det) (q : QName)
    {v : Arg α} (hv : v.fits det.length) :
    ∃ d', assign d (.coord q v) = .ok d' ∧ Consistent d' det ∧
      d'.cols.lookup (d.qk.at q) = some (v.spread det.length) ∧ d'.err = d.err ∧
      ∀ k, k ≠ d.qk.at q → d'.cols.lookup k = d.cols.lookup k := by
  have hd : d.detector = .ok det := get_eq_ok.2 h.hdet
  have hl := (spread_length_iff v det.length).2 hv
  refine ⟨{ d with cols := d.cols.put (d.qk.at q) (v.spread det.length) }, ?_, ?_, ?_, rfl, ?_⟩
  · simp only [assign, setCoord, hd, ok_bind, hl, ne_eq, not_true_eq_false, if_false]
    rfl
  · refine ⟨?_, ?_, h.err, h.distinct⟩
    · simp [lookup_put, Ne.symm (h.distinct q), h.hdet]
    · intro q'
      obtain ⟨c, hc, hcl⟩ := h.coords q'
      by_cases hq : d.qk.at q' = d.qk.at q
      · exact ⟨_, by simp [lookup_put, hq], hl⟩
      · exact ⟨c, by simp [lookup_put, hq, hc], hcl⟩
  · simp [lookup_put]
  · intro k hk; simp [lookup_put, hk]

/-- **C19** (the error) the same for `d.error = v`. -/
theorem C19_assign_error {d : DataObj α} {det : List α} (h : Consistent d det)
    {v : Arg α} (hv : v.fits det.length) :
    ∃ d', assign d (.err v) = .ok d' ∧ Consistent d' det ∧
      d'.err = some (v.spread det.length) ∧ d'.cols = d.cols := by
  have hd : d.detector = .ok det := get_eq_ok.2 h.hdet
  have hl := (spread_length_iff v det.length).2 hv
  refine ⟨{ d with err := some (v.spread det.length) }, ?_, ⟨h.hdet, h.coords, ?_, h.distinct⟩,
    rfl, rfl⟩
  · simp only [assign, setError, hd, ok_bind, hl, ne_eq, not_true_eq_false, if_false]
    rfl
  · intro e he
    simp only [Option.some.injEq] at he
    rw [← he]; exact hl

/-- **C19** (rejection) an array of any other length is refused with
`ValueError`. -/
theorem C19_assign_rejects {d : DataObj α} {det : List α} (h : Consistent d det) {v : Arg α}
    (hv : ¬ v.fits det.length) : (∀ q, assign d (.coord q v) = .error .valueError) ∧
      assign d (.err v) = .error .valueError := by
  have hd : d.detector = .ok det := get_eq_ok.2 h.hdet
  have hl := mt (spread_length_iff v det.length).1 hv
  constructor
  · intro q
    simp only [assign, setCoord, hd, ok_bind, hl, ne_eq, not_false_eq_true, if_true]
  · simp only [assign, setError, hd, ok_bind, hl, ne_eq, not_false_eq_true, if_true]

/-- **C19** (all histories) whatever is assigned in whatever order, with failing
assignments caught, all coordinate columns and the error keep the length of the
detector column, which never changes. -/
theorem C19_assignments_keep_lengths {d : DataObj α} {det : List α} (h : Consistent d det)
    (ops : List (SetOp α)) : Consistent (assigns d ops) det := by
  induction ops generalizing d with
  | nil => exact h
  | cons op ops ih =>
    unfold assigns
    rw [List.foldl_cons]
    apply ih
    cases op with
    | coord q v =>
      by_cases hv : v.fits det.length
      · obtain ⟨d', h1, h2, _⟩ := C19_assign_coord h q hv
        rw [h1]; exact h2
      · rw [(C19_assign_rejects h hv).1 q]; exact h
    | err v =>
      by_cases hv : v.fits det.length
      · obtain ⟨d', h1, h2, _⟩ := C19_assign_error h hv
        rw [h1]; exact h2
      · rw [(C19_assign_rejects h hv).2]; exact h

/-- The default data object meets the hypothesis. -/
example : Consistent (emptyData (α := ℚ)) [0] where
  hdet := rfl
  coords := by intro q; cases q <;> exact ⟨[0], rfl, rfl⟩
  err := by intro e h; cases h
  distinct := by intro q; cases q <;> decide

end Verif.Data
