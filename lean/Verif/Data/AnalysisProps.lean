import Verif.Data.AnalysisLemmas
import Verif.Data.ObjectProps

set_option linter.unusedSectionVars false

/-!
# Properties C22–C25, C77, C78: integration, position, width, background

Specification: `trapSum` is the trapezoidal rule as a finite sum, `Selects` says
which points a `bounds` argument selects, `column` and `net` are the values of a
column and the background-corrected intensities there.
-/

namespace Verif.Data

variable {α : Type} [Field α] [LinearOrder α] [FloorRing α]

/-! ## C22 -/

/-- **C22** integration is the sum, over the coordinate columns, of the
trapezoidal rule over exactly the selected points.
Missing: without bounds the selected points are those with h ≠ 0 instead of all
(`C22_zero_h_dropped`); a single selected point (`C22_single_point_raises`). -/
theorem C22_integrate_partial {d : DataObj α} {n : Nat} {bg : Bg α} {int : List α} {β : α}
    (h : Measured d n bg int β) {bounds : Option (List Bool)} {sel : List Nat}
    (hs : Selects d n bounds sel) (hl : sel.length ≠ 1) :
    integrate d bounds bg true = .ok (some
      (((d.cols.map Prod.fst).filter (· ∈ d.qk.values)).map fun k =>
        trapSum (column d sel k) (net int β sel)).sum) := by
  rw [integrate_ok h hs hl]
  rfl

/-- **C22** if no point has h = 0 the integral without bounds covers all points. -/
theorem C22_all_points_partial {d : DataObj α} {n : Nat} {bg : Bg α} {int : List α} {β : α}
    (h : Measured d n bg int β) {hcol : List α} (hh : d.cols.lookup d.qk.h = some hcol)
    (h0 : ∀ x ∈ hcol, x ≠ 0) (hl : n ≠ 1) :
    integrate d none bg true = .ok (some
      (((d.cols.map Prod.fst).filter (· ∈ d.qk.values)).map fun k =>
        trapSum (column d (List.range n) k) (net int β (List.range n))).sum) := by
  have hall : (List.range n).filter (fun i => decide (hcol.getD i 0 ≠ 0)) = List.range n := by
    rw [List.filter_eq_self]
    intro i hi
    have hlen : hcol.length = n := by
      obtain ⟨c', hc', hl⟩ := h.lookup (h.coords d.qk.h (by simp [QKeys.values]))
      rw [hh] at hc'; cases hc'; exact hl
    have hi' : i < hcol.length := by rw [hlen]; exact List.mem_range.1 hi
    rw [decide_eq_true_eq, List.getD_eq_getElem _ _ hi']
    exact h0 _ (List.getElem_mem hi')
  have hs := Selects.all (n := n) hcol hh
  rw [hall] at hs
  exact C22_integrate_partial h hs (by simpa using hl)

/-- A scan along k at h = 0. -/
def kScan : DataObj ℚ :=
  { emptyData with
    cols := [("h", [0, 0, 0]), ("k", [1, 2, 3]), ("l", [2, 2, 2]), ("e", [5, 5, 5]),
      ("temp", [300, 300, 300]), ("detector", [10, 20, 10]), ("monitor", [1, 1, 1]),
      ("time", [1, 1, 1])] }

/-- The same scan at h = 1. -/
def kScan1 : DataObj ℚ := { kScan with cols := ("h", [1, 1, 1]) :: kScan.cols.tail }

theorem measured_kScan1 : Measured kScan1 3 .none [10, 20, 10] 0 where
  rect := by unfold Rect; decide
  names := by decide
  coords := by decide
  distinct := by decide
  counted := ⟨{ kScan1 with m0 := 1 }, by decide +kernel⟩
  len := rfl
  back := rfl

example : Selects kScan1 3 (some [true, true, false]) [0, 1] :=
  .mask (d := kScan1) [true, true, false] rfl

example : integrate kScan1 none .none true = .ok (some 30) := by decide +kernel
example : integrate kScan1 (some [true, true, false]) .none true = .ok (some 15) := by
  decide +kernel

/-- **C22 is false**: for a scan along k at h = 0 every point is dropped and the
integral is 0, although the trapezoidal integral over all points is 30. -/
theorem C22_zero_h_dropped :
    Measured kScan 3 .none [10, 20, 10] 0 ∧
    integrate kScan none .none true = .ok (some 0) ∧
    (((kScan.cols.map Prod.fst).filter (· ∈ kScan.qk.values)).map fun k =>
        trapSum (column kScan (List.range 3) k) (net [10, 20, 10] 0 (List.range 3))).sum = 30 := by
  refine ⟨⟨by unfold Rect; decide, by decide, by decide, by decide,
    ⟨{ kScan with m0 := 1 }, by decide +kernel⟩, rfl, rfl⟩, by decide +kernel, by decide +kernel⟩

/-- A single selected point makes integration fail. -/
theorem C22_single_point_raises {d : DataObj α} {n : Nat} {bg : Bg α} {int : List α} {β : α}
    (h : Measured d n bg int β) {bounds : Option (List Bool)} {sel : List Nat}
    (hs : Selects d n bounds sel) (hl : sel.length = 1) :
    ∃ e, integrate d bounds bg true = .error e := by
  have hk : ∃ k ks, getKeys d true = k :: ks := by
    have hm : d.qk.h ∈ getKeys d true := by
      unfold getKeys
      rw [List.mem_filter]
      exact ⟨h.coords _ (by simp [QKeys.values]), by simp [QKeys.values]⟩
    cases hg : getKeys d true with
    | nil => rw [hg] at hm; cases hm
    | cons k ks => exact ⟨k, ks, rfl⟩
  obtain ⟨k, ks, hk⟩ := hk
  refine ⟨.valueError, ?_⟩
  unfold integrate
  rw [netIntensity_ok h hs, ok_bind]
  simp only [sumKeys, hk, List.foldlM_cons]
  rw [selected_ok h hs (getKeys_sub d true k (by simp [hk])), ok_bind, squeeze,
    if_pos (by simpa [column] using hl)]
  rfl

example : Selects kScan1 3 (some [false, true, false]) [1] :=
  .mask (d := kScan1) [false, true, false] rfl

/-! ## C23 -/

theorem lookup_map_key {γ : Type} (L : List String) (f : String → γ) {k : String} (h : k ∈ L) :
    (L.map fun k => (k, f k)).lookup k = some (f k) := by
  induction L with
  | nil => cases h
  | cons a L ih =>
    rw [List.map_cons, List.lookup_cons]
    by_cases ha : k = a
    · subst ha; simp
    · have : (k == a) = false := by simpa using ha
      rw [this]
      exact ih (by simpa [ha] using h)

theorem mem_getKeys {d : DataObj α} {n : Nat} {bg : Bg α} {int : List α} {β : α}
    (h : Measured d n bg int β) {k : String} (hk : k ∈ d.qk.values) (hkle : Bool) :
    k ∈ getKeys d hkle := by
  unfold getKeys
  rw [List.mem_filter]
  refine ⟨h.coords k hk, ?_⟩
  cases hkle
  · simpa using h.distinct k hk
  · simpa using hk

/-- Centre of mass of the samples. -/
def centroid (x y : List α) : α := trapSum x (List.zipWith (· * ·) x y) / trapSum x y

theorem position_line {d : DataObj α} {n : Nat} {bg : Bg α} {int : List α} {β : α}
    (h : Measured d n bg int β) {bounds : Option (List Bool)} {sel : List Nat}
    (hs : Selects d n bounds sel) {key : String} (hline : LineScan d sel key)
    (hpos : trapSum (column d sel key) (net int β sel) ≠ 0) (hkle : Bool) :
    ∃ ps, position d bounds bg hkle = .ok ps ∧ ∀ k ∈ getKeys d hkle, ps.lookup k = some (some
      (trapSum (column d sel key) (List.zipWith (· * ·) (column d sel k) (net int β sel)) /
        trapSum (column d sel key) (net int β sel))) := by
  refine ⟨_, position_ok h hs (by have := hline.two; omega) hkle, ?_⟩
  intro k hk
  rw [lookup_map_key _ _ hk, sum_line h hline, sum_line h hline, div?, if_neg hpos]

theorem const_axis {x y z : List α} {c : α} (hz : z = List.replicate y.length c)
    (hl : y.length = x.length) (hpos : trapSum x y ≠ 0) :
    trapSum x (List.zipWith (· * ·) z y) / trapSum x y = c := by
  have : trapSum x (List.zipWith (· * ·) z y) = trapSum x (y.map (c * ·)) := by
    apply trapSum_congr
    intro i hi
    rw [getD_zipWith _ _ _ _ 0 0 _ (by simp [hz]; omega) (by omega), hz,
      List.getD_eq_getElem (List.replicate _ _) _ (by simp; omega),
      List.getD_eq_getElem (y.map _) _ (by simp; omega), List.getD_eq_getElem y _ (by omega)]
    simp
  rw [this, trapSum_smul x c hl, mul_div_assoc, div_self hpos, mul_one]

/-- **C23** the position on the scanned axis lies within the scan: between any
lower and upper bound of the scanned values. -/
theorem C23_position_inside [IsStrictOrderedRing α] {d : DataObj α} {n : Nat} {bg : Bg α}
    {int : List α} {β : α} (h : Measured d n bg int β) {bounds : Option (List Bool)}
    {sel : List Nat} (hs : Selects d n bounds sel) {key : String} (hline : LineScan d sel key)
    (hinc : (column d sel key).Pairwise (· ≤ ·))
    (hnn : ∀ y ∈ net int β sel, 0 ≤ y)
    (hpos : 0 < trapSum (column d sel key) (net int β sel)) (hkle : Bool)
    {lo hi : α} (hlo : ∀ x ∈ column d sel key, lo ≤ x) (hhi : ∀ x ∈ column d sel key, x ≤ hi) :
    ∃ ps p, position d bounds bg hkle = .ok ps ∧ ps.lookup key = some (some p) ∧
      p = centroid (column d sel key) (net int β sel) ∧ lo ≤ p ∧ p ≤ hi := by
  obtain ⟨ps, hps, hk⟩ := position_line h hs hline hpos.ne' hkle
  refine ⟨ps, _, hps, hk key (mem_getKeys h hline.coord hkle), rfl, ?_, ?_⟩
  all_goals
    have hx : ∀ i, i + 1 < (column d sel key).length →
        (column d sel key).getD i 0 ≤ (column d sel key).getD (i + 1) 0 := by
      intro i hi
      rw [List.getD_eq_getElem _ _ (by omega), List.getD_eq_getElem _ _ hi]
      exact List.pairwise_iff_getElem.1 hinc _ _ _ _ (by omega)
    have hlen : (net int β sel).length = (column d sel key).length := by simp [net, column]
    have hval : ∀ i, i < (column d sel key).length →
        (column d sel key).getD i 0 ∈ column d sel key ∧ 0 ≤ (net int β sel).getD i 0 := by
      intro i hi
      rw [List.getD_eq_getElem _ _ hi, List.getD_eq_getElem _ _ (by omega)]
      exact ⟨List.getElem_mem _, hnn _ (List.getElem_mem _)⟩
  · rw [le_div_iff₀ hpos, ← trapSum_smul _ _ hlen]
    apply trapSum_le hx
    intro i hi
    obtain ⟨h1, h2⟩ := hval i hi
    rw [getD_zipWith _ _ _ _ 0 0 _ hi (by omega), List.getD_eq_getElem (List.map _ _) _ (by simp; omega),
      List.getElem_map, ← List.getD_eq_getElem _ 0]
    exact mul_le_mul_of_nonneg_right (hlo _ h1) h2
  · rw [div_le_iff₀ hpos, ← trapSum_smul _ _ hlen]
    apply trapSum_le hx
    intro i hi
    obtain ⟨h1, h2⟩ := hval i hi
    rw [getD_zipWith _ _ _ _ 0 0 _ hi (by omega), List.getD_eq_getElem (List.map _ _) _ (by simp; omega),
      List.getElem_map, ← List.getD_eq_getElem _ 0]
    exact mul_le_mul_of_nonneg_right (hhi _ h1) h2

/-- **C23** the position on a constant axis is the constant. -/
theorem C23_constant_axis {d : DataObj α} {n : Nat} {bg : Bg α} {int : List α} {β : α}
    (h : Measured d n bg int β) {bounds : Option (List Bool)} {sel : List Nat}
    (hs : Selects d n bounds sel) {key : String} (hline : LineScan d sel key)
    (hpos : trapSum (column d sel key) (net int β sel) ≠ 0) (hkle : Bool)
    {k : String} (hk : k ∈ d.qk.values) {c : α}
    (hc : column d sel k = List.replicate sel.length c) :
    ∃ ps, position d bounds bg hkle = .ok ps ∧ ps.lookup k = some (some c) := by
  obtain ⟨ps, hps, hkk⟩ := position_line h hs hline hpos hkle
  refine ⟨ps, hps, ?_⟩
  rw [hkk k (mem_getKeys h hk hkle)]
  rw [const_axis (c := c) (by simpa [net] using hc) (by simp [net, column]) hpos]

theorem line_kScan1 : LineScan kScan1 [0, 1, 2] "k" where
  coord := by decide
  two := by decide
  others := by
    intro k hk hn hne
    have : ∀ k ∈ kScan1.cols.map Prod.fst, k ∉ kScan1.dk.values → k ≠ "k" →
        column kScan1 [0, 1, 2] k =
          List.replicate 3 ((column kScan1 [0, 1, 2] k).headD 0) := by decide +kernel
    exact ⟨_, this k hk hn hne⟩

example : (column kScan1 [0, 1, 2] "k").Pairwise (· ≤ ·) ∧
    (∀ y ∈ net [10, 20, 10] (0 : ℚ) [0, 1, 2], 0 ≤ y) ∧
    0 < trapSum (column kScan1 [0, 1, 2] "k") (net [10, 20, 10] 0 [0, 1, 2]) := by decide +kernel

example : Selects kScan1 3 none [0, 1, 2] := Selects.all (d := kScan1) (n := 3) [1, 1, 1] rfl

example : position kScan1 none .none true =
    .ok [("h", some 1), ("k", some 2), ("l", some 2), ("e", some 5), ("temp", some 300)] := by
  decide +kernel

/-! ## C24 -/

/-- Second moment of the samples about `p`. -/
def moment (x y z : List α) (p : α) : α :=
  trapSum x (List.zipWith (fun x y => (x - p) ^ 2 * y) z y) / trapSum x y

theorem widths_line {d : DataObj α} {n : Nat} {bg : Bg α} {int : List α} {β : α}
    (h : Measured d n bg int β) {bounds : Option (List Bool)} {sel : List Nat}
    (hs : Selects d n bounds sel) {key : String} (hline : LineScan d sel key)
    (hpos : trapSum (column d sel key) (net int β sel) ≠ 0) :
    ∃ ws, widths d bounds bg true = .ok ws ∧ ∀ k ∈ d.qk.values, ws.lookup k = some (some
      (moment (column d sel key) (net int β sel) (column d sel k)
        (trapSum (column d sel key) (List.zipWith (· * ·) (column d sel k) (net int β sel)) /
          trapSum (column d sel key) (net int β sel)))) := by
  obtain ⟨ps, hps, hlook⟩ := position_line h hs hline hpos false
  have hl : sel.length ≠ 1 := by have := hline.two; omega
  have hq : ∀ k ∈ getKeys d true, k ∈ d.qk.values := by
    intro k hk
    unfold getKeys at hk
    simpa using (List.mem_filter.1 hk).2
  have key' : ∀ (p : String → α) (k : String), sumKeys (getKeys d true) (fun k' => do
        trapz (List.zipWith (fun x y => (x - p k) ^ 2 * y) (column d sel k) (net int β sel))
          (← selected d bounds k')) = .ok (trapSum (column d sel key)
            (List.zipWith (fun x y => (x - p k) ^ 2 * y) (column d sel k) (net int β sel))) := by
    intro p k
    rw [sumKeys_ok (g := fun k' => trapSum (column d sel k')
      (List.zipWith (fun x y => (x - p k) ^ 2 * y) (column d sel k) (net int β sel))),
      sum_line h hline]
    intro k' hk'
    rw [selected_ok h hs (getKeys_sub d _ k' hk'), ok_bind, trapz_eq (by simp [net, column])]
  refine ⟨(getKeys d true).map fun k => (k, some
      (moment (column d sel key) (net int β sel) (column d sel k)
        (trapSum (column d sel key) (List.zipWith (· * ·) (column d sel k) (net int β sel)) /
          trapSum (column d sel key) (net int β sel)))), ?_, ?_⟩
  · unfold widths
    apply mapM_ok
    intro k hk
    rw [netIntensity_ok h hs, ok_bind]
    simp only
    rw [selected_ok h hs (getKeys_sub d _ k hk), ok_bind, hps, ok_bind,
      hlook k (mem_getKeys h (hq k hk) false)]
    simp only
    rw [key' (fun k => trapSum (column d sel key)
      (List.zipWith (· * ·) (column d sel k) (net int β sel)) /
          trapSum (column d sel key) (net int β sel)) k, ok_bind, integrate_ok h hs hl, ok_bind,
      sum_line h hline, Option.bind_some, div?, if_neg hpos]
    rfl
  · intro k hk
    exact lookup_map_key _ _ (mem_getKeys h hk true)

/-- **C24** widths are non-negative. -/
theorem C24_width_nonneg [IsStrictOrderedRing α] {d : DataObj α} {n : Nat} {bg : Bg α}
    {int : List α} {β : α} (h : Measured d n bg int β) {bounds : Option (List Bool)}
    {sel : List Nat} (hs : Selects d n bounds sel) {key : String} (hline : LineScan d sel key)
    (hinc : (column d sel key).Pairwise (· ≤ ·)) (hnn : ∀ y ∈ net int β sel, 0 ≤ y)
    (hpos : 0 < trapSum (column d sel key) (net int β sel)) :
    ∃ ws, widths d bounds bg true = .ok ws ∧
      ∀ k ∈ d.qk.values, ∃ w, ws.lookup k = some (some w) ∧ 0 ≤ w := by
  obtain ⟨ws, hws, hk⟩ := widths_line h hs hline hpos.ne'
  refine ⟨ws, hws, fun k hkq => ⟨_, hk k hkq, ?_⟩⟩
  unfold moment
  apply div_nonneg _ hpos.le
  have hz : trapSum (column d sel key) (List.replicate (column d sel key).length 0) = 0 := by
    unfold trapSum
    apply Finset.sum_eq_zero
    intro i hi
    rw [Finset.mem_range] at hi
    rw [List.getD_eq_getElem (List.replicate _ _) _ (by simp; omega),
      List.getD_eq_getElem (List.replicate _ _) _ (by simp; omega)]
    simp
  rw [← hz]
  apply trapSum_le
  · intro i hi
    rw [List.getD_eq_getElem _ _ (by omega), List.getD_eq_getElem _ _ hi]
    exact List.pairwise_iff_getElem.1 hinc _ _ _ _ (by omega)
  · intro i hi
    have hi' : i < sel.length := by simpa [column] using hi
    rw [getD_zipWith _ _ _ _ 0 0 _ (by simpa [column] using hi') (by simpa [net] using hi'),
      List.getD_eq_getElem (List.replicate _ _) _ (by simpa using hi), List.getElem_replicate,
      List.getD_eq_getElem (net _ _ _) _ (by simpa [net] using hi')]
    exact mul_nonneg (sq_nonneg _) (hnn _ (List.getElem_mem _))

/-- The data set after `d.<axis> = d.<axis> + t`. -/
def shiftAxis (d : DataObj α) (key : String) (t : α) : DataObj α :=
  { d with cols := d.cols.put key (((d.cols.lookup key).getD []).map (· + t)) }

theorem column_shift {d : DataObj α} {n : Nat} {bg : Bg α} {int : List α} {β : α}
    (h : Measured d n bg int β) {sel : List Nat} (hsel : ∀ i ∈ sel, i < n) {key : String}
    (hkey : key ∈ d.qk.values) (t : α) (k : String) :
    column (shiftAxis d key t) sel k =
      if k = key then (column d sel key).map (· + t) else column d sel k := by
  obtain ⟨c, hc, hl⟩ := h.lookup (h.coords key hkey)
  unfold column shiftAxis
  simp only [lookup_put, hc, Option.getD_some]
  by_cases hk : k = key
  · subst hk
    simp only [if_true, Option.getD_some, List.map_map]
    apply List.map_congr_left
    intro i hi
    have := hsel i hi
    rw [List.getD_eq_getElem _ _ (by simp; omega), Function.comp_apply,
      List.getD_eq_getElem _ _ (by omega), List.getElem_map]
  · simp only [hk, if_false]

theorem keys_put {t : Table α} {k : String} (v : List α) (h : k ∈ t.map Prod.fst) :
    (t.put k v).map Prod.fst = t.map Prod.fst := by
  obtain ⟨c, _, _, h3⟩ := lookup_isSome_of_mem_keys h
  unfold Table.put
  rw [if_pos (by simp [h3]), List.map_map]
  apply List.map_congr_left
  intro c _
  simp only [Function.comp]
  split <;> simp_all

theorem intensity_shift {d : DataObj α} {key : String} (hk : key ∉ d.dk.values) (t : α) {int : List α}
    (h : ∃ d', intensity d = .ok (int, d')) :
    ∃ d', intensity (shiftAxis d key t) = .ok (int, d') := by
  have hne : ∀ k ∈ d.dk.values, (d.cols.put key (((d.cols.lookup key).getD []).map (· + t))).get k
      = d.cols.get k := by
    intro k hk'
    unfold Table.get
    rw [lookup_put, if_neg (by rintro rfl; exact hk hk')]
  have h1 := hne d.dk.detector (by simp [DataKeys.values])
  have h2 := hne d.dk.monitor (by simp [DataKeys.values])
  have h3 := hne d.dk.time (by simp [DataKeys.values])
  obtain ⟨d', h⟩ := h
  unfold intensity normalise at h ⊢
  simp only [DataObj.detector, DataObj.monitor, DataObj.time] at h ⊢
  simp only [shiftAxis] at h ⊢
  rw [h2, h3]
  generalize d.cols.get d.dk.time = T at h ⊢
  generalize d.cols.get d.dk.monitor = M at h ⊢
  by_cases htn : d.timeNorm = true
  · simp only [htn, if_true] at h ⊢
    obtain ⟨x, hx, h⟩ := bind_eq_ok.1 h
    obtain ⟨m, hm, hx⟩ := bind_eq_ok.1 hx
    obtain ⟨dd, hd, h⟩ := bind_eq_ok.1 h
    obtain ⟨q, hq, h⟩ := bind_eq_ok.1 h
    rw [pure_ok] at h
    by_cases ht0 : d.t0 = 0
    · simp only [ht0, if_true] at hx ⊢
      obtain ⟨m0, hm0, hx⟩ := bind_eq_ok.1 hx
      rw [pure_ok] at hx
      cases hx
      cases h
      rw [hm]
      simp only [ok_bind, hm0, pure_ok, h1, hd, hq]
      exact ⟨_, rfl⟩
    · simp only [ht0, if_false, ok_bind, pure_ok] at hx ⊢
      cases hx
      cases h
      rw [hm]
      simp only [ok_bind, h1, hd, hq]
      exact ⟨_, rfl⟩
  · simp only [htn, if_false, Bool.false_eq_true] at h ⊢
    obtain ⟨x, hx, h⟩ := bind_eq_ok.1 h
    obtain ⟨m, hm, hx⟩ := bind_eq_ok.1 hx
    obtain ⟨dd, hd, h⟩ := bind_eq_ok.1 h
    obtain ⟨q, hq, h⟩ := bind_eq_ok.1 h
    rw [pure_ok] at h
    by_cases ht0 : d.m0 = 0
    · simp only [ht0, if_true] at hx ⊢
      obtain ⟨m0, hm0, hx⟩ := bind_eq_ok.1 hx
      rw [pure_ok] at hx
      cases hx
      cases h
      rw [hm]
      simp only [ok_bind, hm0, pure_ok, h1, hd, hq]
      exact ⟨_, rfl⟩
    · simp only [ht0, if_false, ok_bind, pure_ok] at hx ⊢
      cases hx
      cases h
      rw [hm]
      simp only [ok_bind, h1, hd, hq]
      exact ⟨_, rfl⟩

theorem Measured.shift {d : DataObj α} {n : Nat} {bg : Bg α} {int : List α} {β : α}
    (h : Measured d n bg int β) {key : String} (hkey : key ∈ d.qk.values) (t : α) :
    Measured (shiftAxis d key t) n bg int β where
  rect := by
    intro c hc
    obtain ⟨col, hcol, hl⟩ := h.lookup (h.coords key hkey)
    have hnd : (((shiftAxis d key t).cols).map Prod.fst).Nodup := by
      simp only [shiftAxis]
      rw [keys_put _ (h.coords key hkey)]
      exact h.names
    have hlk := lookup_eq_of_mem hnd hc
    simp only [shiftAxis, lookup_put, hcol, Option.getD_some] at hlk
    split at hlk
    · rw [← Option.some.inj hlk]; simpa using hl
    · obtain ⟨c', hc', hl'⟩ := h.lookup (k := c.1) (by
        have := List.mem_map_of_mem (f := Prod.fst) hc
        simp only [shiftAxis] at this
        rwa [keys_put _ (h.coords key hkey)] at this)
      rw [hc'] at hlk
      rw [← Option.some.inj hlk]; exact hl'
  names := by
    simp only [shiftAxis]
    rw [keys_put _ (h.coords key hkey)]
    exact h.names
  coords := by
    simp only [shiftAxis]
    rw [keys_put _ (h.coords key hkey)]
    exact h.coords
  distinct := h.distinct
  counted := intensity_shift (h.distinct key hkey) t h.counted
  len := h.len
  back := h.back

theorem LineScan.shift {d : DataObj α} {n : Nat} {bg : Bg α} {int : List α} {β : α}
    (h : Measured d n bg int β) {sel : List Nat} (hsel : ∀ i ∈ sel, i < n) {key : String}
    (hline : LineScan d sel key) (t : α) : LineScan (shiftAxis d key t) sel key where
  coord := hline.coord
  two := hline.two
  others := by
    intro k hk hn hne
    rw [column_shift h hsel hline.coord, if_neg hne]
    refine hline.others k ?_ hn hne
    simp only [shiftAxis] at hk
    rwa [keys_put _ (h.coords key hline.coord)] at hk

/-- A scan along h. -/
def hScan : DataObj ℚ :=
  { emptyData with
    cols := [("h", [1, 2, 5]), ("k", [1, 1, 1]), ("l", [2, 2, 2]), ("e", [5, 5, 5]),
      ("temp", [300, 300, 300]), ("detector", [10, 20, 10]), ("monitor", [1, 1, 1]),
      ("time", [1, 1, 1])] }

/-- **C24 is false** for scans along h without bounds: a shift that moves a point to h = 0 drops it, so
that the peak moves by another amount and its width changes. -/
theorem C24_shift_false : Measured hScan 3 .none [10, 20, 10] 0 ∧
    ∃ ps ps' ws ws' p p' w w', position hScan none .none true = .ok ps ∧
      position (shiftAxis hScan "h" (-1)) none .none true = .ok ps' ∧
      widths hScan none .none true = .ok ws ∧ widths (shiftAxis hScan "h" (-1)) none .none true = .ok ws' ∧
      ps.lookup "h" = some (some p) ∧ ps'.lookup "h" = some (some p') ∧ p' ≠ p - 1 ∧
      ws.lookup "h" = some (some w) ∧ ws'.lookup "h" = some (some w') ∧ w' ≠ w := by
  refine ⟨⟨by unfold Rect; decide, by decide, by decide, by decide,
    ⟨{ hScan with m0 := 1 }, by decide +kernel⟩, rfl, rfl⟩, ?_⟩
  exact ⟨[("h", some (8 / 3)), ("k", some 1), ("l", some 2), ("e", some 5), ("temp", some 300)],
    [("h", some 2), ("k", some 1), ("l", some 2), ("e", some 5), ("temp", some 300)],
    [("h", some (17 / 9)), ("k", some 0), ("l", some 0), ("e", some 0), ("temp", some 0)],
    [("h", some 2), ("k", some 0), ("l", some 0), ("e", some 0), ("temp", some 0)], 8 / 3, 2, 17 / 9, 2,
    by decide +kernel, by decide +kernel, by decide +kernel, by decide +kernel, by decide +kernel, by decide +kernel,
    by decide +kernel, by decide +kernel, by decide +kernel, by decide +kernel⟩

/-- **C24** shifting the scanned coordinate shifts the position on that axis by
the same amount and leaves the other positions and all widths as they are. (Both
calls must select the same points, which is the case when bounds are given or the
scanned axis is not h.  Missing: a scan along h without bounds, see `C24_shift_false`.) -/
theorem C24_shift_partial {d : DataObj α} {n : Nat} {bg : Bg α} {int : List α} {β : α}
    (h : Measured d n bg int β) {bounds : Option (List Bool)} {sel : List Nat} {key : String} {t : α}
    (hs : Selects d n bounds sel) (hs' : Selects (shiftAxis d key t) n bounds sel)
    (hline : LineScan d sel key)
    (hpos : trapSum (column d sel key) (net int β sel) ≠ 0) :
    ∃ ps ps' ws ws', position d bounds bg true = .ok ps ∧
      position (shiftAxis d key t) bounds bg true = .ok ps' ∧
      widths d bounds bg true = .ok ws ∧ widths (shiftAxis d key t) bounds bg true = .ok ws' ∧
      ∀ k ∈ d.qk.values, ∃ p w, ps.lookup k = some (some p) ∧
        ps'.lookup k = some (some (if k = key then p + t else p)) ∧
        ws.lookup k = some (some w) ∧ ws'.lookup k = some (some w) := by
  have hsel := sel_lt hs
  have h' := h.shift hline.coord t
  have hline' := hline.shift h hsel t
  have hcol := column_shift h hsel hline.coord t
  have hck : column (shiftAxis d key t) sel key = (column d sel key).map (· + t) := by
    rw [hcol, if_pos rfl]
  have hT : trapSum (column (shiftAxis d key t) sel key) (net int β sel) =
      trapSum (column d sel key) (net int β sel) := by rw [hck, trapSum_shift]
  have hpos' : trapSum (column (shiftAxis d key t) sel key) (net int β sel) ≠ 0 := by rwa [hT]
  obtain ⟨ps, hps, hp⟩ := position_line h hs hline hpos true
  obtain ⟨ps', hps', hp'⟩ := position_line h' hs' hline' hpos' true
  obtain ⟨ws, hws, hw⟩ := widths_line h hs hline hpos
  obtain ⟨ws', hws', hw'⟩ := widths_line h' hs' hline' hpos'
  refine ⟨ps, ps', ws, ws', hps, hps', hws, hws', fun k hk => ?_⟩
  have e1 := hp k (mem_getKeys h hk true)
  have e1' := hp' k (mem_getKeys h' hk true)
  have e2 := hw k hk
  have e2' := hw' k hk
  have hpe : trapSum (column (shiftAxis d key t) sel key)
        (List.zipWith (· * ·) (column (shiftAxis d key t) sel k) (net int β sel)) /
        trapSum (column (shiftAxis d key t) sel key) (net int β sel) =
      if k = key then trapSum (column d sel key)
        (List.zipWith (· * ·) (column d sel k) (net int β sel)) /
        trapSum (column d sel key) (net int β sel) + t
      else trapSum (column d sel key)
        (List.zipWith (· * ·) (column d sel k) (net int β sel)) /
        trapSum (column d sel key) (net int β sel) := by
    rw [hT, hck, trapSum_shift, hcol]
    by_cases hk' : k = key
    · subst hk'
      simp only [if_true]
      rw [trapSum_add (y := List.zipWith (· * ·) (column d sel k) (net int β sel))
        (z := (net int β sel).map (t * ·)), trapSum_smul _ _ (by simp [net, column]), add_div,
        mul_div_assoc, div_self hpos, mul_one]
      intro i hi
      have hi' : i < sel.length := by simpa [column] using hi
      rw [getD_zipWith _ _ _ _ 0 0 _ (by simpa [column] using hi') (by simpa [net] using hi'),
        getD_zipWith _ _ _ _ 0 0 _ (by simpa [column] using hi') (by simpa [net] using hi'),
        List.getD_eq_getElem (List.map _ (column d sel k)) _ (by simpa [column] using hi'),
        List.getD_eq_getElem (List.map _ (net int β sel)) _ (by simpa [net] using hi'),
        List.getD_eq_getElem (column d sel k) _ (by simpa [column] using hi'),
        List.getD_eq_getElem (net int β sel) _ (by simpa [net] using hi')]
      simp only [List.getElem_map]
      ring
    · simp only [hk', if_false]
  rw [hpe] at e1' e2'
  refine ⟨_, _, e1, ?_, e2, ?_⟩
  · rw [e1']
  · rw [e2']
    congr 2
    unfold moment
    rw [hT, hck, trapSum_shift, hcol]
    by_cases hk' : k = key
    · subst hk'
      simp only [if_true]
      congr 1
      apply trapSum_congr
      intro i hi
      have hi' : i < sel.length := by simpa [column] using hi
      rw [getD_zipWith _ _ _ _ 0 0 _ (by simpa [column] using hi') (by simpa [net] using hi'),
        getD_zipWith _ _ _ _ 0 0 _ (by simpa [column] using hi') (by simpa [net] using hi'),
        List.getD_eq_getElem (List.map _ (column d sel k)) _ (by simpa [column] using hi'),
        List.getD_eq_getElem (column d sel k) _ (by simpa [column] using hi')]
      simp only [List.getElem_map]
      ring
    · simp only [hk', if_false]

example : Selects (shiftAxis kScan1 "k" 7) 3 none [0, 1, 2] :=
  Selects.all (d := shiftAxis kScan1 "k" 7) (n := 3) [1, 1, 1] rfl
example : widths kScan1 none .none true =
    .ok [("h", some 0), ("k", some (1 / 3)), ("l", some 0), ("e", some 0), ("temp", some 0)] := by
  decide +kernel
example : widths (shiftAxis kScan1 "k" 7) none .none true =
    .ok [("h", some 0), ("k", some (1 / 3)), ("l", some 0), ("e", some 0), ("temp", some 0)] := by
  decide +kernel

/-! ## C77 -/

/-- A scan along k with a column that is neither a coordinate nor a count (here a
motor angle) changing during the scan. -/
def motorScan : DataObj ℚ := { kScan1 with cols := kScan1.cols ++ [("a3", [10, 30, 30])] }

/-- **C77 is false**: with an extra column that varies along the scan, the width is
not the second moment about the reported position: 2 is reported for the position
on k and the second moment about it is 1/3, but the width reported is 2503/9. -/
theorem C77_width_not_about_position :
    position motorScan none .none true =
      .ok [("h", some 1), ("k", some 2), ("l", some 2), ("e", some 5), ("temp", some 300)] ∧
    moment [1, 2, 3] [10, 20, 10] [1, 2, 3] (2 : ℚ) = 1 / 3 ∧
    (widths motorScan none .none true).toOption.bind (·.lookup "k") = some (some (2503 / 9)) := by
  decide +kernel

/-- **C77** in a scan where every other column that is not a count is constant, the
width on each axis is the second moment about the position reported for it.
Missing: scans during which further columns vary. -/
theorem C77_width_about_position_partial {d : DataObj α} {n : Nat} {bg : Bg α} {int : List α} {β : α}
    (h : Measured d n bg int β) {bounds : Option (List Bool)} {sel : List Nat}
    (hs : Selects d n bounds sel) {key : String} (hline : LineScan d sel key)
    (hpos : trapSum (column d sel key) (net int β sel) ≠ 0) :
    ∃ ps ws, position d bounds bg true = .ok ps ∧ widths d bounds bg true = .ok ws ∧
      ∀ k ∈ d.qk.values, ∃ p, ps.lookup k = some (some p) ∧ ws.lookup k = some (some
        (moment (column d sel key) (net int β sel) (column d sel k) p)) := by
  obtain ⟨ps, hps, hp⟩ := position_line h hs hline hpos true
  obtain ⟨ws, hws, hw⟩ := widths_line h hs hline hpos
  exact ⟨ps, ws, hps, hws, fun k hk => ⟨_, hp k (mem_getKeys h hk true), hw k hk⟩⟩

/-! ## C25 -/

/-- The `m` smallest members of a list, by selection rather than by sorting:
a sublist up to order, whose members are all at most every one left out. -/
def IsSmallest (low all : List α) : Prop :=
  ∃ rest, all.Perm (low ++ rest) ∧ ∀ x ∈ low, ∀ y ∈ rest, x ≤ y

theorem trunc_of_nonneg {x : α} (h : 0 ≤ x) : trunc x = ⌊x⌋ := by rw [trunc, if_pos h]

/-- **C25** the percent background is the average of the ⌊v·n/100⌋ smallest of the
`n` non-negative intensities (and `nan` if that number is zero). -/
theorem C25_percent [IsStrictOrderedRing α] (int : List α) {v : α} (h0 : 0 ≤ v) (h1 : v ≤ 100) :
    ∃ low m, IsSmallest low (int.filter (fun x => decide (0 ≤ x))) ∧
      m = ⌊v * ((int.filter (fun x => decide (0 ≤ x))).length : α) / 100⌋₊ ∧ low.length = m ∧
      background int (.percent v) = .ok (if m = 0 then none else some (low.sum / m)) := by
  set inten := int.filter (fun x => decide (0 ≤ x)) with hint
  set S := isort (fun x y : α => decide (x ≤ y)) inten with hS
  set m := ⌊v * (inten.length : α) / 100⌋₊ with hm
  have hperm : S.Perm inten := isort_perm _ _
  have hx : (0 : α) ≤ (inten.length : α) * (v / 100) := by positivity
  have htr : trunc ((inten.length : α) * (v / 100)) = (m : Int) := by
    rw [trunc_of_nonneg hx, hm, ← Int.floor_toNat, Int.toNat_of_nonneg]
    · congr 1; ring
    · exact Int.floor_nonneg.2 (by positivity)
  have hml : m ≤ S.length := by
    rw [hperm.length_eq]
    have h2 : v * (inten.length : α) / 100 ≤ inten.length := by
      rw [div_le_iff₀ (by norm_num)]
      have : (0 : α) ≤ inten.length := by positivity
      nlinarith
    rw [hm]
    exact Nat.floor_le_of_le h2
  have hlow : (S.take m).length = m := by rw [List.length_take]; omega
  refine ⟨S.take m, m, ⟨S.drop m, ?_, ?_⟩, rfl, hlow, ?_⟩
  · rw [List.take_append_drop]; exact hperm.symm
  · have hp : S.Pairwise (fun x y => decide (x ≤ y) = true) :=
      isort_pairwise (fun a b c h1 h2 => by simp at *; exact h1.trans h2)
        (fun a b => by simpa using le_total a b) _
    intro x hx y hy
    rw [← List.take_append_drop m S, List.pairwise_append] at hp
    simpa using hp.2.2 x hx y hy
  · simp only [background, ← hint, ← hS, htr, sliceTo, average?]
    rw [if_pos (Int.natCast_nonneg m), Int.toNat_natCast]
    by_cases hm0 : m = 0
    · simp [hm0]
    · have : S.take m ≠ [] := by
        intro h; rw [h] at hlow; exact hm0 hlow.symm
      rw [if_neg this, if_neg hm0, hlow]

theorem mean_le_of_smallest [IsStrictOrderedRing α] {low all : List α} (h : IsSmallest low all)
    (hne : low ≠ []) : (∃ x ∈ all, (∀ y ∈ all, x ≤ y) ∧ x ≤ low.sum / low.length) ∧
      low.sum / low.length ≤ all.sum / all.length := by
  obtain ⟨rest, hp, hle⟩ := h
  have hl : (0 : α) < low.length := by
    have := List.length_pos_iff.2 hne
    exact_mod_cast this
  constructor
  · obtain ⟨x, hx, hmin⟩ : ∃ x ∈ low, ∀ y ∈ low, x ≤ y := by
      clear hp hle hl
      induction low with
      | nil => exact absurd rfl hne
      | cons a l ih =>
        by_cases hl : l = []
        · subst hl; exact ⟨a, by simp, by simp⟩
        · obtain ⟨x, hx, h⟩ := ih hl
          rcases le_total a x with hax | hax
          · refine ⟨a, by simp, ?_⟩
            intro y hy
            rcases List.mem_cons.1 hy with rfl | hy
            · exact le_rfl
            · exact hax.trans (h y hy)
          · refine ⟨x, by simp [hx], ?_⟩
            intro y hy
            rcases List.mem_cons.1 hy with rfl | hy
            · exact hax
            · exact h y hy
    refine ⟨x, hp.mem_iff.2 (by simp [hx]), ?_, ?_⟩
    · intro y hy
      rcases List.mem_append.1 (hp.mem_iff.1 hy) with hy | hy
      · exact hmin y hy
      · exact hle x hx y hy
    · rw [le_div_iff₀ hl, mul_comm, ← nsmul_eq_mul]
      exact List.card_nsmul_le_sum low x hmin
  · have hsum : all.sum = low.sum + rest.sum := by rw [hp.sum_eq, List.sum_append]
    have hlen : (all.length : α) = low.length + rest.length := by
      rw [hp.length_eq, List.length_append]; push_cast; rfl
    have hr : (0 : α) ≤ rest.length := by positivity
    rw [hsum, hlen, div_le_div_iff₀ hl (by linarith)]
    have hcross : ∀ rest : List α, (∀ x ∈ low, ∀ y ∈ rest, x ≤ y) →
        low.sum * rest.length ≤ rest.sum * low.length := by
      intro rest
      induction rest with
      | nil => intro _; simp
      | cons y r ih =>
        intro h
        have h1 := ih (fun x hx z hz => h x hx z (by simp [hz]))
        have h2 : low.sum ≤ low.length * y := by
          rw [← nsmul_eq_mul]
          exact List.sum_le_card_nsmul low y (fun x hx => h x hx y (by simp))
        simp only [List.length_cons, List.sum_cons]
        push_cast
        nlinarith
    have := hcross rest hle
    nlinarith

/-- Arithmetic mean. -/
def mean' (xs : List α) : α := xs.sum / xs.length

/-- **C25** the percent background, if defined, lies between the smallest and the
average non-negative intensity. -/
theorem C25_between [IsStrictOrderedRing α] (int : List α) {v : α} (h0 : 0 ≤ v) (h1 : v ≤ 100) {b : α}
    (hb : background int (.percent v) = .ok (some b)) :
    (∃ x ∈ int, 0 ≤ x ∧ (∀ y ∈ int, 0 ≤ y → x ≤ y) ∧ x ≤ b) ∧
      b ≤ mean' (int.filter (fun x => decide (0 ≤ x))) := by
  obtain ⟨low, m, hs, hm, hlen, heq⟩ := C25_percent int h0 h1
  rw [hb] at heq
  by_cases hm0 : m = 0
  · simp [hm0] at heq
  · rw [if_neg hm0] at heq
    have hbe : b = low.sum / m := by simpa using heq
    have hne : low ≠ [] := by
      intro h; rw [h] at hlen; exact hm0 hlen.symm
    obtain ⟨⟨x, hx, hmin, hxb⟩, h2⟩ := mean_le_of_smallest hs hne
    rw [hlen, ← hbe] at hxb h2
    refine ⟨⟨x, (List.mem_filter.1 hx).1, by simpa using (List.mem_filter.1 hx).2, ?_, hxb⟩, h2⟩
    intro y hy hy0
    exact hmin y (List.mem_filter.2 ⟨hy, by simpa using hy0⟩)

/-- **C25** the estimate does not depend on the order of the points, whatever the
type of background. -/
theorem C25_order [IsStrictOrderedRing α] {int int' : List α} (hp : int.Perm int') (bg : Bg α) :
    background int bg = background int' bg := by
  cases bg with
  | none => rfl
  | num c => rfl
  | constant c => rfl
  | other => rfl
  | percent v =>
    simp only [background]
    have hf := hp.filter (fun x => decide (0 ≤ x))
    have hs : isort (fun x y : α => decide (x ≤ y)) (int.filter (fun x => decide (0 ≤ x))) =
        isort (fun x y : α => decide (x ≤ y)) (int'.filter (fun x => decide (0 ≤ x))) := by
      have hpw : ∀ l : List α, (isort (fun x y : α => decide (x ≤ y)) l).Pairwise (· ≤ ·) := by
        intro l
        have := isort_pairwise (le := fun x y : α => decide (x ≤ y))
          (fun a b c h1 h2 => by simp at *; exact h1.trans h2)
          (fun a b => by simpa using le_total a b) l
        simpa using this
      exact List.Perm.eq_of_pairwise (fun a b _ _ => le_antisymm) (hpw _) (hpw _)
        ((isort_perm _ _).trans (hf.trans (isort_perm _ _).symm))
    rw [hf.length_eq, hs]
  | minimum =>
    cases int with
    | nil =>
      have : int' = [] := hp.nil_eq.symm
      subst this; rfl
    | cons a l =>
      cases int' with
      | nil => exact absurd hp.eq_nil (by simp)
      | cons b l' =>
        have key : ∀ (l : List α) (a : α), (∀ x ∈ a :: l, l.foldl min a ≤ x) ∧
            l.foldl min a ∈ a :: l := by
          intro l
          induction l with
          | nil => intro a; simp
          | cons c l ih =>
            intro a
            obtain ⟨h1, h2⟩ := ih (min a c)
            rw [List.foldl_cons]
            constructor
            · intro x hx
              have hm := h1 (min a c) (by simp)
              rcases List.mem_cons.1 hx with rfl | hx
              · exact hm.trans (min_le_left _ _)
              · rcases List.mem_cons.1 hx with rfl | hx
                · exact hm.trans (min_le_right _ _)
                · exact h1 x (by simp [hx])
            · rcases List.mem_cons.1 h2 with h2 | h2
              · rw [h2]
                rcases min_choice a c with h | h <;> rw [h] <;> simp
              · simp [h2]
        simp only [background]
        congr 2
        apply le_antisymm
        · exact (key l a).1 _ (hp.mem_iff.2 (key l' b).2)
        · exact (key l' b).1 _ (hp.mem_iff.1 (key l a).2)

/-- **C25** no background and unknown types give 0. -/
theorem C25_default (int : List α) :
    background int .none = .ok (some 0) ∧ background int .other = .ok (some 0) := ⟨rfl, rfl⟩

example : background [5, -1, 3, 4, 1, 2] (.percent (40 : ℚ)) = .ok (some (3 / 2)) := by
  decide +kernel

end Verif.Data
