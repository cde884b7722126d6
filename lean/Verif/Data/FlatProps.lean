import Verif.Data.ScaleProps

/-!
# A flat background added to the data

What the integral, the peak position and the peak width become when every point has
counted the same number of background counts per monitor count (or per second) more.
-/

namespace Verif.Data

variable {α : Type} [Field α] [LinearOrder α] [FloorRing α]

/-! ## Specification -/

/-- The column the counts are divided by. -/
def normaliserKey (d : DataObj α) : String := if d.timeNorm then d.dk.time else d.dk.monitor

/-- `r` is the data set `d` with `b` more counts per monitor count (or second) at every
point, and every point of `d` was counted for some time. -/
def FlatAdded (d : DataObj α) (b : α) (r : DataObj α) : Prop :=
  ∃ n m, d.cols.lookup d.dk.detector = some n ∧ d.cols.lookup (normaliserKey d) = some m ∧
    n.length = m.length ∧ (∀ x ∈ m, x ≠ 0) ∧
    r = { d with cols := d.cols.put d.dk.detector (List.zipWith (fun x y => x + b * y) n m) }

/-- The background is estimated from the data. -/
def Bg.Estimated : Bg α → Prop
  | .percent _ => True
  | .minimum => True
  | _ => False

/-- No intensity is negative. -/
def NoneNegative (d : DataObj α) : Prop := ∀ int d', intensity d = .ok (int, d') → ∀ x ∈ int, 0 ≤ x

/-! ## Lemmas -/

section lemmas

theorem get_flat {d r : DataObj α} {b : α} (h : FlatAdded d b r) {k : String}
    (hk : k ≠ d.dk.detector) : r.cols.get k = d.cols.get k := by
  obtain ⟨n, m, _, _, _, _, rfl⟩ := h
  unfold Table.get
  rw [lookup_put, if_neg hk]

theorem qk_flat {d r : DataObj α} {b : α} (h : FlatAdded d b r) : r.qk = d.qk := by
  obtain ⟨n, m, _, _, _, _, rfl⟩ := h; rfl

omit [LinearOrder α] [FloorRing α] in
theorem bcast_flat (b m0 : α) {n m : List α} (hl : n.length = m.length) (h0 : ∀ x ∈ m, x ≠ 0) :
    (bcast (· / ·) (List.zipWith (fun x y => x + b * y) n m) m).map (List.map (· * m0)) =
      (bcast (· / ·) n m).map (List.map fun x => x * m0 + b * m0) := by
  unfold bcast
  rw [if_pos (by simp [hl]), if_pos hl]
  simp only [Except.map]
  congr 1
  induction n generalizing m with
  | nil => simp
  | cons x n ih =>
    rcases m with _ | ⟨y, m⟩
    · simp at hl
    · simp only [List.zipWith_cons_cons, List.map_cons]
      have hy := h0 y (by simp)
      rw [ih (by simpa using hl) fun z hz => h0 z (by simp [hz])]
      congr 1
      field_simp

/-- The intensities rise by one number. -/
theorem intensity_flat {d r : DataObj α} {b : α} (h : FlatAdded d b r) (ho : OwnCounts d) :
    ∃ c, (intensity r).map Prod.fst = (intensity d).map fun p => p.1.map (· + c) := by
  have hm := get_flat h (Ne.symm ho.monitor)
  have ht := get_flat h (Ne.symm ho.time)
  obtain ⟨n, m, hd, hn, hl, h0, rfl⟩ := h
  have hd' := get_eq_ok.2 hd
  have hn' := get_eq_ok.2 hn
  have key : ∀ m0, ((do
        let q ← bcast (· / ·) (List.zipWith (fun x y => x + b * y) n m) m
        return q.map (· * m0) : Except Err (List α)))
      = (do
        let q ← bcast (· / ·) n m
        return (q.map (· * m0)).map (· + b * m0)) := by
    intro m0
    have := bcast_flat b m0 hl h0
    rcases hA : bcast (· / ·) (List.zipWith (fun x y => x + b * y) n m) m with e | q <;>
    rcases hB : bcast (· / ·) n m with e' | q' <;> rw [hA, hB] at this <;>
    simp only [Except.map, Except.ok.injEq, Except.error.injEq, reduceCtorEq] at this
    · rw [this]; rfl
    · simp only [ok_bind, pure_ok, this, List.map_map]
      rfl
  have hr : (d.cols.put d.dk.detector (List.zipWith (fun x y => x + b * y) n m)).get d.dk.detector
      = .ok (List.zipWith (fun x y => x + b * y) n m) := by
    rw [get_eq_ok, lookup_put, if_pos rfl]
  unfold intensity normalise DataObj.detector DataObj.time DataObj.monitor
  simp only at hm ht ⊢
  rw [hm, ht]
  by_cases htn : d.timeNorm = true
  · rw [normaliserKey, if_pos htn] at hn'
    simp only [htn, if_true, hn', ok_bind]
    by_cases hz : d.t0 = 0
    · simp only [hz, if_true]
      rcases nanmax m with e | t0
      · exact ⟨0, rfl⟩
      refine ⟨b * t0, ?_⟩
      simp only [ok_bind, pure_ok, hr, hd', exc_bind_map]
      exact key t0
    · refine ⟨b * d.t0, ?_⟩
      simp only [hz, if_false, ok_bind, pure_ok, hr, hd', exc_bind_map]
      exact key d.t0
  · rw [normaliserKey, if_neg htn] at hn'
    simp only [htn, if_false, Bool.false_eq_true, hn', ok_bind]
    by_cases hz : d.m0 = 0
    · simp only [hz, if_true]
      rcases nanmax m with e | t0
      · exact ⟨0, rfl⟩
      refine ⟨b * t0, ?_⟩
      simp only [ok_bind, pure_ok, hr, hd', exc_bind_map]
      exact key t0
    · refine ⟨b * d.m0, ?_⟩
      simp only [hz, if_false, ok_bind, pure_ok, hr, hd', exc_bind_map]
      exact key d.m0

theorem getBounds_flat {d r : DataObj α} {b : α} (h : FlatAdded d b r) (ho : OwnCounts d)
    (bounds : Option (List Bool)) : getBounds r bounds = getBounds d bounds := by
  cases bounds with
  | some b => rfl
  | none =>
    unfold getBounds
    rw [qk_flat h, mapM_congr_mem (f := r.cols.get) (g := d.cols.get)]
    intro k hk
    exact get_flat h (by rintro rfl; exact ho.coord hk)

theorem getKeys_flat {d r : DataObj α} {b : α} (h : FlatAdded d b r) (hkle : Bool) :
    getKeys r hkle = getKeys d hkle := by
  obtain ⟨n, m, hd, _, _, _, rfl⟩ := h
  unfold getKeys
  have : d.dk.detector ∈ d.cols.map Prod.fst := by
    by_contra hn
    have : d.cols.lookup d.dk.detector = none := by
      rw [List.lookup_eq_none_iff]
      intro p hp
      simp only [beq_eq_false_iff_ne, ne_eq, bne_iff_ne]
      rintro e
      exact hn (List.mem_map.2 ⟨p, hp, e.symm⟩)
    rw [this] at hd
    cases hd
  simp only [keys_put _ this]

theorem selected_flat {d r : DataObj α} {b : α} (h : FlatAdded d b r) (ho : OwnCounts d)
    (bounds : Option (List Bool)) {k : String} (hk : k ≠ d.dk.detector) :
    selected r bounds k = selected d bounds k := by
  unfold selected
  rw [getBounds_flat h ho, get_flat h hk]

omit [LinearOrder α] [FloorRing α] in
theorem sum_map_add_const (c : α) (l : List α) : (l.map (· + c)).sum = l.sum + l.length * c := by
  induction l with
  | nil => simp
  | cons x l ih =>
    rw [List.map_cons, List.sum_cons, ih, List.sum_cons, List.length_cons]
    push_cast
    ring

/-- An estimated background rises with the intensities. -/
theorem bg_flat [IsStrictOrderedRing α] (c : α) {bg : Bg α} (he : bg.Estimated) {int : List α}
    (hp : ∀ v, bg = .percent v → (∀ x ∈ int, 0 ≤ x) ∧ ∀ x ∈ int, 0 ≤ x + c) :
    background (int.map (· + c)) bg = (background int bg).map (Option.map (· + c)) := by
  cases bg with
  | none => exact absurd he id
  | num b => exact absurd he id
  | constant b => exact absurd he id
  | other => exact absurd he id
  | minimum =>
    rcases int with _ | ⟨x, xs⟩
    · rfl
    · simp only [List.map_cons, background, Except.map, Option.map_some]
      congr 2
      clear hp
      induction xs generalizing x with
      | nil => rfl
      | cons z xs ih =>
        rw [List.map_cons, List.foldl_cons, List.foldl_cons, min_add_add_right]
        exact ih _
  | percent v =>
    obtain ⟨h1, h2⟩ := hp v rfl
    simp only [background, Except.map]
    have hf : (int.map (· + c)).filter (fun x => decide (0 ≤ x)) =
        (int.filter fun x => decide (0 ≤ x)).map (· + c) := by
      rw [List.filter_eq_self.2, List.filter_eq_self.2]
      · intro x hx; simpa using h1 x hx
      · intro x hx
        obtain ⟨y, hy, rfl⟩ := List.mem_map.1 hx
        simpa using h2 y hy
    rw [hf, List.length_map, ← isort_map (le := fun x y => decide (x ≤ y))]
    · generalize isort (fun x y => decide (x ≤ y)) (int.filter fun x => decide (0 ≤ x)) = s
      generalize trunc (α := α) _ = n
      have hs : sliceTo (s.map (· + c)) n = (sliceTo s n).map (· + c) := by
        unfold sliceTo
        rw [List.length_map]
        split <;> rw [List.map_take]
      rw [hs]
      unfold average?
      by_cases hn : sliceTo s n = []
      · rw [hn]; rfl
      · have hl : ((sliceTo s n).length : α) ≠ 0 := by
          simpa using hn
        rw [if_neg hn, if_neg (by rwa [List.map_eq_nil_iff]), sum_map_add_const, List.length_map,
          Option.map_some]
        congr 2
        field_simp
    · intro a b
      simp only [decide_eq_decide]
      exact add_le_add_iff_right c

/-- The intensities without background stay as they are. -/
theorem net_flat [IsStrictOrderedRing α] {d r : DataObj α} {b : α} (h : FlatAdded d b r)
    (ho : OwnCounts d) (bounds : Option (List Bool)) {bg : Bg α} (he : bg.Estimated)
    (hp : ∀ v, bg = .percent v → NoneNegative d ∧ NoneNegative r) :
    netIntensity r bounds bg = netIntensity d bounds bg := by
  obtain ⟨c, hi⟩ := intensity_flat h ho
  unfold netIntensity
  rw [getBounds_flat h ho]
  rcases hI : intensity d with e | ⟨int, d1⟩
  · rw [hI] at hi
    rcases hR : intensity r with e' | ⟨int', r1⟩
    · rw [hR] at hi
      simp only [Except.map, Except.error.injEq] at hi
      rw [hi]
    · rw [hR] at hi; simp [Except.map] at hi
  · rw [hI] at hi
    rcases hR : intensity r with e' | ⟨int', r1⟩
    · rw [hR] at hi; simp [Except.map] at hi
    · rw [hR] at hi
      simp only [Except.map, Except.ok.injEq] at hi
      subst hi
      have hb := bg_flat c he (int := int) fun v hv =>
        ⟨(hp v hv).1 _ _ hI, fun x hx => (hp v hv).2 _ _ hR _ (List.mem_map_of_mem hx)⟩
      simp only [ok_bind]
      rcases getBounds d bounds with e | ind
      · rfl
      simp only [ok_bind, mapM_map_getE, exc_map_bind]
      rcases take ind int with e | y
      · rfl
      simp only [ok_bind, hb, exc_map_bind]
      rcases background int bg with e | β
      · rfl
      simp only [ok_bind, pure_ok]
      rcases β with _ | β
      · rfl
      · simp only [Option.map_some, List.map_map]
        congr 3
        funext x
        simp only [Function.comp]
        ring

omit [LinearOrder α] [FloorRing α] in
theorem sumKeys_congr {keys : List String} {f g : String → Except Err α}
    (h : ∀ k ∈ keys, f k = g k) : sumKeys keys f = sumKeys keys g := by
  unfold sumKeys
  generalize (0 : α) = s
  induction keys generalizing s with
  | nil => rfl
  | cons k keys ih =>
    rw [List.foldlM_cons, List.foldlM_cons, h k (by simp)]
    congr 1
    funext s'
    exact ih (fun k' hk' => h k' (by simp [hk'])) s'

end lemmas

/-! ## C226 -/

/-- **C226** when a flat background is added to the counts and the background is estimated
from the data, `integrate`, `position` and `width` stay as they are, errors and nan
included; for all bounds and both values of `hkle`.  For the background in percent no
intensity may be negative, before or after. -/
theorem C226_flat [IsStrictOrderedRing α] {d r : DataObj α} {b : α} (h : FlatAdded d b r)
    (ho : OwnCounts d) (bounds : Option (List Bool)) {bg : Bg α} (he : bg.Estimated)
    (hp : ∀ v, bg = .percent v → NoneNegative d ∧ NoneNegative r) (hkle : Bool) :
    integrate r bounds bg hkle = integrate d bounds bg hkle ∧
    position r bounds bg hkle = position d bounds bg hkle ∧
    widths r bounds bg hkle = widths d bounds bg hkle := by
  have hn := net_flat h ho bounds he hp
  have hs : ∀ hkle, ∀ k ∈ getKeys d hkle, selected r bounds k = selected d bounds k :=
    fun hkle k hk => selected_flat h ho bounds (ne_detector_of_key ho hk)
  have hi : ∀ hkle, integrate r bounds bg hkle = integrate d bounds bg hkle := by
    intro hkle
    unfold integrate
    rw [hn, getKeys_flat h]
    refine bind_congr fun o => ?_
    rcases o with _ | y
    · rfl
    · simp only
      rw [sumKeys_congr (f := fun k => do trapz y (← squeeze (← selected r bounds k)))
        (g := fun k => do trapz y (← squeeze (← selected d bounds k)))]
      intro k hk
      rw [hs hkle k hk]
  have hq : ∀ hkle, position r bounds bg hkle = position d bounds bg hkle := by
    intro hkle
    unfold position
    rw [hn, getKeys_flat h, hi]
    refine mapM_congr_mem fun key hkey => ?_
    refine bind_congr fun o => ?_
    rcases o with _ | y
    · rfl
    · simp only
      rw [hs hkle key hkey]
      refine bind_congr fun xk => ?_
      rw [sumKeys_congr (f := fun k => do
          trapz (List.zipWith (· * ·) xk y) (← selected r bounds k))
        (g := fun k => do trapz (List.zipWith (· * ·) xk y) (← selected d bounds k))]
      intro k hk
      rw [hs hkle k hk]
  refine ⟨hi hkle, hq hkle, ?_⟩
  unfold widths
  rw [hn, getKeys_flat h, hi, hq]
  refine mapM_congr_mem fun key hkey => ?_
  refine bind_congr fun o => ?_
  rcases o with _ | y
  · rfl
  · simp only
    rw [hs hkle key hkey]
    refine bind_congr fun xk => ?_
    refine bind_congr fun ps => ?_
    rcases ps.lookup key with _ | (_ | p)
    · rfl
    · rfl
    · simp only
      rw [sumKeys_congr (f := fun k => do
          trapz (List.zipWith (fun x y => (x - p) ^ 2 * y) xk y) (← selected r bounds k))
        (g := fun k => do
          trapz (List.zipWith (fun x y => (x - p) ^ 2 * y) xk y) (← selected d bounds k))]
      intro k hk
      rw [hs hkle k hk]

/-- **C226** the full widths at half maximum stay as they are too. -/
theorem C226_fwhm {d r : DataObj ℝ} {b : ℝ} (h : FlatAdded d b r) (ho : OwnCounts d)
    (bounds : Option (List Bool)) {bg : Bg ℝ} (he : bg.Estimated)
    (hp : ∀ v, bg = .percent v → NoneNegative d ∧ NoneNegative r) (hkle : Bool) :
    widthsFwhm r bounds bg hkle = widthsFwhm d bounds bg hkle := by
  unfold widthsFwhm
  rw [(C226_flat h ho bounds he hp hkle).2.2]

/-- `kScan1` with five more counts per monitor count. -/
def kScan1Flat : DataObj ℚ := { kScan1 with cols := kScan1.cols.put "detector" [15, 25, 15] }

theorem flat_kScan1 : FlatAdded kScan1 5 kScan1Flat :=
  ⟨[10, 20, 10], [1, 1, 1], by decide +kernel, by decide +kernel, rfl, by decide +kernel,
    by decide +kernel⟩

theorem noneNegative_of {d : DataObj ℚ} {int : List ℚ} (hi : (intensity d).map Prod.fst = .ok int)
    (h : ∀ x ∈ int, 0 ≤ x) : NoneNegative d := by
  intro int' d' hd
  rw [hd] at hi
  simp only [Except.map, Except.ok.injEq] at hi
  rwa [hi]

/-- The hypotheses are met by a scan whose integral is a number, with both ways of estimating the
background. -/
example : FlatAdded kScan1 5 kScan1Flat ∧ OwnCounts kScan1 ∧ NoneNegative kScan1 ∧
    NoneNegative kScan1Flat ∧
    integrate kScan1Flat none .minimum true = .ok (some 10) ∧
    integrate kScan1Flat none (.percent 70) true = .ok (some 10) ∧
    intensity kScan1Flat ≠ intensity kScan1 :=
  ⟨flat_kScan1, ownCounts_kScan1,
    noneNegative_of (int := [10, 20, 10]) (by decide +kernel) (by decide +kernel),
    noneNegative_of (int := [15, 25, 15]) (by decide +kernel) (by decide +kernel),
    by decide +kernel, by decide +kernel, by decide +kernel⟩

/-- **C226** with a background that is given instead, the integral changes. -/
theorem C226_given : FlatAdded kScan1 5 kScan1Flat ∧
    integrate kScan1 none .none true = .ok (some 30) ∧
    integrate kScan1Flat none .none true = .ok (some 40) :=
  ⟨flat_kScan1, by decide +kernel, by decide +kernel⟩

/-- `kScan1` as it may be after a subtraction, with a negative intensity. -/
def kScan1Neg : DataObj ℚ := { kScan1 with cols := kScan1.cols.put "detector" [-1, 2, 4] }

/-- `kScan1Neg` with one more count per monitor count. -/
def kScan1NegFlat : DataObj ℚ := { kScan1 with cols := kScan1.cols.put "detector" [0, 3, 5] }

/-- **C226** the condition on the signs is needed: negative intensities are left out of the
background in percent, so a flat background that lifts one of them above zero changes the
integral. -/
theorem C226_negative : FlatAdded kScan1Neg 1 kScan1NegFlat ∧ OwnCounts kScan1Neg ∧
    integrate kScan1NegFlat none (.percent 100) true ≠ integrate kScan1Neg none (.percent 100) true :=
  ⟨⟨[-1, 2, 4], [1, 1, 1], by decide +kernel, by decide +kernel, rfl, by decide +kernel,
    by decide +kernel⟩, ⟨by decide, by decide, by decide⟩, by decide +kernel⟩

end Verif.Data
