import Verif.Data.Fwhm

/-!
# Scaled data sets

What the integral, the peak position and the peak width of a data set become when its
counts are multiplied by a number.
-/

namespace Verif.Data

variable {α : Type} [Field α] [LinearOrder α] [FloorRing α]

/-! ## Specification -/

/-- The background argument that belongs to scaled counts: a given number is scaled
along, an estimate from the data is asked for in the same way. -/
def Bg.times (c : α) : Bg α → Bg α
  | .none => .none
  | .num b => .num (c * b)
  | .constant b => .constant (c * b)
  | .percent v => .percent v
  | .minimum => .minimum
  | .other => .other

/-- The background is not taken from the data. -/
def Bg.Given : Bg α → Prop
  | .percent _ => False
  | .minimum => False
  | _ => True

/-- The column of counts is not also the monitor, the time or a coordinate. -/
structure OwnCounts (d : DataObj α) : Prop where
  monitor : d.dk.detector ≠ d.dk.monitor
  time : d.dk.detector ≠ d.dk.time
  coord : d.dk.detector ∉ d.qk.values

/-! ## Lemmas -/

section lemmas

omit [Field α] [LinearOrder α] [FloorRing α] in
theorem exc_map_bind {ε β γ : Type} (x : Except ε α) (f : α → β) (g : β → Except ε γ) :
    (x.map f >>= g) = (x >>= fun a => g (f a)) := by cases x <;> rfl

omit [Field α] [LinearOrder α] [FloorRing α] in
theorem exc_bind_map {ε β γ : Type} (x : Except ε α) (f : α → Except ε β) (g : β → γ) :
    (x >>= f).map g = (x >>= fun a => (f a).map g) := by cases x <;> rfl

omit [Field α] [LinearOrder α] [FloorRing α] in
theorem mapM_map_getE (c : α → α) (ind : List Nat) (xs : List α) :
    take ind (xs.map c) = (take ind xs).map (List.map c) := by
  unfold take
  induction ind with
  | nil => rfl
  | cons i ind ih =>
    simp only [List.mapM_cons, ih, exc_bind_map, exc_map_bind]
    have : getE (xs.map c) i = (getE xs i).map c := by
      unfold getE
      rw [List.getElem?_map]
      cases xs[i]? <;> rfl
    rw [this, exc_map_bind]
    congr 1

theorem mul_eq {d r : DataObj α} {c : α} (h : mul d c = .ok r) :
    ∃ det, d.cols.lookup d.dk.detector = some det ∧
      r = { d with cols := d.cols.put d.dk.detector (det.map (· * c)) } := by
  unfold mul at h
  obtain ⟨det, e, h⟩ := bind_eq_ok.1 h
  rw [pure_ok] at h
  cases h
  exact ⟨det, get_eq_ok.1 e, rfl⟩

theorem get_mul {d r : DataObj α} {c : α} (h : mul d c = .ok r) {k : String} (hk : k ≠ d.dk.detector) :
    r.cols.get k = d.cols.get k := by
  obtain ⟨det, _, rfl⟩ := mul_eq h
  unfold Table.get
  rw [lookup_put, if_neg hk]

omit [LinearOrder α] [FloorRing α] in
theorem bcast_scaled (c : α) (xs ys : List α) :
    bcast (· / ·) (xs.map (· * c)) ys = (bcast (· / ·) xs ys).map (List.map (· * c)) := by
  have e : ∀ x y : α, x * c / y = x / y * c := fun x y => by ring
  unfold bcast
  rw [List.length_map]
  split
  · rw [List.zipWith_map_left, Except.map, List.map_zipWith]
    simp only [e]
  · rcases xs with _ | ⟨x, _ | ⟨x', xs⟩⟩ <;> rcases ys with _ | ⟨y, _ | ⟨y', ys⟩⟩ <;>
      simp [Except.map, e]

/-- The intensity of the scaled data set. -/
theorem intensity_scaled {d r : DataObj α} {c : α} (h : mul d c = .ok r) (ho : OwnCounts d) :
    (intensity r).map Prod.fst = (intensity d).map fun p => p.1.map (c * ·) := by
  have hm := get_mul h (Ne.symm ho.monitor)
  have ht := get_mul h (Ne.symm ho.time)
  obtain ⟨det, hd, rfl⟩ := mul_eq h
  have hd' := get_eq_ok.2 hd
  have key : ∀ m m0, ((do
        let q ← bcast (· / ·) (det.map (· * c)) m
        return q.map (· * m0) : Except Err (List α)))
      = (do
        let q ← bcast (· / ·) det m
        return (q.map (· * m0)).map (c * ·)) := by
    intro m m0
    rw [bcast_scaled, exc_map_bind]
    congr 1
    funext q
    rw [List.map_map, List.map_map]
    congr 2
    funext x
    simp only [Function.comp]
    ring
  have hr : (d.cols.put d.dk.detector (det.map (· * c))).get d.dk.detector = .ok (det.map (· * c)) := by
    rw [get_eq_ok, lookup_put, if_pos rfl]
  unfold intensity normalise DataObj.detector DataObj.time DataObj.monitor
  simp only at hm ht ⊢
  rw [hm, ht]
  generalize d.cols.get d.dk.time = T
  generalize d.cols.get d.dk.monitor = M
  by_cases htn : d.timeNorm = true
  · simp only [htn, if_true]
    rcases T with e | t
    · rfl
    simp only [ok_bind]
    by_cases h0 : d.t0 = 0
    · simp only [h0, if_true]
      rcases nanmax t with e | t0
      · rfl
      simp only [ok_bind, pure_ok, hr, hd', exc_bind_map]
      exact key t t0
    · simp only [h0, if_false]
      simp only [ok_bind, pure_ok, hr, hd', exc_bind_map]
      exact key t d.t0
  · simp only [htn, if_false, Bool.false_eq_true]
    rcases M with e | t
    · rfl
    simp only [ok_bind]
    by_cases h0 : d.m0 = 0
    · simp only [h0, if_true]
      rcases nanmax t with e | t0
      · rfl
      simp only [ok_bind, pure_ok, hr, hd', exc_bind_map]
      exact key t t0
    · simp only [h0, if_false]
      simp only [ok_bind, pure_ok, hr, hd', exc_bind_map]
      exact key t d.m0

theorem getBounds_scaled {d r : DataObj α} {c : α} (h : mul d c = .ok r) (ho : OwnCounts d)
    (bounds : Option (List Bool)) : getBounds r bounds = getBounds d bounds := by
  have hg : ∀ k ∈ d.qk.values, r.cols.get k = d.cols.get k := fun k hk =>
    get_mul h (by rintro rfl; exact ho.coord hk)
  have hq : r.qk = d.qk := by obtain ⟨det, _, rfl⟩ := mul_eq h; rfl
  cases bounds with
  | some b => rfl
  | none =>
    unfold getBounds
    rw [hq]
    have : d.qk.values.mapM r.cols.get = d.qk.values.mapM d.cols.get := by
      generalize d.qk.values = L at hg
      induction L with
      | nil => rfl
      | cons k L ih =>
        rw [List.mapM_cons, List.mapM_cons, hg k (by simp), ih fun k' hk' => hg k' (by simp [hk'])]
    rw [this]

theorem getKeys_scaled {d r : DataObj α} {c : α} (h : mul d c = .ok r) (hkle : Bool) :
    getKeys r hkle = getKeys d hkle := by
  obtain ⟨det, hd, rfl⟩ := mul_eq h
  unfold getKeys
  have : d.dk.detector ∈ d.cols.map Prod.fst := by
    by_contra hn
    have : d.cols.lookup d.dk.detector = none := by
      rw [List.lookup_eq_none_iff]
      intro p hp
      simp only [beq_eq_false_iff_ne, ne_eq, bne_iff_ne]
      rintro e
      exact hn (List.mem_map.2 ⟨p, hp, e.symm⟩)
    rw [this] at hd
    cases hd
  simp only [keys_put _ this]

theorem ne_detector_of_key {d : DataObj α} (ho : OwnCounts d) {hkle : Bool} {k : String}
    (hk : k ∈ getKeys d hkle) : k ≠ d.dk.detector := by
  rintro rfl
  unfold getKeys at hk
  have h := (List.mem_filter.1 hk).2
  cases hkle
  · simp [DataKeys.values] at h
  · simp only [if_true, decide_eq_true_eq] at h
    exact ho.coord h

theorem selected_scaled {d r : DataObj α} {c : α} (h : mul d c = .ok r) (ho : OwnCounts d)
    (bounds : Option (List Bool)) {k : String} (hk : k ≠ d.dk.detector) :
    selected r bounds k = selected d bounds k := by
  unfold selected
  rw [getBounds_scaled h ho, get_mul h hk]

/-- The counts without background of the scaled data set. -/
theorem net_scaled {d r : DataObj α} {c : α} (h : mul d c = .ok r) (ho : OwnCounts d)
    (bounds : Option (List Bool)) {bg bg' : Bg α}
    (hb : ∀ int : List α, background (int.map (c * ·)) bg' =
      (background int bg).map (Option.map (c * ·))) :
    netIntensity r bounds bg' = (netIntensity d bounds bg).map (Option.map (List.map (c * ·))) := by
  have hi := intensity_scaled h ho
  unfold netIntensity
  rw [getBounds_scaled h ho]
  rcases hI : intensity d with e | ⟨int, d1⟩
  · rw [hI] at hi
    rcases hR : intensity r with e' | ⟨int', r1⟩
    · rw [hR] at hi
      simp only [Except.map, Except.error.injEq] at hi
      rw [hi]; rfl
    · rw [hR] at hi; simp [Except.map] at hi
  · rw [hI] at hi
    rcases hR : intensity r with e' | ⟨int', r1⟩
    · rw [hR] at hi; simp [Except.map] at hi
    · rw [hR] at hi
      simp only [Except.map, Except.ok.injEq] at hi
      subst hi
      simp only [ok_bind]
      rcases getBounds d bounds with e | ind
      · rfl
      simp only [ok_bind, mapM_map_getE, exc_map_bind]
      rcases take ind int with e | y
      · rfl
      simp only [ok_bind, hb, exc_map_bind]
      rcases background int bg with e | b
      · rfl
      simp only [ok_bind, pure_ok, Except.map]
      rcases b with _ | b
      · rfl
      · simp only [Option.map_some, List.map_map]
        congr 3
        funext x
        simp only [Function.comp]
        ring

omit [LinearOrder α] [FloorRing α] in
theorem zipAdd_map (c : α) (a b : List α) :
    List.zipWith (· + ·) (a.map (c * ·)) (b.map (c * ·)) = (List.zipWith (· + ·) a b).map (c * ·) := by
  rw [List.zipWith_map, List.map_zipWith]
  simp only [mul_add]

omit [LinearOrder α] [FloorRing α] in
theorem sum_map_mul' (c : α) (l : List α) : (l.map (c * ·)).sum = c * l.sum := by
  induction l with
  | nil => simp
  | cons x l ih => rw [List.map_cons, List.sum_cons, ih, List.sum_cons, mul_add]

omit [LinearOrder α] [FloorRing α] in
theorem trapz_scaled (c : α) (y x : List α) :
    trapz (y.map (c * ·)) x = (trapz y x).map (c * ·) := by
  unfold trapz
  rw [List.length_map]
  split
  · rw [← List.map_tail, zipAdd_map, List.zipWith_map_right, Except.map, ← sum_map_mul',
      List.map_zipWith]
    congr 3
    funext a b
    ring
  · rfl

omit [LinearOrder α] [FloorRing α] in
theorem sumKeys_scaled (c : α) {keys : List String} {f g : String → Except Err α}
    (h : ∀ k ∈ keys, g k = (f k).map (c * ·)) : sumKeys keys g = (sumKeys keys f).map (c * ·) := by
  unfold sumKeys
  have : ∀ s, keys.foldlM (fun s k => do return s + (← g k)) (c * s) =
      (keys.foldlM (fun s k => do return s + (← f k)) s).map (c * ·) := by
    induction keys with
    | nil => intro s; rfl
    | cons k keys ih =>
      intro s
      rw [List.foldlM_cons, List.foldlM_cons, h k (by simp), exc_bind_map, exc_map_bind]
      rcases f k with e | v
      · rfl
      · simp only [ok_bind, pure_ok]
        rw [← mul_add]
        exact ih (fun k' hk' => h k' (by simp [hk'])) _
  have h0 := this 0
  rwa [mul_zero] at h0

omit [FloorRing α] in
theorem div?_scaled {c : α} (hc : c ≠ 0) (x y : α) : div? (c * x) (c * y) = div? x y := by
  unfold div?
  by_cases hy : y = 0
  · simp [hy]
  · rw [if_neg hy, if_neg (mul_ne_zero hc hy), mul_div_mul_left _ _ hc]

theorem integrate_scaled {d r : DataObj α} {c : α} (h : mul d c = .ok r) (ho : OwnCounts d)
    (bounds : Option (List Bool)) {bg bg' : Bg α}
    (hb : ∀ int : List α, background (int.map (c * ·)) bg' =
      (background int bg).map (Option.map (c * ·))) (hkle : Bool) :
    integrate r bounds bg' hkle = (integrate d bounds bg hkle).map (Option.map (c * ·)) := by
  unfold integrate
  rw [net_scaled h ho bounds hb, getKeys_scaled h, exc_map_bind, exc_bind_map]
  rcases netIntensity d bounds bg with e | (_ | y)
  · rfl
  · rfl
  · simp only [ok_bind, Option.map_some]
    rw [sumKeys_scaled c (f := fun k => do trapz y (← squeeze (← selected d bounds k))),
      exc_map_bind, exc_bind_map]
    · rfl
    · intro k hk
      rw [selected_scaled h ho bounds (ne_detector_of_key ho hk), exc_bind_map]
      congr 1
      funext x
      rw [exc_bind_map]
      congr 1
      funext x
      exact trapz_scaled c y x

omit [Field α] [LinearOrder α] [FloorRing α] in
theorem mapM_congr_mem {β : Type} {L : List String} {f g : String → Except Err β}
    (h : ∀ k ∈ L, f k = g k) : L.mapM f = L.mapM g := by
  induction L with
  | nil => rfl
  | cons k L ih =>
    rw [List.mapM_cons, List.mapM_cons, h k (by simp), ih fun k' hk' => h k' (by simp [hk'])]

theorem position_scaled {d r : DataObj α} {c : α} (h : mul d c = .ok r) (ho : OwnCounts d)
    (bounds : Option (List Bool)) {bg bg' : Bg α} (hc : c ≠ 0)
    (hb : ∀ int : List α, background (int.map (c * ·)) bg' =
      (background int bg).map (Option.map (c * ·))) (hkle : Bool) :
    position r bounds bg' hkle = position d bounds bg hkle := by
  unfold position
  rw [net_scaled h ho bounds hb, getKeys_scaled h, integrate_scaled h ho bounds hb]
  apply mapM_congr_mem
  intro key hkey
  rw [exc_map_bind]
  rcases netIntensity d bounds bg with e | (_ | y)
  · rfl
  · rfl
  · simp only [ok_bind, Option.map_some]
    rw [selected_scaled h ho bounds (ne_detector_of_key ho hkey)]
    congr 1
    funext xk
    have ez : List.zipWith (· * ·) xk (y.map (c * ·)) = (List.zipWith (· * ·) xk y).map (c * ·) := by
      rw [List.zipWith_map_right, List.map_zipWith]
      congr 1
      funext a b
      ring
    rw [ez, sumKeys_scaled c (f := fun k => do
      trapz (List.zipWith (· * ·) xk y) (← selected d bounds k)), exc_map_bind]
    · congr 1
      funext num
      rw [exc_map_bind]
      congr 1
      funext i
      rcases i with _ | i
      · rfl
      · simp only [Option.map_some, Option.bind_some, div?_scaled hc]
    · intro k hk
      rw [selected_scaled h ho bounds (ne_detector_of_key ho hk), exc_bind_map]
      congr 1
      funext x
      exact trapz_scaled c _ x

theorem widths_scaled {d r : DataObj α} {c : α} (h : mul d c = .ok r) (ho : OwnCounts d)
    (bounds : Option (List Bool)) {bg bg' : Bg α} (hc : c ≠ 0)
    (hb : ∀ int : List α, background (int.map (c * ·)) bg' =
      (background int bg).map (Option.map (c * ·))) (hkle : Bool) :
    widths r bounds bg' hkle = widths d bounds bg hkle := by
  unfold widths
  rw [net_scaled h ho bounds hb, getKeys_scaled h, integrate_scaled h ho bounds hb,
    position_scaled h ho bounds hc hb]
  apply mapM_congr_mem
  intro key hkey
  rw [exc_map_bind]
  rcases netIntensity d bounds bg with e | (_ | y)
  · rfl
  · rfl
  · simp only [ok_bind, Option.map_some]
    rw [selected_scaled h ho bounds (ne_detector_of_key ho hkey)]
    congr 1
    funext xk
    congr 1
    funext ps
    rcases ps.lookup key with _ | (_ | p)
    · rfl
    · rfl
    · simp only
      have ez : List.zipWith (fun x y => (x - p) ^ 2 * y) xk (y.map (c * ·)) =
          (List.zipWith (fun x y => (x - p) ^ 2 * y) xk y).map (c * ·) := by
        rw [List.zipWith_map_right, List.map_zipWith]
        congr 1
        funext a b
        ring
      rw [ez, sumKeys_scaled c (f := fun k => do
        trapz (List.zipWith (fun x y => (x - p) ^ 2 * y) xk y) (← selected d bounds k)), exc_map_bind]
      · congr 1
        funext num
        rw [exc_map_bind]
        congr 1
        funext i
        rcases i with _ | i
        · rfl
        · simp only [Option.map_some, Option.bind_some, div?_scaled hc]
      · intro k hk
        rw [selected_scaled h ho bounds (ne_detector_of_key ho hk), exc_bind_map]
        congr 1
        funext x
        exact trapz_scaled c _ x

theorem bg_given (c : α) {bg : Bg α} (hg : bg.Given) (int : List α) :
    background (int.map (c * ·)) (bg.times c) = (background int bg).map (Option.map (c * ·)) := by
  cases bg with
  | none => simp [background, Bg.times, Except.map]
  | num b => rfl
  | constant b => rfl
  | percent v => exact absurd hg id
  | minimum => exact absurd hg id
  | other => simp [background, Bg.times, Except.map]

theorem bg_positive [IsStrictOrderedRing α] {c : α} (hc : 0 < c) (bg : Bg α) (int : List α) :
    background (int.map (c * ·)) (bg.times c) = (background int bg).map (Option.map (c * ·)) := by
  cases bg with
  | none => exact bg_given (bg := .none) c trivial int
  | num b => rfl
  | constant b => rfl
  | other => exact bg_given (bg := .other) c trivial int
  | minimum =>
    rcases int with _ | ⟨x, xs⟩
    · rfl
    · simp only [Bg.times, List.map_cons, background, Except.map, Option.map_some]
      congr 2
      induction xs generalizing x with
      | nil => rfl
      | cons z xs ih =>
        rw [List.map_cons, List.foldl_cons, List.foldl_cons, ← mul_min_of_nonneg _ _ hc.le]
        exact ih _
  | percent v =>
    simp only [Bg.times, background, Except.map]
    have hf : (int.map (c * ·)).filter (fun x => decide (0 ≤ x)) =
        (int.filter fun x => decide (0 ≤ x)).map (c * ·) := by
      rw [List.filter_map]
      congr 1
      apply List.filter_congr
      intro x _
      simp only [Function.comp, decide_eq_decide]
      exact mul_nonneg_iff_of_pos_left hc
    rw [hf, List.length_map, ← isort_map (le := fun x y => decide (x ≤ y))]
    · generalize isort (fun x y => decide (x ≤ y)) (int.filter fun x => decide (0 ≤ x)) = s
      generalize trunc (α := α) _ = n
      have hs : sliceTo (s.map (c * ·)) n = (sliceTo s n).map (c * ·) := by
        unfold sliceTo
        rw [List.length_map]
        split <;> rw [List.map_take]
      rw [hs]
      unfold average?
      by_cases hn : sliceTo s n = []
      · rw [hn]; rfl
      · rw [if_neg hn, if_neg (by rwa [List.map_eq_nil_iff]), sum_map_mul', List.length_map,
          Option.map_some, mul_div_assoc]
    · intro a b
      simp only [decide_eq_decide]
      exact mul_le_mul_iff_right₀ hc

end lemmas

/-! ## C204 -/

/-- **C204** when the counts of a data set are multiplied by a positive number, `integrate` is
multiplied by it, and `position` and `width` stay as they are, errors and nan included; for all
bounds, all kinds of background and both values of `hkle`.  A background given as a number is
scaled along. -/
theorem C204_scaled [IsStrictOrderedRing α] {d r : DataObj α} {c : α} (hc : 0 < c)
    (h : mul d c = .ok r) (ho : OwnCounts d) (bounds : Option (List Bool)) (bg : Bg α) (hkle : Bool) :
    integrate r bounds (bg.times c) hkle = (integrate d bounds bg hkle).map (Option.map (c * ·)) ∧
    position r bounds (bg.times c) hkle = position d bounds bg hkle ∧
    widths r bounds (bg.times c) hkle = widths d bounds bg hkle :=
  ⟨integrate_scaled h ho bounds (bg_positive hc bg) hkle,
    position_scaled h ho bounds hc.ne' (bg_positive hc bg) hkle,
    widths_scaled h ho bounds hc.ne' (bg_positive hc bg) hkle⟩

/-- **C204** the same for division by a positive number. -/
theorem C204_divided [IsStrictOrderedRing α] {d r : DataObj α} {c : α} (hc : 0 < c)
    (h : div d c = .ok r) (ho : OwnCounts d) (bounds : Option (List Bool)) (bg : Bg α) (hkle : Bool) :
    integrate r bounds (bg.times c⁻¹) hkle = (integrate d bounds bg hkle).map (Option.map (c⁻¹ * ·)) ∧
    position r bounds (bg.times c⁻¹) hkle = position d bounds bg hkle ∧
    widths r bounds (bg.times c⁻¹) hkle = widths d bounds bg hkle :=
  C204_scaled (inv_pos.2 hc) (by rw [← div_eq_mul]; exact h) ho bounds bg hkle

/-- **C204** the full widths at half maximum stay as they are too. -/
theorem C204_fwhm {d r : DataObj ℝ} {c : ℝ} (hc : 0 < c) (h : mul d c = .ok r) (ho : OwnCounts d)
    (bounds : Option (List Bool)) (bg : Bg ℝ) (hkle : Bool) :
    widthsFwhm r bounds (bg.times c) hkle = widthsFwhm d bounds bg hkle := by
  unfold widthsFwhm
  rw [(C204_scaled hc h ho bounds bg hkle).2.2]

/-- **C204** with no background, or one given as a number, any factor but zero will do. -/
theorem C204_given {d r : DataObj α} {c : α} (hc : c ≠ 0) (h : mul d c = .ok r) (ho : OwnCounts d)
    (bounds : Option (List Bool)) {bg : Bg α} (hg : bg.Given) (hkle : Bool) :
    integrate r bounds (bg.times c) hkle = (integrate d bounds bg hkle).map (Option.map (c * ·)) ∧
    position r bounds (bg.times c) hkle = position d bounds bg hkle ∧
    widths r bounds (bg.times c) hkle = widths d bounds bg hkle :=
  ⟨integrate_scaled h ho bounds (bg_given c hg) hkle,
    position_scaled h ho bounds hc (bg_given c hg) hkle,
    widths_scaled h ho bounds hc (bg_given c hg) hkle⟩

theorem ownCounts_kScan1 : OwnCounts kScan1 where
  monitor := by decide
  time := by decide
  coord := by decide

/-- The hypotheses are met by a scan whose integral, position and width are numbers. -/
example : ∃ r, mul kScan1 3 = .ok r ∧ OwnCounts kScan1 ∧
    integrate r none (Bg.minimum.times 3) true = .ok (some 30) ∧
    integrate kScan1 none .minimum true = .ok (some 10) :=
  ⟨_, rfl, ownCounts_kScan1, by decide +kernel, by decide +kernel⟩

/-- The condition on the factor is needed: with counts multiplied by -1 the background taken as
the smallest value is that of the largest counts, and the integral keeps its sign. -/
theorem C204_negative_factor : ∃ r, mul kScan1 (-1) = .ok r ∧
    integrate kScan1 none .minimum true = .ok (some 10) ∧
    integrate r none (Bg.minimum.times (-1)) true = .ok (some 10) :=
  ⟨_, rfl, by decide +kernel, by decide +kernel⟩

/-- The background given as a number must be scaled along: left as it is, the position changes. -/
theorem C204_fixed_background : ∃ r, mul kScan1 2 = .ok r ∧
    position kScan1 (some [true, true, false]) (.num 5) true ≠
      position r (some [true, true, false]) (.num 5) true :=
  ⟨_, rfl, by decide +kernel⟩

end Verif.Data
