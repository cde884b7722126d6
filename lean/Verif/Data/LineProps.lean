import Verif.Data.Line
import Verif.Data.ArithLemmas
import Verif.Data.ContourProps
import Mathlib.Data.List.GetD

/-! # Property C167: plots of one column against another -/

namespace Verif.Data.Line

open Verif.Convolution (linspace)
open Verif.Data.Contour (linspace_length)

/-! ## Specification -/

/-- The figure shows the points `(X i, Y i)` with error bars `E i`, for `i < n`, and no others. -/
structure Shows (f : Figure) (n : ℕ) (X Y E : ℕ → ℝ) : Prop where
  count : f.points.length = n
  point : ∀ i < n, f.points[i]? = some (X i, Y i)
  bar : ∃ b, f.bars = some b ∧ b.length = n ∧ ∀ i < n, b[i]? = some (some (E i))

/-- The curve through 10 `n` points, equally spaced between the smallest and the largest abscissa, of a function. -/
def IsGraph (c : List (ℝ × ℝ)) (n : ℕ) (lo hi : ℝ) (g : ℝ → ℝ) : Prop :=
  c.length = 10 * n ∧ ∀ p ∈ c, p.2 = g p.1 ∧ lo ≤ p.1 ∧ p.1 ≤ hi

/-! ## Lemmas -/

theorem lift_ok {α : Type} (a : α) : lift (.ok a) = .ok a := rfl

theorem columns_intensity (lib : Library) {d : DataObj ℝ} {n : ℕ} {det mon time xs : List ℝ} (h : Counted d n det mon time) {x : String}
    (hx : d.cols.lookup x = some xs) : columns lib d x "intensity" [] =
      .ok (xs, List.zipWith (fun a m => a / m * normVal d mon time) det (normCol d mon time),
        (List.zipWith (fun a m => a / m * normVal d mon time) (errCol Real.sqrt d det) (normCol d mon time)).map some) := by
  obtain ⟨d', h1, h2, h3, h4, h5, h6, h7⟩ := h.intensity
  obtain ⟨d'', g1, -⟩ := (h.congr h2 h3 h4).error Real.sqrt
  unfold columns
  have e1 : d.cols.get x = .ok xs := get_eq_ok.2 hx
  have e2 : errCol Real.sqrt d' det = errCol Real.sqrt d det := by unfold errCol; rw [h4]
  have e3 : normCol d' mon time = normCol d mon time := by unfold normCol; rw [h5]
  rw [e2, e3, h7] at g1
  simp only [List.isEmpty_nil, if_true, pure, Except.pure, bind, Except.bind, e1, h1, g1]

theorem columns_column (lib : Library) {d : DataObj ℝ} {x y : String} {xs ys : List ℝ} (hx : d.cols.lookup x = some xs) (hy : d.cols.lookup y = some ys)
    (h : y ≠ "intensity") : columns lib d x y [] = .ok (xs, ys, ys.map root) := by
  unfold columns
  have e1 : d.cols.get x = .ok xs := get_eq_ok.2 hx
  have e2 : d.cols.get y = .ok ys := get_eq_ok.2 hy
  simp only [List.isEmpty_nil, if_true, pure, Except.pure, bind, Except.bind, e1, e2, if_neg h]

/-- A line plot whose columns are known, without smoothing. -/
theorem plotLine_of (lib : Library) {d : DataObj ℝ} {x y : String} {o : Options} {xs ys : List ℝ} {es : List (Option ℝ)}
    (h : columns lib d x y o.toBin = .ok (xs, ys, es)) (hl : xs.length = ys.length) {s : ℝ} (hs : o.smooth = some (some s)) (h0 : s ≤ 0)
    {p : List (String × String)} (hp : o.plotOptions = some p) :
    plotLine lib d x y o =
      (match o.fit with
        | none => .ok none
        | some f => (fitCurve lib f (if p = [] then [("fmt", "rs")] else p) xs ys es).map some : Except PlotErr _) >>= fun c =>
      .ok (⟨xs.zip ys, if o.showErr then some es else none, x, y, c⟩, if p = [] then [("fmt", "rs")] else p) := by
  unfold plotLine
  rw [h, hs, hp, lift_ok]
  have e : (if 0 < s then lib.filter s ys else ys) = ys := if_neg (not_lt.2 h0)
  cases p with
  | nil =>
    simp only [bind, Except.bind, e, if_true]
    rw [if_neg (not_not.2 hl)]
    cases o.fit <;> rfl
  | cons a p =>
    simp only [bind, Except.bind, e, reduceCtorEq, if_false]
    rw [if_neg (not_not.2 hl)]
    cases o.fit <;> rfl

theorem shows_of {xs ys : List ℝ} {es : List ℝ} {n : ℕ} (h1 : xs.length = n) (h2 : ys.length = n) (h3 : es.length = n) (x y : String)
    (c : Option (Option Char × List (ℝ × ℝ))) :
    Shows ⟨xs.zip ys, some (es.map some), x, y, c⟩ n (fun i => xs.getD i 0) (fun i => ys.getD i 0) (fun i => es.getD i 0) := by
  refine ⟨by simp [h1, h2], fun i hi => ?_, _, rfl, by simp [h3], fun i hi => ?_⟩
  · rw [List.getElem?_eq_getElem (by simp [h1, h2, hi]), List.getElem_zip, List.getD_eq_getElem _ _ (by omega), List.getD_eq_getElem _ _ (by omega)]
  · rw [List.getElem?_eq_getElem (by simp [h3, hi]), List.getElem_map, List.getD_eq_getElem _ _ (by omega)]

/-! ## Theorems -/

/-- C167 (partial).  `plot(x)` and `plot(x, 'intensity')`, with the default `y` of that name, show every point with its counts
divided by the normaliser and scaled to the monitor of the object, and the error bar the square root of the counts, or the stored
error, on the same scale.  Missing: calls of `plot_line` itself (`C167_direct_false`). -/
theorem C167_intensity_partial (lib : Library) {d : DataObj ℝ} {n : ℕ} {det mon time xs : List ℝ} (h : Counted d n det mon time)
    {x : String} (hx : d.cols.lookup x = some xs) (hl : xs.length = n) (dx dy : Option String) {y : Option String}
    (hy : y = some "intensity" ∨ y = none ∧ dy = some "intensity") :
    ∃ f, plot lib d dx dy (some x) y none none {} = .ok (.line f) ∧ f.xlabel = x ∧ f.ylabel = "intensity" ∧
      Shows f n (fun i => xs.getD i 0) (fun i => det.getD i 0 / (if d.timeNorm then time else mon).getD i 0 * normVal d mon time)
        (fun i => (match d.err with
          | some e => e.getD i 0
          | none => √(det.getD i 0)) / (if d.timeNorm then time else mon).getD i 0 * normVal d mon time) := by
  have hn := normCol_length h
  have he := errCol_length (sqrt := Real.sqrt) h
  have key := plotLine_of lib (o := { plotOptions := some [], smooth := some (some 0) }) (columns_intensity lib h hx)
    (by simp [hl, h.ldet, hn]) rfl le_rfl rfl
  have hp : plot lib d dx dy (some x) y none none {} = .ok (.line ⟨xs.zip (List.zipWith (fun a m => a / m * normVal d mon time) det (normCol d mon time)),
      some ((List.zipWith (fun a m => a / m * normVal d mon time) (errCol Real.sqrt d det) (normCol d mon time)).map some), x, "intensity", none⟩) := by
    have e : plotLine lib d x "intensity" { plotOptions := some [], smooth := some (some 0) } = _ := key
    rcases hy with rfl | ⟨rfl, rfl⟩
    · change (plotLine lib d x "intensity" { plotOptions := some [], smooth := some (some 0) } >>= _) = _
      rw [e]
      rfl
    · change (plotLine lib d x "intensity" { plotOptions := some [], smooth := some (some 0) } >>= _) = _
      rw [e]
      rfl
  refine ⟨_, hp, rfl, rfl, ?_⟩
  have hs := shows_of hl (ys := List.zipWith (fun a m => a / m * normVal d mon time) det (normCol d mon time))
    (es := List.zipWith (fun a m => a / m * normVal d mon time) (errCol Real.sqrt d det) (normCol d mon time)) (by simp [h.ldet, hn])
    (by simp [he, hn]) x "intensity" none
  have zw (l : List ℝ) (hl : l.length = n) (i : ℕ) (hi : i < n) :
      (List.zipWith (fun a m => a / m * normVal d mon time) l (normCol d mon time)).getD i 0 =
        l.getD i 0 / (if d.timeNorm then time else mon).getD i 0 * normVal d mon time := by
    rw [List.getD_eq_getElem _ _ (by simp [hl, hn, hi]), List.getElem_zipWith, List.getD_eq_getElem _ _ (by omega)]
    congr 2
    have : normCol d mon time = if d.timeNorm then time else mon := rfl
    rw [← this, List.getD_eq_getElem _ _ (by omega)]
  refine ⟨hs.count, fun i hi => ?_, ?_⟩
  · rw [hs.point i hi, zw det h.ldet i hi]
  · obtain ⟨b, b1, b2, b3⟩ := hs.bar
    refine ⟨b, b1, b2, fun i hi => ?_⟩
    rw [b3 i hi, zw _ he i hi]
    congr 4
    unfold errCol
    cases d.err with
    | some e => rfl
    | none =>
      dsimp only
      rw [List.getD_eq_getElem _ _ (by rw [List.length_map, h.ldet]; exact hi), List.getElem_map, List.getD_eq_getElem _ _ (by rw [h.ldet]; exact hi)]

/-- C167 (partial).  `plot(x, y)` for a column of counts shows every point with the square root of the counts as the error bar. Missing:
columns that are not counts, and data with stored errors (`C167_bars_false`, `C167_stored_false`). -/
theorem C167_counts_partial (lib : Library) {d : DataObj ℝ} {x y : String} {n : ℕ} {xs ys : List ℝ} (hx : d.cols.lookup x = some xs)
    (hy : d.cols.lookup y = some ys) (h1 : xs.length = n) (h2 : ys.length = n) (hi : y ≠ "intensity") (h0 : ∀ c ∈ ys, 0 ≤ c)
    (dx dy : Option String) : ∃ f, plot lib d dx dy (some x) (some y) none none {} = .ok (.line f) ∧ f.xlabel = x ∧ f.ylabel = y ∧
      Shows f n (fun i => xs.getD i 0) (fun i => ys.getD i 0) (fun i => √(ys.getD i 0)) := by
  have key := plotLine_of lib (o := { plotOptions := some [], smooth := some (some 0) }) (columns_column lib hx hy hi)
    (by rw [h1, h2]) rfl le_rfl rfl
  have hr : ys.map root = (ys.map Real.sqrt).map some := by
    rw [List.map_map]
    apply List.map_congr_left
    intro c hc
    simp [root, h0 c hc]
  have hs := shows_of h1 h2 (es := ys.map Real.sqrt) (by simp [h2]) x y none
  refine ⟨⟨xs.zip ys, some (ys.map root), x, y, none⟩, ?_, rfl, rfl, ?_⟩
  · change (plotLine lib d x y { plotOptions := some [], smooth := some (some 0) } >>= _) = _
    rw [key]
    rfl
  · rw [hr]
    refine ⟨hs.count, hs.point, ?_⟩
    obtain ⟨b, b1, b2, b3⟩ := hs.bar
    refine ⟨b, b1, b2, fun i hi => ?_⟩
    rw [b3 i hi, List.getD_eq_getElem _ _ (by simp [h2, hi]), List.getElem_map, List.getD_eq_getElem _ _ (by omega)]

/-- C167.  A plot with bins is the plot of the binned data. -/
theorem C167_bins (lib : Library) {d b : DataObj ℝ} {toBin : List (String × BinAxis ℝ)} (h0 : toBin ≠ [])
    (hb : bin Real.sqrt lib.nprocs d toBin true = .ok b) (dx dy x y z w : Option String) (o : Options) :
    plot lib d dx dy x y z w { o with toBin := toBin } = plot lib b dx dy x y z w { o with toBin := [] } := by
  have hc (x y : String) : columns lib d x y toBin = columns lib b x y [] := by
    unfold columns
    have e : toBin.isEmpty = false := by cases toBin <;> simp_all
    rw [e, hb]
    rfl
  have hl (x y : String) (p : Option (List (String × String))) (s : Option (Option ℝ)) : plotLine lib d x y { o with toBin := toBin, plotOptions := p, smooth := s } =
      plotLine lib b x y { o with toBin := [], plotOptions := p, smooth := s } := by
    unfold plotLine
    dsimp only
    rw [hc]
  unfold plot
  dsimp only
  simp only [hl]

/-- C167.  The kind of plot goes by the columns that are given; without columns the defaults are taken, and an object without
defaults is refused. -/
theorem C167_kind (lib : Library) (d : DataObj ℝ) (dx dy : Option String) (o : Options) (x y z w : String) :
    plot lib d dx dy (some x) (some y) (some z) (some w) o = .ok (.volume x y (some z) w) ∧
    plot lib d dx dy (some x) (some y) (some z) none o = .ok (.contour x y z) ∧
    (∀ f, plot lib d dx dy (some x) (some y) none none o = .ok f → ∃ l, f = .line l) ∧
    plot lib d (some x) (some y) none none none none o = plot lib d dx dy (some x) (some y) none none o ∧
    plot lib d none dy none (some y) none none o = .error (.data .attributeError) ∧
    plot lib d dx none (some x) none none none o = .error (.data .attributeError) := by
  refine ⟨rfl, rfl, fun f hf => ?_, rfl, rfl, rfl⟩
  change (plotLine lib d x y _ >>= _) = _ at hf
  cases h : plotLine lib d x y { o with plotOptions := some (o.plotOptions.getD []), smooth := some (o.smooth.getD (some 0)) } with
  | error e => rw [h] at hf; exact nomatch hf
  | ok p => rw [h] at hf; cases hf; exact ⟨_, rfl⟩

/-- C167 (partial).  A fit is drawn as the graph of the function with the fitted parameters, over the range of the points, in the
colour of the points.  Missing: options that do not name a format (`C167_fit_false`). -/
theorem C167_fit_partial (lib : Library) {d : DataObj ℝ} {x y : String} {o : Options} {xs ys : List ℝ} {es : List (Option ℝ)}
    (h : columns lib d x y o.toBin = .ok (xs, ys, es)) (hl : xs.length = ys.length) (h0 : xs ≠ []) (hs : o.smooth = none)
    {fmt : String} (hp : o.plotOptions = none ∧ fmt = "rs" ∨ ∃ q, o.plotOptions = some q ∧ q.lookup "fmt" = some fmt) {f : FitOptions}
    (hf : o.fit = some f) {P : List ℝ} (hP : lib.fitter f xs ys es = some P) (dx dy : Option String) :
    ∃ l lo hi c, plot lib d dx dy (some x) (some y) none none o = .ok (.line l) ∧ l.points = xs.zip ys ∧ (lo ∈ xs ∧ ∀ t ∈ xs, lo ≤ t) ∧
      (hi ∈ xs ∧ ∀ t ∈ xs, t ≤ hi) ∧ l.curve = some (fmt.toList.head?, c) ∧ IsGraph c xs.length lo hi (f.function P) := by
  obtain ⟨lo, hlo⟩ : ∃ lo, xs.min? = some lo := by cases e : xs.min? <;> simp_all
  obtain ⟨hi, hhi⟩ : ∃ hi, xs.max? = some hi := by cases e : xs.max? <;> simp_all
  obtain ⟨q, q1, q2⟩ : ∃ q, some (o.plotOptions.getD []) = some q ∧ (if q = [] then [("fmt", "rs")] else q).lookup "fmt" = some fmt := by
    rcases hp with ⟨h1, rfl⟩ | ⟨q, h1, h2⟩
    · exact ⟨[], by rw [h1]; rfl, by decide⟩
    · refine ⟨q, by rw [h1]; rfl, ?_⟩
      have : q ≠ [] := by rintro rfl; simp at h2
      rw [if_neg this, h2]
  have key := plotLine_of lib (o := { o with plotOptions := some (o.plotOptions.getD []), smooth := some (some 0) }) h hl rfl le_rfl q1
  have m1 := List.min?_eq_some_iff.1 hlo
  have m2 := List.max?_eq_some_iff.1 hhi
  refine ⟨⟨xs.zip ys, if o.showErr then some es else none, x, y, some (fmt.toList.head?, (linspace lo hi (xs.length * 10)).map fun t => (t, f.function P t))⟩,
    lo, hi, _, ?_, rfl, m1, m2, rfl, ?_, fun p hp => ?_⟩
  · unfold plot
    rw [hs]
    change (plotLine lib d x y { o with plotOptions := some (o.plotOptions.getD []), smooth := some (some 0) } >>= _) = _
    rw [key]
    dsimp only
    rw [hf]
    dsimp only
    unfold fitCurve
    rw [hP, hlo, hhi, q2]
    rfl
  · simp [linspace_length, mul_comm]
  · obtain ⟨t, ht, rfl⟩ := List.mem_map.1 hp
    refine ⟨rfl, ?_⟩
    unfold linspace at ht
    obtain ⟨k, hk, rfl⟩ := List.mem_map.1 ht
    rw [List.mem_range] at hk
    have hle : lo ≤ hi := m2.2 lo m1.1
    split
    · exact ⟨le_rfl, hle⟩
    · rename_i hn
      have hN : (1 : ℝ) < ((xs.length * 10 : ℕ) : ℝ) := by
        rw [not_le] at hn
        exact_mod_cast hn
      have hk' : (k : ℝ) ≤ ((xs.length * 10 : ℕ) : ℝ) - 1 := by
        have : k + 1 ≤ xs.length * 10 := hk
        have : ((k + 1 : ℕ) : ℝ) ≤ ((xs.length * 10 : ℕ) : ℝ) := by exact_mod_cast this
        push_cast at this ⊢
        linarith
      have hq : (k : ℝ) / (((xs.length * 10 : ℕ) : ℝ) - 1) ≤ 1 := (div_le_one (by linarith)).2 hk'
      have hq0 : 0 ≤ (k : ℝ) / (((xs.length * 10 : ℕ) : ℝ) - 1) := div_nonneg (by positivity) (by linarith)
      have e : (k : ℝ) * ((hi - lo) / (((xs.length * 10 : ℕ) : ℝ) - 1)) = (k : ℝ) / (((xs.length * 10 : ℕ) : ℝ) - 1) * (hi - lo) := by ring
      dsimp only
      rw [e]
      constructor <;> nlinarith

/-- C167 fails.  `plot_line(x, y)` with its own defaults always raises an exception, whatever the data. -/
theorem C167_direct_false (lib : Library) (d : DataObj ℝ) (x y : String) : ∃ e, plotLine lib d x y {} = .error e := by
  unfold plotLine
  cases columns lib d x y [] with
  | error e => exact ⟨_, rfl⟩
  | ok p => exact ⟨_, rfl⟩

/-- C167 fails.  With a fit and options for the plot that do not name a format, there is an exception that blames the fit,
although the fit succeeds and the same plot without the fit is made. -/
theorem C167_fit_false (lib : Library) {d : DataObj ℝ} {x y : String} {o : Options} {xs ys : List ℝ} {es : List (Option ℝ)}
    (h : columns lib d x y o.toBin = .ok (xs, ys, es)) (hl : xs.length = ys.length) (hs : o.smooth = none) {q : List (String × String)}
    (hq : o.plotOptions = some q) (q0 : q ≠ []) (q1 : q.lookup "fmt" = none) {f : FitOptions} (hf : o.fit = some f) (dx dy : Option String) :
    plot lib d dx dy (some x) (some y) none none o = .error .fitFailed ∧
    ∃ l, plot lib d dx dy (some x) (some y) none none { o with fit := none } = .ok (.line l) := by
  have e1 : some (o.plotOptions.getD []) = some q := by rw [hq]; rfl
  have k1 := plotLine_of lib (o := { o with plotOptions := some (o.plotOptions.getD []), smooth := some (some 0) }) h hl rfl le_rfl e1
  have k2 := plotLine_of lib (o := { o with fit := none, plotOptions := some (o.plotOptions.getD []), smooth := some (some 0) }) h hl rfl le_rfl e1
  constructor
  · unfold plot
    rw [hs]
    change (plotLine lib d x y { o with plotOptions := some (o.plotOptions.getD []), smooth := some (some 0) } >>= _) = _
    rw [k1]
    dsimp only
    rw [hf]
    dsimp only
    unfold fitCurve
    rw [if_neg q0, q1]
    cases lib.fitter f xs ys es <;> cases xs.min? <;> cases xs.max? <;> rfl
  · refine ⟨⟨xs.zip ys, if o.showErr then some es else none, x, y, none⟩, ?_⟩
    unfold plot
    dsimp only
    rw [hs]
    change (plotLine lib d x y { o with fit := none, plotOptions := some (o.plotOptions.getD []), smooth := some (some 0) } >>= _) = _
    rw [k2]
    rfl

/-- C167 fails.  A column that is not of counts is drawn with the roots of its values as error bars: a temperature of 100 K has
an error bar of 10 K. -/
theorem C167_bars_false (lib : Library) : ∃ (d : DataObj ℝ) (f : Figure),
    plot lib d none none (some "e") (some "temp") none none {} = .ok (.line f) ∧ Shows f 1 (fun _ => 5) (fun _ => 100) (fun _ => 10) := by
  obtain ⟨f, h1, -, -, h2⟩ := C167_counts_partial lib (d := { emptyData with cols := [("e", [5]), ("temp", [100])] }) (x := "e") (y := "temp") (n := 1)
    (xs := [5]) (ys := [100]) rfl rfl rfl rfl (by decide) (by simp) none none
  refine ⟨_, f, h1, h2.count, fun i hi => ?_, ?_⟩
  · obtain rfl : i = 0 := by omega
    exact h2.point 0 hi
  · obtain ⟨b, b1, b2, b3⟩ := h2.bar
    refine ⟨b, b1, b2, fun i hi => ?_⟩
    obtain rfl : i = 0 := by omega
    rw [b3 0 hi]
    have : √(100 : ℝ) = 10 := by
      rw [show (100 : ℝ) = 10 ^ 2 by norm_num]
      exact Real.sqrt_sq (by norm_num)
    simpa using this

/-- C167 fails.  For data that carry their errors, as after the subtraction of a background, the error bars of the counts are not these
but the roots of the differences, and missing where the difference is negative. -/
theorem C167_stored_false (lib : Library) {d : DataObj ℝ} {x : String} {xs ys e : List ℝ} (hx : d.cols.lookup x = some xs)
    (hy : d.cols.lookup d.dk.detector = some ys) (hl : xs.length = ys.length) (hi : d.dk.detector ≠ "intensity") (he : d.err = some e)
    {i : ℕ} (hi1 : i < ys.length) (hne : e.getD i 0 ^ 2 ≠ ys.getD i 0) :
    ∃ f b, plot lib d none none (some x) (some d.dk.detector) none none {} = .ok (.line f) ∧ f.bars = some b ∧ b[i]? ≠ some (some (e.getD i 0)) := by
  have key := plotLine_of lib (o := { plotOptions := some [], smooth := some (some 0) }) (columns_column lib hx hy hi) hl rfl le_rfl rfl
  refine ⟨⟨xs.zip ys, some (ys.map root), x, d.dk.detector, none⟩, ys.map root, ?_, rfl, ?_⟩
  · change (plotLine lib d x d.dk.detector { plotOptions := some [], smooth := some (some 0) } >>= _) = _
    rw [key]
    rfl
  · rw [List.getElem?_eq_getElem (by simpa using hi1), List.getElem_map]
    intro h
    rw [List.getD_eq_getElem _ _ hi1] at hne
    unfold root at h
    split at h
    · rename_i h0
      have := Option.some.inj (Option.some.inj h)
      rw [← this, Real.sq_sqrt h0] at hne
      exact hne rfl
    · exact nomatch (Option.some.inj h)

/-! ## Concrete cases -/

/-- Counts 9 and 16 at energies 1 and 2. -/
noncomputable def exLine : DataObj ℝ :=
  { emptyData with cols := [("e", [1, 2]), ("detector", [9, 16]), ("monitor", [2, 4]), ("time", [1, 1])], m0 := 4 }

theorem exLine_counted : Counted exLine 2 [9, 16] [2, 4] [1, 1] where
  pos := by decide
  names := by decide
  hdet := rfl
  hmon := rfl
  htime := rfl
  ldet := rfl
  lmon := rfl
  ltime := rfl
  lerr := by intro e h; cases h

/-- The first is drawn at 18 with an error of 6. -/
example (lib : Library) : ∃ f b, plot lib exLine none none (some "e") (some "intensity") none none {} = .ok (.line f) ∧ f.points[0]? = some (1, 18) ∧
    f.bars = some b ∧ b[0]? = some (some 6) := by
  obtain ⟨f, h1, -, -, h2⟩ := C167_intensity_partial lib exLine_counted (x := "e") (xs := [1, 2]) rfl rfl none none (Or.inl rfl)
  obtain ⟨b, b1, -, b2⟩ := h2.bar
  have e0 : normVal exLine [2, 4] [1, 1] = 4 := by
    unfold normVal
    norm_num [exLine, emptyData]
  refine ⟨f, b, h1, ?_, b1, ?_⟩
  · rw [h2.point 0 (by decide), e0]
    norm_num [exLine, emptyData]
  · rw [b2 0 (by decide), e0]
    have : √(9 : ℝ) = 3 := by
      rw [show (9 : ℝ) = 3 ^ 2 by norm_num]
      exact Real.sqrt_sq (by norm_num)
    norm_num [exLine, emptyData, this]

/-- A fit of a constant. -/
example (lib : Library) (hf : ∀ f xs ys es, lib.fitter f xs ys es = some [12]) : ∃ l c, plot lib exLine none none (some "e") (some "detector") none none
    { fit := some ⟨fun p _ => p.headD 0, [0]⟩ } = .ok (.line l) ∧ l.curve = some (some 'r', c) ∧ c.length = 20 ∧ ∀ p ∈ c, p.2 = 12 := by
  obtain ⟨l, lo, hi, c, h1, -, -, -, h2, h3, h4⟩ := C167_fit_partial lib (d := exLine) (x := "e") (y := "detector")
    (o := { fit := some ⟨fun p _ => p.headD 0, [0]⟩ }) (columns_column lib (d := exLine) (xs := [1, 2]) (ys := [9, 16]) rfl rfl (by decide)) rfl (by decide) rfl
    (fmt := "rs") (Or.inl ⟨rfl, rfl⟩) rfl (hf _ _ _ _) none none
  exact ⟨l, c, h1, h2, h3, fun p hp => (h4 p hp).1⟩

end Verif.Data.Line
