import Verif.Data.Volume
import Verif.Data.LineProps

/-! # Property C176: plots of four columns -/

namespace Verif.Data.Volume

open Verif.Data.Line (PlotErr lift Library)

/-! ## Specification -/

/-- The marks are at the points `(X i, Y i, Z i)` with positive `W i`, one for each such `i < n` in their order, and nowhere else. -/
def Places (ms : List Mark) (n : ℕ) (X Y Z W : ℕ → ℝ) : Prop :=
  ms.map (fun m => (m.x, m.y, m.z)) = ((List.range n).filter fun i => 0 < W i).map fun i => (X i, Y i, Z i)

/-- The colours of the marks tell larger from smaller values. -/
def Tells (ms : List Mark) (n : ℕ) (W : ℕ → ℝ) : Prop :=
  ∃ c : ℝ → ℝ, ms.map Mark.colour = ((List.range n).filter fun i => 0 < W i).map (fun i => c (W i)) ∧
    ∀ i < n, ∀ j < n, 0 < W i → W i < W j → c (W i) < c (W j)

/-! ## Lemmas -/

lemma marks_eq {xs ys zs ws : List ℝ} {n : ℕ} (h1 : xs.length = n) (h2 : ys.length = n) (h3 : zs.length = n) (h4 : ws.length = n) :
    marks xs ys zs ws = ((List.range n).filter fun i => 0 < ws.getD i 0).map
      fun i => ⟨xs.getD i 0, ys.getD i 0, zs.getD i 0, colour (ws.getD i 0)⟩ := by
  have z : xs.zip (ys.zip (zs.zip ws)) = (List.range n).map fun i => (xs.getD i 0, ys.getD i 0, zs.getD i 0, ws.getD i 0) := by
    apply List.ext_getElem
    · simp [h1, h2, h3, h4]
    · intro i hi _
      have hi : i < n := by simpa [h1, h2, h3, h4] using hi
      simp only [List.getElem_zip, List.getElem_map, List.getElem_range]
      rw [List.getD_eq_getElem _ _ (by omega), List.getD_eq_getElem _ _ (by omega), List.getD_eq_getElem _ _ (by omega),
        List.getD_eq_getElem _ _ (by omega)]
  unfold marks
  rw [z, List.filterMap_map, ← List.filterMap_eq_map, ← List.filterMap_eq_filter, List.filterMap_filterMap]
  congr 1
  funext i
  by_cases h : ws.getD i 0 ≤ 0
  · show (if ws.getD i 0 ≤ 0 then none else _) = (if decide (0 < ws.getD i 0) = true then some i else none).bind _
    rw [if_pos h, if_neg (by simpa using h)]
    rfl
  · show (if ws.getD i 0 ≤ 0 then none else _) = (if decide (0 < ws.getD i 0) = true then some i else none).bind _
    rw [if_neg h, if_pos (by simpa using h)]
    rfl

lemma plot_ok (lib : Library) {d : DataObj ℝ} {x y z w : String} {xs ys zs ws : List ℝ} {n : ℕ}
    (h : columns lib d x y (some z) w [] = .ok (xs, ys, zs, ws)) (h1 : xs.length = n) (h2 : ys.length = n) (h3 : zs.length = n)
    (h4 : ws.length = n) : plot lib d x y (some z) w {} = .ok (marks xs ys zs ws) := by
  unfold plot plotVolume
  dsimp only
  rw [h]
  have e : ¬ (xs.length ≠ ws.length ∨ ys.length ≠ ws.length ∨ zs.length ≠ ws.length) := by simp [h1, h2, h3, h4]
  simp only [lift, bind, Except.bind, Option.getD_none, lt_irrefl, if_false, if_neg e]
  rfl

lemma columns_of (lib : Library) {d : DataObj ℝ} {x y z w : String} {xs ys zs ws : List ℝ} (hx : d.cols.lookup x = some xs)
    (hy : d.cols.lookup y = some ys) (hz : d.cols.lookup z = some zs) (hw : d.cols.lookup w = some ws) (h : w ≠ "intensity") :
    columns lib d x y (some z) w [] = .ok (xs, ys, zs, ws) := by
  unfold columns
  simp only [List.isEmpty_nil, if_true, pure, Except.pure, bind, Except.bind, get_eq_ok.2 hx, get_eq_ok.2 hy, get_eq_ok.2 hz, get_eq_ok.2 hw, if_neg h]

lemma columns_int (lib : Library) {d : DataObj ℝ} {n : ℕ} {det mon time : List ℝ} (h : Counted d n det mon time) {x y z : String}
    {xs ys zs : List ℝ} (hx : d.cols.lookup x = some xs) (hy : d.cols.lookup y = some ys) (hz : d.cols.lookup z = some zs) :
    columns lib d x y (some z) "intensity" [] =
      .ok (xs, ys, zs, List.zipWith (fun a m => a / m * normVal d mon time) det (normCol d mon time)) := by
  obtain ⟨d', h1, -⟩ := h.intensity
  unfold columns
  simp only [List.isEmpty_nil, if_true, pure, Except.pure, bind, Except.bind, get_eq_ok.2 hx, get_eq_ok.2 hy, get_eq_ok.2 hz, h1]

lemma places_of {xs ys zs ws : List ℝ} {n : ℕ} (h1 : xs.length = n) (h2 : ys.length = n) (h3 : zs.length = n) (h4 : ws.length = n)
    {W : ℕ → ℝ} (hW : ∀ i < n, ws.getD i 0 = W i) :
    Places (marks xs ys zs ws) n (fun i => xs.getD i 0) (fun i => ys.getD i 0) (fun i => zs.getD i 0) W ∧
    (marks xs ys zs ws).map Mark.colour = ((List.range n).filter fun i => 0 < W i).map (fun i => colour (W i)) := by
  have f : ((List.range n).filter fun i => 0 < ws.getD i 0) = (List.range n).filter fun i => 0 < W i := by
    apply List.filter_congr
    intro i hi
    rw [hW i (List.mem_range.1 hi)]
  unfold Places
  rw [marks_eq h1 h2 h3 h4, List.map_map, List.map_map, f]
  refine ⟨rfl, ?_⟩
  apply List.map_congr_left
  intro i hi
  have : i < n := List.mem_range.1 (List.mem_of_mem_filter hi)
  show colour (ws.getD i 0) = _
  rw [hW i this]

lemma scale_pos : 0 < Real.log (1 / 10) - Real.log (1 / 10000) := by
  rw [sub_pos]
  exact Real.log_lt_log (by norm_num) (by norm_num)

lemma colour_lt {a b : ℝ} (h1 : 1 / 10000 ≤ a) (h : a < b) (h2 : b ≤ 1 / 10) : colour a < colour b := by
  have a0 : 0 < a := lt_of_lt_of_le (by norm_num) h1
  have l1 := Real.log_le_log (by norm_num) h1
  have l2 := Real.log_le_log (a0.trans h) h2
  have l3 := Real.log_lt_log a0 h
  have s := scale_pos
  unfold colour
  have e (x : ℝ) (p : Real.log (1 / 10000) ≤ Real.log x) (q : Real.log x ≤ Real.log (1 / 10)) :
      max 0 (min 1 ((Real.log x - Real.log (1 / 10000)) / (Real.log (1 / 10) - Real.log (1 / 10000)))) =
        (Real.log x - Real.log (1 / 10000)) / (Real.log (1 / 10) - Real.log (1 / 10000)) := by
    rw [min_eq_right ((div_le_one s).2 (by linarith)), max_eq_right (div_nonneg (by linarith) s.le)]
  rw [e a l1 (by linarith), e b (by linarith) l2]
  exact div_lt_div_of_pos_right (by linarith) s

lemma colour_top {a : ℝ} (h : 1 / 10 ≤ a) : colour a = 1 := by
  have := Real.log_le_log (by norm_num) h
  unfold colour
  rw [min_eq_left ((one_le_div scale_pos).2 (by linarith))]
  exact max_eq_right zero_le_one

/-! ## Theorems -/

/-- C176 (partial).  `plot(x, y, z, w)` for columns of equal length draws a mark at every point with positive `w`, and no others; the
colours tell larger from smaller values if these are between 0.0001 and 0.1.  Missing: other values (`C176_colours_false`),
intensities (`C176_intensity_partial`), and calls of `plot_volume` itself (`C176_direct_false`). -/
theorem C176_marks_partial (lib : Library) {d : DataObj ℝ} {x y z w : String} {xs ys zs ws : List ℝ} {n : ℕ}
    (hx : d.cols.lookup x = some xs) (hy : d.cols.lookup y = some ys) (hz : d.cols.lookup z = some zs) (hw : d.cols.lookup w = some ws)
    (h1 : xs.length = n) (h2 : ys.length = n) (h3 : zs.length = n) (h4 : ws.length = n) (h : w ≠ "intensity") :
    ∃ ms, plot lib d x y (some z) w {} = .ok ms ∧
      Places ms n (fun i => xs.getD i 0) (fun i => ys.getD i 0) (fun i => zs.getD i 0) (fun i => ws.getD i 0) ∧
      ((∀ v ∈ ws, 0 < v → 1 / 10000 ≤ v ∧ v ≤ 1 / 10) → Tells ms n (fun i => ws.getD i 0)) := by
  obtain ⟨p, q⟩ := places_of h1 h2 h3 h4 (W := fun i => ws.getD i 0) (fun _ _ => rfl)
  refine ⟨_, plot_ok lib (columns_of lib hx hy hz hw h) h1 h2 h3 h4, p, fun r => ⟨colour, q, fun i hi j hj p l => ?_⟩⟩
  have m (i : ℕ) (hi : i < n) : ws.getD i 0 ∈ ws := by
    rw [List.getD_eq_getElem _ _ (by omega)]
    exact List.getElem_mem _
  exact colour_lt (r _ (m i hi) p).1 l (r _ (m j hj) (p.trans l)).2

/-- C176 (partial).  `plot(x, y, z, 'intensity')` draws a mark at every point with positive intensity, and no others; the colours tell
larger from smaller intensities if these are between 0.0001 and 0.1. -/
theorem C176_intensity_partial (lib : Library) {d : DataObj ℝ} {n : ℕ} {det mon time : List ℝ} (h : Counted d n det mon time) {x y z : String}
    {xs ys zs : List ℝ} (hx : d.cols.lookup x = some xs) (hy : d.cols.lookup y = some ys) (hz : d.cols.lookup z = some zs)
    (h1 : xs.length = n) (h2 : ys.length = n) (h3 : zs.length = n) {W : ℕ → ℝ}
    (hW : ∀ i, W i = det.getD i 0 / (if d.timeNorm then time else mon).getD i 0 * normVal d mon time) :
    ∃ ms, plot lib d x y (some z) "intensity" {} = .ok ms ∧
      Places ms n (fun i => xs.getD i 0) (fun i => ys.getD i 0) (fun i => zs.getD i 0) W ∧
      ((∀ i < n, 0 < W i → 1 / 10000 ≤ W i ∧ W i ≤ 1 / 10) → Tells ms n W) := by
  have hn := normCol_length h
  have h4 : (List.zipWith (fun a m => a / m * normVal d mon time) det (normCol d mon time)).length = n := by simp [h.ldet, hn]
  obtain ⟨p, q⟩ := places_of h1 h2 h3 h4 (W := W) (fun i hi => by
    rw [List.getD_eq_getElem _ _ (by omega), List.getElem_zipWith, hW, List.getD_eq_getElem _ _ (by rw [h.ldet]; exact hi)]
    congr 2
    have : normCol d mon time = if d.timeNorm then time else mon := rfl
    rw [← this, List.getD_eq_getElem _ _ (by omega)])
  exact ⟨_, plot_ok lib (columns_int lib h hx hy hz) h1 h2 h3 h4, p, fun r => ⟨colour, q, fun i hi j hj p l =>
    colour_lt (r i hi p).1 l (r j hj (p.trans l)).2⟩⟩

/-- **C176 is false** in full: all values of 0.1 and more, such as any number of counts, have one colour. -/
theorem C176_colours_false (lib : Library) {d : DataObj ℝ} {x y z w : String} {xs ys zs ws : List ℝ} {n : ℕ}
    (hx : d.cols.lookup x = some xs) (hy : d.cols.lookup y = some ys) (hz : d.cols.lookup z = some zs) (hw : d.cols.lookup w = some ws)
    (h1 : xs.length = n) (h2 : ys.length = n) (h3 : zs.length = n) (h4 : ws.length = n) (h : w ≠ "intensity")
    (big : ∀ v ∈ ws, 0 < v → 1 / 10 ≤ v) {i j : ℕ} (hi : i < n) (hj : j < n) (pos : 0 < ws.getD i 0) (lt : ws.getD i 0 < ws.getD j 0) :
    ∃ ms, plot lib d x y (some z) w {} = .ok ms ∧ (∀ m ∈ ms, m.colour = 1) ∧ ¬ Tells ms n (fun i => ws.getD i 0) := by
  obtain ⟨p, q⟩ := places_of h1 h2 h3 h4 (W := fun i => ws.getD i 0) (fun _ _ => rfl)
  have m (i : ℕ) (hi : i < n) : ws.getD i 0 ∈ ws := by
    rw [List.getD_eq_getElem _ _ (by omega)]
    exact List.getElem_mem _
  have one : ∀ k ∈ (List.range n).filter fun i => 0 < ws.getD i 0, colour (ws.getD k 0) = 1 := fun k hk => by
    rw [List.mem_filter, List.mem_range] at hk
    exact colour_top (big _ (m k hk.1) (by simpa using hk.2))
  have e : ∀ m ∈ marks xs ys zs ws, m.colour = 1 := fun m hm => by
    have := List.mem_map_of_mem (f := Mark.colour) hm
    rw [q, List.mem_map] at this
    obtain ⟨k, hk, e⟩ := this
    rw [← e]
    exact one k hk
  refine ⟨_, plot_ok lib (columns_of lib hx hy hz hw h) h1 h2 h3 h4, e, ?_⟩
  rintro ⟨c, hc, t⟩
  rw [q] at hc
  have hc := List.map_inj_left.1 hc
  have a := hc i (by simpa using ⟨hi, pos⟩)
  have b := hc j (by simpa using ⟨hj, pos.trans lt⟩)
  have a' := one i (by simpa using ⟨hi, pos⟩)
  have b' := one j (by simpa using ⟨hj, pos.trans lt⟩)
  have := t i hi j hj pos lt
  dsimp only at this
  rw [← a, ← b, a', b'] at this
  exact lt_irrefl _ this

/-- **C176 is false** in full: with the documented defaults `plot_volume` raises an exception. -/
theorem C176_direct_false (lib : Library) (d : DataObj ℝ) (x y z w : String) : ∃ e, plotVolume lib d x y (some z) w {} = .error e := by
  unfold plotVolume
  cases columns lib d x y (some z) w _ with
  | error e => exact ⟨_, rfl⟩
  | ok p => exact ⟨_, rfl⟩

/-- **C176**: without `z` (or `x` or `y`, or with the name of a column that there is not) an exception is raised and nothing is drawn. -/
theorem C176_missing (lib : Library) {d : DataObj ℝ} {x y w : String} {z : Option String} {o : Options} (h : o.toBin = [])
    (hz : (∀ n, z = some n → d.cols.lookup n = none) ∨ d.cols.lookup x = none ∨ d.cols.lookup y = none) :
    plot lib d x y z w o = .error (.data .keyError) := by
  have g (n : String) (h : d.cols.lookup n = none) : d.cols.get n = .error .keyError := by
    unfold Table.get
    rw [h]
  have g' (n : String) : (∃ v, d.cols.get n = .ok v) ∨ d.cols.get n = .error .keyError := by
    cases h : d.cols.lookup n with
    | none => exact .inr (g n h)
    | some v => exact .inl ⟨v, get_eq_ok.2 h⟩
  have c : columns lib d x y z w o.toBin = .error .keyError := by
    unfold columns
    rw [h]
    simp only [List.isEmpty_nil, if_true, pure, Except.pure, bind, Except.bind]
    rcases g' x with ⟨vx, ex⟩ | ex
    · rw [ex]
      rcases g' y with ⟨vy, ey⟩ | ey
      · rw [ey]
        rcases hz with hz | hz | hz
        · cases z with
          | none => rfl
          | some z => dsimp only; rw [g z (hz z rfl)]
        · rw [g x hz] at ex; exact nomatch ex
        · rw [g y hz] at ey; exact nomatch ey
      · rw [ey]
    · rw [ex]
  unfold plot plotVolume
  dsimp only
  rw [c]
  rfl

/-! ## Concrete cases -/

/-- Three points, of which the second has no counts. -/
noncomputable def exVolume (a b : ℝ) : DataObj ℝ :=
  { emptyData with cols := [("h", [1, 2, 3]), ("k", [4, 5, 6]), ("l", [7, 8, 9]), ("n", [a, 0, b])], m0 := 4 }

/-- Values 0.01 and 0.02: the first and the third point are drawn. -/
example (lib : Library) : ∃ ms, plot lib (exVolume (1 / 100) (1 / 50)) "h" "k" (some "l") "n" {} = .ok ms ∧
    ms.map (fun m => (m.x, m.y, m.z)) = [(1, 4, 7), (3, 6, 9)] ∧ Tells ms 3 (fun i => [1 / 100, 0, 1 / 50].getD i 0) := by
  obtain ⟨ms, h1, h2, h3⟩ := C176_marks_partial lib (d := exVolume (1 / 100) (1 / 50)) (x := "h") (y := "k") (z := "l") (w := "n") (n := 3)
    rfl rfl rfl rfl rfl rfl rfl rfl (by decide)
  refine ⟨ms, h1, ?_, h3 ?_⟩
  · rw [h2]
    simp [List.range_succ, List.filter]
  · intro v hv p
    simp only [List.mem_cons, List.not_mem_nil, or_false] at hv
    rcases hv with rfl | rfl | rfl <;> constructor <;> first | exact absurd p (lt_irrefl _) | norm_num

/-- One count and a thousand counts have the same colour. -/
example (lib : Library) : ∃ ms, plot lib (exVolume 1 1000) "h" "k" (some "l") "n" {} = .ok ms ∧ (∀ m ∈ ms, m.colour = 1) := by
  obtain ⟨ms, h1, h2, -⟩ := C176_colours_false lib (d := exVolume 1 1000) (x := "h") (y := "k") (z := "l") (w := "n") (n := 3)
    rfl rfl rfl rfl rfl rfl rfl rfl (by decide) (i := 0) (j := 2)
    (by
      intro v hv p
      simp only [List.mem_cons, List.not_mem_nil, or_false] at hv
      rcases hv with rfl | rfl | rfl
      · norm_num
      · exact absurd p (lt_irrefl _)
      · norm_num) (by decide) (by decide) (by norm_num) (by norm_num)
  exact ⟨ms, h1, h2⟩

/-- The hypotheses of `C176_intensity_partial` are met by the data of C167, drawn three times over the energy. -/
example (lib : Library) : ∃ ms, plot lib Line.exLine "e" "e" (some "e") "intensity" {} = .ok ms ∧ ms.length = 2 := by
  obtain ⟨ms, h1, h2, -⟩ := C176_intensity_partial lib Line.exLine_counted (x := "e") (y := "e") (z := "e") (xs := [1, 2]) (ys := [1, 2])
    (zs := [1, 2]) rfl rfl rfl rfl rfl rfl (fun _ => rfl)
  refine ⟨ms, h1, ?_⟩
  have := congrArg List.length h2
  have e0 : normVal Line.exLine [2, 4] [1, 1] = 4 := by
    unfold normVal
    norm_num [Line.exLine, emptyData]
  rw [List.length_map, List.length_map, e0] at this
  rw [this]
  have : (Line.exLine).timeNorm = false := rfl
  simp [List.range_succ, List.filter, this]

/-- `plot('h', 'k', w='n')`. -/
example (lib : Library) : plot lib (exVolume 1 2) "h" "k" none "n" {} = .error (.data .keyError) :=
  C176_missing lib rfl (.inl (by simp))

end Verif.Data.Volume
