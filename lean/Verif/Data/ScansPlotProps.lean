import Mathlib.Order.Bounds.Basic
import Mathlib.Data.List.MinMax
import Mathlib.Tactic.Linarith
import Mathlib.Tactic.NormNum
import Verif.Data.ScansPlot
import Verif.Data.ScansProps

/-! # What `waterfall` and `pcolor` show -/

namespace Verif.Data.Scans.Plot

/-! ## C171 -/

lemma get_some {s : Columns} {n : String} {l : List ℝ} (h : s n = some l) : s.get n = .ok l := by
  unfold Columns.get; rw [h]

lemma curve_ok {x y label : String} {offset : ℝ} {k : ℕ} {s : Columns} {xs ys ls : List ℝ} (hx : s x = some xs) (hy : s y = some ys)
    (hl : s label = some ls) (e : xs.length = ys.length) :
    curve x y label offset k s = .ok ⟨xs.zip (ys.map fun v => v + offset * k), threeDecimals (mean ls)⟩ := by
  unfold curve
  rw [get_some hx, get_some hy, get_some hl]
  show (if xs.length ≠ ys.length then _ else _) = _
  rw [if_neg (by simpa using e)]
  rfl

/-- Specification: the scan has the columns `x`, `y` and `label`, the first two of the same length. -/
structure Has (s : Columns) (x y label : String) (xs ys ls : List ℝ) : Prop where
  x : s x = some xs
  y : s y = some ys
  label : s label = some ls
  same : xs.length = ys.length

lemma curves_ok {x y label : String} {offset : ℝ} (d : List Columns) (k : ℕ)
    (h : ∀ s ∈ d, ∃ xs ys ls, Has s x y label xs ys ls) :
    ∃ cs, curves x y label offset k d = .ok cs ∧ cs.length = d.length ∧
      ∀ (i : ℕ) (s : Columns) xs ys ls, d[i]? = some s → Has s x y label xs ys ls →
        cs[i]? = some ⟨xs.zip (ys.map fun v => v + offset * (k + i : ℕ)), threeDecimals (mean ls)⟩ := by
  induction d generalizing k with
  | nil => exact ⟨[], rfl, rfl, fun i s xs ys ls hi => by simp at hi⟩
  | cons s d ih =>
    obtain ⟨xs, ys, ls, hs⟩ := h s (by simp)
    obtain ⟨cs, e, l, r⟩ := ih (k + 1) fun t ht => h t (by simp [ht])
    refine ⟨⟨xs.zip (ys.map fun v => v + offset * k), threeDecimals (mean ls)⟩ :: cs, ?_, ?_, ?_⟩
    · unfold curves
      rw [curve_ok hs.x hs.y hs.label hs.same, e]
      rfl
    · simp [l]
    · intro i t xs' ys' ls' hi ht
      cases i with
      | zero =>
        simp only [List.getElem?_cons_zero, Option.some.injEq] at hi
        subst hi
        have e1 : xs = xs' := by have := hs.x.symm.trans ht.x; injection this
        have e2 : ys = ys' := by have := hs.y.symm.trans ht.y; injection this
        have e3 : ls = ls' := by have := hs.label.symm.trans ht.label; injection this
        subst e1 e2 e3
        simp
      | succ i =>
        simp only [List.getElem?_cons_succ] at hi ⊢
        rw [r i t xs' ys' ls' hi ht]
        have : k + 1 + i = k + (i + 1) := by omega
        rw [this]

/-- **C171**: `waterfall` draws one curve for each scan, in the order of the collection.  The curve number `k` has the points of the scan
moved up by `k` times the offset, each in its place, and its label shows the mean of the label column to three decimals. -/
theorem C171_curves (d : List Columns) (x y label : String) (offset : ℝ) (h : ∀ s ∈ d, ∃ xs ys ls, Has s x y label xs ys ls) :
    ∃ cs, waterfall (some d) x y label offset = .ok cs ∧ cs.length = d.length ∧
      ∀ (k : ℕ) (s : Columns) xs ys ls, d[k]? = some s → Has s x y label xs ys ls →
        ∃ c, cs[k]? = some c ∧ c.points.length = xs.length ∧
          (∀ (j : ℕ) u v, xs[j]? = some u → ys[j]? = some v → c.points[j]? = some (u, v + k * offset)) ∧
          |c.label - ls.sum / ls.length| ≤ 1 / 2000 := by
  obtain ⟨cs, e, l, r⟩ := curves_ok (offset := offset) d 0 h
  refine ⟨cs, e, l, fun k s xs ys ls hk hs => ⟨_, r k s xs ys ls hk hs, ?_, ?_, ?_⟩⟩
  · simp [hs.same]
  · intro j u v hu hv
    simp only [List.getElem?_zip_eq_some, List.getElem?_map, hu, hv, Option.map_some, true_and, Option.some.injEq]
    push_cast; ring
  · have := abs_sub_round (mean ls * 10 ^ 3)
    simp only [threeDecimals]
    rw [show (round (mean ls * 10 ^ 3) : ℝ) / 10 ^ 3 - ls.sum / ls.length = -(mean ls * 10 ^ 3 - round (mean ls * 10 ^ 3)) / 10 ^ 3 by
      unfold mean; ring]
    rw [abs_div, abs_neg, abs_of_pos (by positivity : (0 : ℝ) < 10 ^ 3)]
    calc _ ≤ (1 / 2 : ℝ) / 10 ^ 3 := by gcongr
      _ = _ := by norm_num

/-- **C171**: if the offset is larger than the spread of all values, every curve lies above those before it. -/
theorem C171_apart (d : List Columns) (x y label : String) (offset : ℝ) (h : ∀ s ∈ d, ∃ xs ys ls, Has s x y label xs ys ls)
    (far : ∀ s ∈ d, ∀ t ∈ d, ∀ ys ys', s y = some ys → t y = some ys' → ∀ v ∈ ys, ∀ w ∈ ys', v - w < offset)
    {cs : List Curve} (hc : waterfall (some d) x y label offset = .ok cs) {k l : ℕ} (hkl : k < l) {c c' : Curve}
    (hk : cs[k]? = some c) (hl : cs[l]? = some c') {p q : ℝ × ℝ} (hp : p ∈ c.points) (hq : q ∈ c'.points) : p.2 < q.2 := by
  obtain ⟨cs', e, len, r⟩ := curves_ok (offset := offset) d 0 h
  have : cs' = cs := by
    have : Except.ok cs' = (Except.ok cs : Except PlotErr _) := e.symm.trans hc
    injection this
  subst this
  have inside : ∀ {i : ℕ} {c : Curve}, cs'[i]? = some c → ∃ s ∈ d, ∃ ys, s y = some ys ∧ ∀ p ∈ c.points, ∃ v ∈ ys, p.2 = v + offset * i := by
    intro i c hi
    have hlt : i < d.length := by rw [← len]; exact (List.getElem?_eq_some_iff.1 hi).1
    obtain ⟨xs, ys, ls, hs⟩ := h d[i] (List.getElem_mem _)
    have := r i d[i] xs ys ls (List.getElem?_eq_getElem hlt) hs
    rw [hi] at this
    injection this with this
    refine ⟨d[i], List.getElem_mem _, ys, hs.y, fun p hp => ?_⟩
    rw [this] at hp
    obtain ⟨v, hv, e⟩ := List.mem_map.1 (List.of_mem_zip hp).2
    exact ⟨v, hv, by rw [← e]; simp⟩
  obtain ⟨s, hs, ys, ey, hv⟩ := inside hk
  obtain ⟨t, ht, ys', ey', hw⟩ := inside hl
  obtain ⟨v, mv, e1⟩ := hv p hp
  obtain ⟨w, mw, e2⟩ := hw q hq
  have f := far s hs t ht ys ys' ey ey' v mv w mw
  have f0 := far s hs s hs ys ys ey ey v mv v mv
  have hkl' : (k : ℝ) + 1 ≤ l := by exact_mod_cast hkl
  rw [e1, e2]
  have : offset * (k + 1) ≤ offset * l := by
    apply mul_le_mul_of_nonneg_left hkl'
    linarith
  linarith

/-- **C171**: without scans, or without one of the columns, nothing is drawn but an exception raised. -/
theorem C171_errors (x y label : String) (offset : ℝ) :
    waterfall none x y label offset = .error .runtimeError ∧
    ∀ d : List Columns, (∃ s ∈ d, s x = none ∨ s y = none ∨ s label = none) → ∃ e, waterfall (some d) x y label offset = .error e := by
  refine ⟨rfl, fun d h => ?_⟩
  show ∃ e, curves x y label offset 0 d = .error e
  generalize 0 = k
  induction d generalizing k with
  | nil => obtain ⟨s, hs, -⟩ := h; simp at hs
  | cons t d ih =>
    unfold curves
    cases c : curve x y label offset k t with
    | error e => exact ⟨e, rfl⟩
    | ok c' =>
      have : ∃ s ∈ d, s x = none ∨ s y = none ∨ s label = none := by
        obtain ⟨s, hs, hn⟩ := h
        rcases List.mem_cons.1 hs with rfl | hs
        · exfalso
          unfold curve Columns.get at c
          rcases hn with hn | hn | hn
          · rw [hn] at c; simp [bind, Except.bind] at c
          · rw [hn] at c; cases hx : s x <;> simp [bind, Except.bind, hx] at c
          · rw [hn] at c; cases hx : s x <;> cases hy : s y <;> simp [bind, Except.bind, hx, hy] at c
        · exact ⟨s, hs, hn⟩
      obtain ⟨e, he⟩ := ih this (k + 1)
      exact ⟨e, by rw [he]; rfl⟩

/-- Two scans of two points each. -/
def twoScans : List Columns :=
  [fun n => if n = "e" then some [1, 2] else if n = "detector" then some [3, 4] else if n = "h" then some [0, 0] else none,
   fun n => if n = "e" then some [1, 2] else if n = "detector" then some [5, 2] else if n = "h" then some [1, 1] else none]

/-- They can be drawn, and an offset of 5 separates them. -/
example : (∀ s ∈ twoScans, ∃ xs ys ls, Has s "e" "detector" "h" xs ys ls) ∧
    (∀ s ∈ twoScans, ∀ t ∈ twoScans, ∀ ys ys', s "detector" = some ys → t "detector" = some ys' → ∀ v ∈ ys, ∀ w ∈ ys', v - w < 5) := by
  constructor
  · intro s hs
    simp only [twoScans, List.mem_cons, List.not_mem_nil, or_false] at hs
    rcases hs with rfl | rfl
    · exact ⟨[1, 2], [3, 4], [0, 0], by simp, by simp, by simp, rfl⟩
    · exact ⟨[1, 2], [5, 2], [1, 1], by simp, by simp, by simp, rfl⟩
  · intro s hs t ht ys ys' h1 h2 v hv w hw
    simp only [twoScans, List.mem_cons, List.not_mem_nil, or_false] at hs ht
    rcases hs with rfl | rfl <;> rcases ht with rfl | rfl <;> simp at h1 h2 <;> subst h1 h2 <;> simp at hv hw <;>
      rcases hv with rfl | rfl <;> rcases hw with rfl | rfl <;> norm_num

/-! ## C172 -/

/-- Specification: the point is inside the cell or on its border, whichever of its corners comes first. -/
def Cell.Contains (c : Cell) (px py : ℝ) : Prop :=
  min c.x0 c.x1 ≤ px ∧ px ≤ max c.x0 c.x1 ∧ min c.y0 c.y1 ≤ py ∧ py ≤ max c.y0 c.y1

lemma Cell.contains_iff {c : Cell} (hx : c.x0 ≤ c.x1) (hy : c.y0 ≤ c.y1) (px py : ℝ) :
    c.Contains px py ↔ c.x0 ≤ px ∧ px ≤ c.x1 ∧ c.y0 ≤ py ∧ py ≤ c.y1 := by
  unfold Cell.Contains
  rw [min_eq_left hx, max_eq_right hx, min_eq_left hy, max_eq_right hy]

/-- Specification: what is drawn at a point is the value `v`: some cell there has it, and no other value. -/
def Shows (cells : List Cell) (px py v : ℝ) : Prop := (∃ c ∈ cells, c.Contains px py ∧ c.value = v) ∧ ∀ c ∈ cells, c.Contains px py → c.value = v

/-- Specification: a scan with increasing coordinates `xs` (at least two), values `zs`, and the coordinate `m` on the other axis. -/
structure Row (s : Columns) (x y z : String) (xs : List ℝ) (m : ℝ) (zs : List ℝ) : Prop where
  x : s x = some xs
  z : s z = some zs
  y : ∃ ys, s y = some ys ∧ mean ys = m
  same : zs.length = xs.length
  two : 2 ≤ xs.length
  increasing : xs.Pairwise (· < ·)

lemma mem_rowCells {y0 y1 : ℝ} {es zs : List ℝ} {c : Cell} :
    c ∈ rowCells y0 y1 es zs ↔ ∃ (j : ℕ) (a b v : ℝ), es[j]? = some a ∧ es[j + 1]? = some b ∧ zs[j]? = some v ∧ c = ⟨a, b, y0, y1, v⟩ := by
  unfold rowCells
  simp only [List.mem_map, Prod.exists]
  constructor
  · rintro ⟨a, b, v, hm, rfl⟩
    obtain ⟨j, hj⟩ := List.mem_iff_getElem?.1 hm
    rw [List.getElem?_zip_eq_some, List.getElem?_zip_eq_some] at hj
    refine ⟨j, a, b, v, hj.1.1, ?_, hj.2, rfl⟩
    have := hj.1.2
    rwa [List.getElem?_tail] at this
  · rintro ⟨j, a, b, v, h1, h2, h3, rfl⟩
    refine ⟨a, b, v, List.mem_iff_getElem?.2 ⟨j, ?_⟩, rfl⟩
    rw [List.getElem?_zip_eq_some, List.getElem?_zip_eq_some, List.getElem?_tail]
    exact ⟨⟨h1, h2⟩, h3⟩

/-- The boundaries of the cells between increasing centres, one by one. -/
lemma edges_sep {ms : List ℝ} (h2 : 2 ≤ ms.length) (hinc : ms.Pairwise (· < ·)) :
    ∃ es, edges ms = .ok es ∧ es.length = ms.length + 1 ∧
      (∀ (i : ℕ) m a, ms[i]? = some m → es[i]? = some a → a < m) ∧
      (∀ (i : ℕ) m a, ms[i]? = some m → es[i + 1]? = some a → m < a) := by
  obtain ⟨es, e, l, h⟩ := C80_edges h2 hinc
  refine ⟨es, e, l, ?_, ?_⟩
  · intro i m a hm ha
    obtain ⟨hi, rfl⟩ := List.getElem?_eq_some_iff.1 hm
    have := (h i hi).1
    rwa [List.getD_eq_getElem?_getD, ha] at this
  · intro i m a hm ha
    obtain ⟨hi, rfl⟩ := List.getElem?_eq_some_iff.1 hm
    have := (h i hi).2
    rwa [List.getD_eq_getElem?_getD, ha] at this

/-- Between increasing centres a centre is in its own interval only. -/
lemma own_interval {ms es : List ℝ} (hinc : ms.Pairwise (· < ·)) (l : es.length = ms.length + 1)
    (h1 : ∀ (i : ℕ) m a, ms[i]? = some m → es[i]? = some a → a < m) (h2 : ∀ (i : ℕ) m a, ms[i]? = some m → es[i + 1]? = some a → m < a)
    {i j : ℕ} {m a b : ℝ} (hm : ms[i]? = some m) (ha : es[j]? = some a) (hb : es[j + 1]? = some b) (c1 : a ≤ m) (c2 : m ≤ b) : j = i := by
  have hi := (List.getElem?_eq_some_iff.1 hm).1
  have hj := (List.getElem?_eq_some_iff.1 hb).1
  have hj' : j < ms.length := by omega
  rcases lt_trichotomy j i with hlt | rfl | hgt
  · exfalso
    have hp : ms[i - 1]? = some ms[i - 1] := List.getElem?_eq_getElem (by omega)
    -- the right border of interval j is not right of centre j + 1, and that is not right of centre i
    have k1 : j + 1 < ms.length := by omega
    have b1 := h1 (j + 1) ms[j + 1] b (List.getElem?_eq_getElem k1) hb
    obtain ⟨_, rfl⟩ := List.getElem?_eq_some_iff.1 hm
    have : ms[j + 1] ≤ ms[i] := by
      rcases Nat.lt_or_ge (j + 1) i with h | h
      · exact le_of_lt (List.pairwise_iff_getElem.1 hinc _ _ _ _ h)
      · have : j + 1 = i := by omega
        simp only [this, le_refl]
    linarith
  · rfl
  · exfalso
    have k0 : j - 1 < ms.length := by omega
    have ha' : es[j - 1 + 1]? = some a := by rw [show j - 1 + 1 = j by omega]; exact ha
    have b1 := h2 (j - 1) ms[j - 1] a (List.getElem?_eq_getElem k0) ha'
    obtain ⟨_, rfl⟩ := List.getElem?_eq_some_iff.1 hm
    have : ms[i] ≤ ms[j - 1] := by
      rcases Nat.lt_or_ge i (j - 1) with h | h
      · exact le_of_lt (List.pairwise_iff_getElem.1 hinc _ _ _ _ h)
      · have : j - 1 = i := by omega
        simp only [this, le_refl]
    linarith

lemma scanCells_ok {s : Columns} {x y z : String} {xs zs : List ℝ} {m : ℝ} (h : Row s x y z xs m zs) (y0 y1 : ℝ) :
    ∃ es, edges xs = .ok es ∧ scanCells x z y0 m y1 s = .ok (rowCells y0 m es zs ++ rowCells m y1 es zs) := by
  obtain ⟨es, e, -⟩ := edges_sep h.two h.increasing
  refine ⟨es, e, ?_⟩
  unfold scanCells
  rw [get_some h.x, get_some h.z]
  show (do let es ← lift (edges xs); _) = _
  rw [e]
  show (if zs.length ≠ xs.length then _ else _) = _
  rw [if_neg (by simpa using h.same)]
  rfl

/-- The cells of all scans, one by one. -/
lemma allCells_ok {x y z : String} (d : List Columns) (ys ms : List ℝ) (hl : ys.length = ms.length + 1) (hd : ms.length = d.length)
    (h : ∀ (i : ℕ) s m, d[i]? = some s → ms[i]? = some m → ∃ xs zs, Row s x y z xs m zs) :
    ∃ cells, allCells x z ys ms d = .ok cells ∧ ∀ c, c ∈ cells ↔ ∃ (i : ℕ) (s : Columns) (m y0 y1 : ℝ) (xs zs es : List ℝ), d[i]? = some s ∧
      ms[i]? = some m ∧ ys[i]? = some y0 ∧ ys[i + 1]? = some y1 ∧ Row s x y z xs m zs ∧ edges xs = .ok es ∧
      (c ∈ rowCells y0 m es zs ∨ c ∈ rowCells m y1 es zs) := by
  induction d generalizing ys ms with
  | nil =>
    refine ⟨[], ?_, ?_⟩
    · unfold allCells
      split <;> simp_all
    · intro c
      simp
  | cons s d ih =>
    match ms, ys with
    | [], _ => simp at hd
    | m :: ms, [] => simp at hl
    | m :: ms, [_] => simp at hl
    | m :: ms, y0 :: y1 :: ys =>
      obtain ⟨xs, zs, hs⟩ := h 0 s m rfl rfl
      obtain ⟨es, e1, e2⟩ := scanCells_ok hs y0 y1
      obtain ⟨cells, e3, r⟩ := ih (y1 :: ys) ms (by simpa using hl) (by simpa using hd) fun i s' m' h1 h2 => h (i + 1) s' m' (by simpa using h1) (by simpa using h2)
      refine ⟨rowCells y0 m es zs ++ rowCells m y1 es zs ++ cells, ?_, ?_⟩
      · unfold allCells
        rw [e2, e3]
        rfl
      · intro c
        rw [List.mem_append, List.mem_append, r c]
        constructor
        · rintro (hc | ⟨i, s', m', a, b, xs', zs', es', h1, h2, h3, h4, h5⟩)
          · exact ⟨0, s, m, y0, y1, xs, zs, es, rfl, rfl, rfl, rfl, hs, e1, hc⟩
          · exact ⟨i + 1, s', m', a, b, xs', zs', es', by simpa using h1, by simpa using h2, by simpa using h3, by simpa using h4, h5⟩
        · rintro ⟨i, s', m', a, b, xs', zs', es', h1, h2, h3, h4, h5, h6, h7⟩
          cases i with
          | zero =>
            simp only [List.getElem?_cons_zero, Option.some.injEq, zero_add, List.getElem?_cons_succ] at h1 h2 h3 h4
            subst h1 h2 h3 h4
            have : xs = xs' := by have := hs.x.symm.trans h5.x; injection this
            subst this
            have : zs = zs' := by have := hs.z.symm.trans h5.z; injection this
            subst this
            have : es = es' := by have := e1.symm.trans h6; injection this
            subst this
            exact Or.inl h7
          | succ i =>
            refine Or.inr ⟨i, s', m', a, b, xs', zs', es', ?_, ?_, ?_, ?_, h5, h6, h7⟩
            · simpa using h1
            · simpa using h2
            · simpa using h3
            · simpa using h4

lemma mapM_get {d : List Columns} {n : String} (h : ∀ s ∈ d, ∃ l, s n = some l) :
    ∃ ls, d.mapM (fun s => s.get n) = .ok ls ∧ ls.length = d.length ∧ ∀ (i : ℕ) s, d[i]? = some s → ls[i]? = s n := by
  induction d with
  | nil => exact ⟨[], rfl, rfl, fun i s h => by simp at h⟩
  | cons s d ih =>
    obtain ⟨l, e⟩ := h s (by simp)
    obtain ⟨ls, e1, e2, r⟩ := ih fun t ht => h t (by simp [ht])
    refine ⟨l :: ls, by rw [List.mapM_cons, get_some e, e1]; rfl, by simp [e2], ?_⟩
    intro i t hi
    cases i with
    | zero => simp only [List.getElem?_cons_zero, Option.some.injEq] at hi; subst hi; simp [e]
    | succ i => simpa using r i t (by simpa using hi)

lemma stretch_some (lims : ℝ × ℝ) {z : List ℝ} (h : z ≠ []) : ∃ r, stretch lims z = .ok r := by
  obtain ⟨a, e⟩ : ∃ a, z.min? = some a := by cases z with
    | nil => exact absurd rfl h
    | cons x l => exact ⟨_, List.min?_cons'⟩
  obtain ⟨b, e'⟩ : ∃ b, z.max? = some b := by cases z with
    | nil => exact absurd rfl h
    | cons x l => exact ⟨_, List.max?_cons'⟩
  unfold stretch
  rw [e, e']
  exact ⟨_, rfl⟩

lemma limits_some (clims : Option (ℝ × ℝ)) {zs : List (List ℝ)} (h : ∀ z ∈ zs, z ≠ []) : ∃ r, limits clims zs = .ok r := by
  unfold limits
  cases clims with
  | some c => exact ⟨c, rfl⟩
  | none =>
    dsimp only
    generalize ((1 : ℝ), (0 : ℝ)) = st
    induction zs generalizing st with
    | nil => exact ⟨st, rfl⟩
    | cons z zs ih =>
      obtain ⟨r, e⟩ := stretch_some st (h z (by simp))
      rw [List.foldlM_cons, e]
      exact ih (fun z hz => h z (by simp [hz])) r

/-- Specification: scans that can be drawn: each with increasing coordinates along x, and the coordinates along y increasing from scan to
scan. -/
structure Drawable (d : List Columns) (x y z : String) (ms : List ℝ) : Prop where
  two : 2 ≤ d.length
  same : ms.length = d.length
  rows : ∀ (i : ℕ) s m, d[i]? = some s → ms[i]? = some m → ∃ xs zs, Row s x y z xs m zs
  increasing : ms.Pairwise (· < ·)

lemma pcolor_eq {d : List Columns} {x y z : String} {clims : Option (ℝ × ℝ)} {ys zs : List (List ℝ)} {biny : List ℝ} {cells : List Cell}
    {lo hi : ℝ} (e1 : d.mapM (fun s => s.get y) = .ok ys) (e2 : edges (ys.map mean) = .ok biny) (e3 : d.mapM (fun s => s.get z) = .ok zs)
    (e4 : limits clims zs = .ok (lo, hi)) (e5 : allCells x z biny (ys.map mean) d = .ok cells) :
    pcolor (some d) x y z clims = .ok ⟨cells, lo, hi⟩ := by
  unfold pcolor check
  simp only [e1, e2, e3, e4, e5, lift, bind, Except.bind]
  rfl

lemma pcolor_ok {d : List Columns} {x y z : String} {ms : List ℝ} (h : Drawable d x y z ms) (clims : Option (ℝ × ℝ)) :
    ∃ map biny zs, pcolor (some d) x y z clims = .ok map ∧ edges ms = .ok biny ∧ allCells x z biny ms d = .ok map.cells ∧
      d.mapM (fun s => s.get z) = .ok zs ∧ zs.length = d.length ∧ (∀ (i : ℕ) s, d[i]? = some s → zs[i]? = s z) ∧
      limits clims zs = .ok (map.low, map.high) := by
  have row : ∀ s ∈ d, ∃ xs m zs, Row s x y z xs m zs := by
    intro s hs
    obtain ⟨i, hi⟩ := List.mem_iff_getElem?.1 hs
    have hl := (List.getElem?_eq_some_iff.1 hi).1
    have hl' : i < ms.length := by rw [h.same]; exact hl
    obtain ⟨xs, zs, r⟩ := h.rows i s ms[i] hi (List.getElem?_eq_getElem _)
    exact ⟨xs, _, zs, r⟩
  obtain ⟨ys, e1, l1, r1⟩ := mapM_get (n := y) (d := d) fun s hs => by
    obtain ⟨xs, m, zs, r⟩ := row s hs; obtain ⟨ys, hy, -⟩ := r.y; exact ⟨ys, hy⟩
  obtain ⟨zs, e2, l2, r2⟩ := mapM_get (n := z) (d := d) fun s hs => by
    obtain ⟨xs, m, zs, r⟩ := row s hs; exact ⟨zs, r.z⟩
  have em : ys.map mean = ms := by
    apply List.ext_getElem?
    intro i
    by_cases hi : i < d.length
    · have k1 := r1 i d[i] (List.getElem?_eq_getElem hi)
      have hl' : i < ms.length := by rw [h.same]; exact hi
      obtain ⟨xs, zs, r⟩ := h.rows i d[i] ms[i] (List.getElem?_eq_getElem hi) (List.getElem?_eq_getElem _)
      obtain ⟨y', hy, hm⟩ := r.y
      rw [List.getElem?_map, k1, hy, Option.map_some, hm]
      exact (List.getElem?_eq_getElem _).symm
    · rw [List.getElem?_eq_none (by rw [List.length_map]; omega), List.getElem?_eq_none (by rw [h.same]; omega)]
  obtain ⟨biny, e3, l3, -⟩ := edges_sep (by rw [h.same]; exact h.two) h.increasing
  obtain ⟨cells, e4, -⟩ := allCells_ok d biny ms l3 h.same h.rows
  obtain ⟨⟨lo, hi⟩, e5⟩ := limits_some clims (zs := zs) (by
    intro w hw
    obtain ⟨i, hi⟩ := List.mem_iff_getElem?.1 hw
    have hl := (List.getElem?_eq_some_iff.1 hi).1
    have hd : i < d.length := by omega
    have := r2 i d[i] (List.getElem?_eq_getElem hd)
    rw [hi] at this
    obtain ⟨xs, m, zs', r⟩ := row d[i] (List.getElem_mem _)
    rw [r.z] at this
    injection this with this
    have a := r.same
    have b := r.two
    intro c
    rw [← this, c] at a
    simp at a
    omega)
  refine ⟨⟨cells, lo, hi⟩, biny, zs, ?_, e3, e4, e2, l2, r2, e5⟩
  exact pcolor_eq e1 (by rw [em]; exact e3) e2 e5 (by rw [em]; exact e4)

/-- **C172** (partial).  `pcolor` of two or more scans whose coordinates increase, each along x and from scan to scan along y: at the place
of every datum its value is shown and no other.  Missing: other orders (`C172_order_false`) and single scans (`C172_single_false`). -/
theorem C172_places_partial {d : List Columns} {x y z : String} {ms : List ℝ} (h : Drawable d x y z ms) (clims : Option (ℝ × ℝ)) :
    ∃ map, pcolor (some d) x y z clims = .ok map ∧
      ∀ (i j : ℕ) (s : Columns) (m u v : ℝ) xs zs, d[i]? = some s → ms[i]? = some m → Row s x y z xs m zs →
        xs[j]? = some u → zs[j]? = some v → Shows map.cells u m v := by
  obtain ⟨map, biny, -, e, e1, e2, -⟩ := pcolor_ok h clims
  refine ⟨map, e, ?_⟩
  obtain ⟨biny', e1', l, b1, b2⟩ := edges_sep (ms := ms) (by rw [h.same]; exact h.two) h.increasing
  have : biny' = biny := by have := e1'.symm.trans e1; injection this
  subst this
  obtain ⟨cells, e3, mem⟩ := allCells_ok d biny' ms l h.same h.rows
  have : cells = map.cells := by have := e3.symm.trans e2; injection this
  subst this
  intro i j s m u v xs zs hs hm hr hu hv
  obtain ⟨es, f1, f2, f3, f4⟩ := edges_sep hr.two hr.increasing
  have hi := (List.getElem?_eq_some_iff.1 hm).1
  have hj := (List.getElem?_eq_some_iff.1 hu).1
  have ga : biny'[i]? = some biny'[i] := List.getElem?_eq_getElem (by omega)
  have gb : biny'[i + 1]? = some biny'[i + 1] := List.getElem?_eq_getElem (by omega)
  have ea : es[j]? = some es[j] := List.getElem?_eq_getElem (by omega)
  have eb : es[j + 1]? = some es[j + 1] := List.getElem?_eq_getElem (by omega)
  constructor
  · refine ⟨⟨es[j], es[j + 1], biny'[i], m, v⟩, (mem _).2 ⟨i, s, m, _, _, xs, zs, es, hs, hm, ga, gb, hr, f1, Or.inl ?_⟩, ?_, rfl⟩
    · exact mem_rowCells.2 ⟨j, _, _, v, ea, eb, hv, rfl⟩
    · exact (Cell.contains_iff ((f3 j u _ hu ea).le.trans (f4 j u _ hu eb).le) (b1 i m _ hm ga).le u m).2
        ⟨(f3 j u _ hu ea).le, (f4 j u _ hu eb).le, (b1 i m _ hm ga).le, le_refl m⟩
  · intro c hc k
    obtain ⟨i', s', m', a, b, xs', zs', es', h1, h2, h3, h4, h5, h6, h7⟩ := (mem c).1 hc
    have ia := b1 i' m' a h2 h3
    have ib := b2 i' m' b h2 h4
    have inside : c.y0 ≤ c.y1 ∧ c.x0 ≤ c.x1 ∧ a ≤ c.y0 ∧ c.y1 ≤ b := by
      obtain ⟨es2, q1, q2, q3, q4⟩ := edges_sep h5.two h5.increasing
      have : es2 = es' := by have := q1.symm.trans h6; injection this
      subst this
      have wide : ∀ {j' : ℕ} {a' b' : ℝ}, es2[j']? = some a' → es2[j' + 1]? = some b' → a' ≤ b' := by
        intro j' a' b' g1 g2
        have hj' := (List.getElem?_eq_some_iff.1 g2).1
        have hx : xs'[j']? = some (xs'[j']'(by omega)) := List.getElem?_eq_getElem (by omega)
        exact (q3 j' _ _ hx g1).le.trans (q4 j' _ _ hx g2).le
      rcases h7 with h7 | h7 <;> obtain ⟨j', a', b', v', g1, g2, -, rfl⟩ := mem_rowCells.1 h7
      · exact ⟨ia.le, wide g1 g2, le_refl a, ib.le⟩
      · exact ⟨ib.le, wide g1 g2, ia.le, le_refl b⟩
    rw [Cell.contains_iff inside.2.1 inside.1] at k
    have : i' = i := own_interval h.increasing l b1 b2 hm h3 h4 (inside.2.2.1.trans k.2.2.1) (k.2.2.2.trans inside.2.2.2)
    subst this
    have : s' = s := by rw [hs] at h1; injection h1 with h1; exact h1.symm
    subst this
    have : xs' = xs := by have := h5.x.symm.trans hr.x; injection this
    subst this
    have : zs' = zs := by have := h5.z.symm.trans hr.z; injection this
    subst this
    have : es' = es := by have := h6.symm.trans f1; injection this
    subst this
    rcases h7 with h7 | h7 <;> obtain ⟨j', a', b', v', g1, g2, g3, rfl⟩ := mem_rowCells.1 h7
    · have : j' = j := own_interval hr.increasing f2 f3 f4 hu g1 g2 k.1 k.2.1
      subst this
      rw [hv] at g3; injection g3 with g3; exact g3.symm
    · have : j' = j := own_interval hr.increasing f2 f3 f4 hu g1 g2 k.1 k.2.1
      subst this
      rw [hv] at g3; injection g3 with g3; exact g3.symm

/-- **C172** (partial): limits that are given are taken. -/
theorem C172_given_partial {d : List Columns} {x y z : String} {ms : List ℝ} (h : Drawable d x y z ms) (lo hi : ℝ) :
    ∃ map, pcolor (some d) x y z (some (lo, hi)) = .ok map ∧ map.low = lo ∧ map.high = hi := by
  obtain ⟨map, biny, zs, e, -, -, -, -, -, k⟩ := pcolor_ok h (some (lo, hi))
  unfold limits at k
  injection k with k
  exact ⟨map, e, (congrArg Prod.fst k).symm, (congrArg Prod.snd k).symm⟩

/-- Specification: the values that are drawn. -/
def Values (d : List Columns) (z : String) : Set ℝ := {v | ∃ s ∈ d, ∃ zs, s z = some zs ∧ v ∈ zs}

/-- What the loop over the scans finds. -/
lemma stretch_all {zs : List (List ℝ)} {a b lo hi : ℝ} (h : zs.foldlM stretch (a, b) = (.ok (lo, hi) : Except PlotErr _)) :
    (hi = b ∨ ∃ z ∈ zs, hi ∈ z) ∧ b ≤ hi ∧ (∀ z ∈ zs, ∀ v ∈ z, v ≤ hi) ∧
    (lo = a ∨ ∃ z ∈ zs, lo ∈ z) ∧ lo ≤ a ∧ ∀ z ∈ zs, (∀ v ∈ z, 0 < v) → ∀ v ∈ z, lo ≤ v := by
  induction zs generalizing a b with
  | nil =>
    simp only [List.foldlM_nil] at h
    cases h
    simp
  | cons z zs ih =>
    rw [List.foldlM_cons] at h
    unfold stretch at h
    cases e1 : z.min? with
    | none => rw [e1] at h; simp [bind, Except.bind] at h
    | some minz =>
      cases e2 : z.max? with
      | none => rw [e1, e2] at h; simp [bind, Except.bind] at h
      | some maxz =>
        rw [e1, e2] at h
        obtain ⟨i1, i2, i3, i4, i5, i6⟩ := ih (show zs.foldlM stretch (_, _) = _ from h)
        obtain ⟨mem1, le1⟩ := List.min?_eq_some_iff.1 e1
        obtain ⟨mem2, le2⟩ := List.max?_eq_some_iff.1 e2
        have bm : b ≤ hi ∧ maxz ≤ hi := by
          split_ifs at i2 with c
          · exact ⟨by linarith, i2⟩
          · exact ⟨i2, by linarith [not_lt.1 c]⟩
        refine ⟨?_, bm.1, ?_, ?_, ?_, ?_⟩
        · rcases i1 with i1 | ⟨w, hw, i1⟩
          · split_ifs at i1
            · exact Or.inr ⟨z, by simp, i1 ▸ mem2⟩
            · exact Or.inl i1
          · exact Or.inr ⟨w, by simp [hw], i1⟩
        · intro w hw v hv
          rcases List.mem_cons.1 hw with rfl | hw
          · exact (le2 v hv).trans bm.2
          · exact i3 w hw v hv
        · rcases i4 with i4 | ⟨w, hw, i4⟩
          · split_ifs at i4
            · exact Or.inr ⟨z, by simp, i4 ▸ mem1⟩
            · exact Or.inl i4
          · exact Or.inr ⟨w, by simp [hw], i4⟩
        · split_ifs at i5 with c
          · linarith [c.1]
          · exact i5
        · intro w hw pos v hv
          rcases List.mem_cons.1 hw with rfl | hw
          · have p := pos _ mem1
            refine le_trans ?_ (le1 v hv)
            split_ifs at i5 with c
            · exact i5
            · exact i5.trans (not_lt.1 fun q => c ⟨q, p⟩)
          · exact i6 w hw pos v hv

/-- **C172** (partial): if all values are positive and one of them is at most 1, the limits of the colour scale are the least and the
greatest value.  Missing: other values (`C172_scale_false`, `C172_zero_false`). -/
theorem C172_scale_partial {d : List Columns} {x y z : String} {ms : List ℝ} (h : Drawable d x y z ms)
    (pos : ∀ v ∈ Values d z, 0 < v) (small : ∃ v ∈ Values d z, v ≤ 1) :
    ∃ map, pcolor (some d) x y z none = .ok map ∧ IsLeast (Values d z) map.low ∧ IsGreatest (Values d z) map.high := by
  obtain ⟨map, -, zs, e, -, -, e1, l, r, k⟩ := pcolor_ok h none
  refine ⟨map, e, ?_⟩
  unfold limits at k
  obtain ⟨i1, i2, i3, i4, i5, i6⟩ := stretch_all k
  have inv : ∀ w ∈ zs, ∃ s ∈ d, s z = some w := by
    intro w hw
    obtain ⟨i, hi⟩ := List.mem_iff_getElem?.1 hw
    have hl := (List.getElem?_eq_some_iff.1 hi).1
    have hd : i < d.length := by omega
    exact ⟨d[i], List.getElem_mem _, by rw [← r i d[i] (List.getElem?_eq_getElem hd), hi]⟩
  have val : ∀ w ∈ zs, ∀ v ∈ w, v ∈ Values d z := fun w hw v hv => by
    obtain ⟨s, hs, e⟩ := inv w hw; exact ⟨s, hs, w, e, hv⟩
  have lav : ∀ v ∈ Values d z, ∃ w ∈ zs, v ∈ w := by
    rintro v ⟨s, hs, w, e, hv⟩
    obtain ⟨i, hi⟩ := List.mem_iff_getElem?.1 hs
    exact ⟨w, List.mem_of_getElem? ((r i s hi).trans e), hv⟩
  obtain ⟨v0, hv0, le0⟩ := small
  have low : ∀ v ∈ Values d z, map.low ≤ v := fun v hv => by
    obtain ⟨w, hw, hv'⟩ := lav v hv
    exact i6 w hw (fun u hu => pos u (val w hw u hu)) v hv'
  have high : ∀ v ∈ Values d z, v ≤ map.high := fun v hv => by
    obtain ⟨w, hw, hv'⟩ := lav v hv
    exact i3 w hw v hv'
  refine ⟨⟨?_, low⟩, ⟨?_, high⟩⟩
  · rcases i4 with i4 | ⟨w, hw, i4⟩
    · have : v0 = map.low := le_antisymm (by rw [i4]; exact le0) (low v0 hv0)
      rw [← this]; exact hv0
    · exact val w hw _ i4
  · rcases i1 with i1 | ⟨w, hw, i1⟩
    · have := high v0 hv0
      have := pos v0 hv0
      linarith
    · exact val w hw _ i1

/-- **C172 is false** in full: if all values are above 1 the scale begins at 1 and not at the least value. -/
theorem C172_scale_false {d : List Columns} {x y z : String} {ms : List ℝ} (h : Drawable d x y z ms) (big : ∀ v ∈ Values d z, 1 < v) :
    ∃ map, pcolor (some d) x y z none = .ok map ∧ map.low = 1 ∧ ¬ IsLeast (Values d z) map.low := by
  obtain ⟨map, -, zs, e, -, -, e1, l, r, k⟩ := pcolor_ok h none
  unfold limits at k
  obtain ⟨-, -, -, i4, i5, -⟩ := stretch_all k
  have val : ∀ w ∈ zs, ∀ v ∈ w, v ∈ Values d z := fun w hw v hv => by
    obtain ⟨i, hi⟩ := List.mem_iff_getElem?.1 hw
    have hl := (List.getElem?_eq_some_iff.1 hi).1
    have hd : i < d.length := by omega
    exact ⟨d[i], List.getElem_mem _, w, by rw [← r i d[i] (List.getElem?_eq_getElem hd), hi], hv⟩
  have e2 : map.low = 1 := by
    rcases i4 with i4 | ⟨w, hw, i4⟩
    · exact i4
    · have := big _ (val w hw _ i4); linarith
  refine ⟨map, e, e2, fun c => ?_⟩
  have := big _ c.1
  linarith

/-- A scan with the columns `x`, `y` and `z`. -/
def scan (xs ys zs : List ℝ) : Columns := fun n => if n = "x" then some xs else if n = "y" then some ys else if n = "z" then some zs else none

lemma row_scan {xs zs : List ℝ} {m : ℝ} (ys : List ℝ) (hm : mean ys = m) (same : zs.length = xs.length) (two : 2 ≤ xs.length)
    (inc : xs.Pairwise (· < ·)) : Row (scan xs ys zs) "x" "y" "z" xs m zs :=
  ⟨by simp [scan], by simp [scan], ⟨ys, by simp [scan], hm⟩, same, two, inc⟩

/-- Two scans of counts. -/
lemma drawable_two (a b c e : ℝ) :
    Drawable [scan [0, 1] [2, 2] [a, b], scan [0, 1] [3, 3] [c, e]] "x" "y" "z" [2, 3] := by
  refine ⟨by simp, rfl, ?_, by norm_num [List.pairwise_cons]⟩
  intro i s m hs hm
  match i with
  | 0 =>
    simp only [List.getElem?_cons_zero, Option.some.injEq] at hs hm
    subst hs hm
    exact ⟨_, _, row_scan _ (by norm_num [mean]) rfl (by simp) (by norm_num [List.pairwise_cons])⟩
  | 1 =>
    simp only [List.getElem?_cons_succ, List.getElem?_cons_zero, Option.some.injEq] at hs hm
    subst hs hm
    exact ⟨_, _, row_scan _ (by norm_num [mean]) rfl (by simp) (by norm_num [List.pairwise_cons])⟩
  | i + 2 => simp at hs

/-- Values as in the theorems above: positive with a small one, and all large. -/
example : (∀ v ∈ Values [scan [0, 1] [2, 2] [1 / 2, 7], scan [0, 1] [3, 3] [5, 6]] "z", (0 : ℝ) < v) ∧
    (∀ v ∈ Values [scan [0, 1] [2, 2] [4, 7], scan [0, 1] [3, 3] [5, 6]] "z", (1 : ℝ) < v) := by
  constructor <;>
  · rintro v ⟨s, hs, zs, e, hv⟩
    simp only [List.mem_cons, List.not_mem_nil, or_false] at hs
    rcases hs with rfl | rfl <;> simp [scan] at e <;> subst e <;> simp at hv <;> rcases hv with rfl | rfl <;> norm_num

/-- **C172 is false** in full: a scan with a value that is zero is left out when the least positive value is looked for: with the values
0, 1/2 and 1, 2 the scale begins at 1, above a positive value (which a logarithmic scale does not show). -/
theorem C172_zero_false :
    ∃ map, pcolor (some [scan [0, 1] [2, 2] [0, 1 / 2], scan [0, 1] [3, 3] [1, 2]]) "x" "y" "z" none = .ok map ∧ map.low = 1 ∧
      ∃ v ∈ Values [scan [0, 1] [2, 2] [0, 1 / 2], scan [0, 1] [3, 3] [1, 2]] "z", 0 < v ∧ v < map.low := by
  obtain ⟨map, -, zs, e, -, -, e1, l, r, k⟩ := pcolor_ok (drawable_two 0 (1 / 2) 1 2) none
  have hz : zs = [[0, 1 / 2], [1, 2]] := by
    have : ([scan [0, 1] [2, 2] [0, 1 / 2], scan [0, 1] [3, 3] [1, 2]] : List Columns).mapM (fun s => s.get "z") =
      (.ok [[0, 1 / 2], [1, 2]] : Except PlotErr _) := by
      simp [scan, Columns.get, bind, Except.bind, pure, Except.pure]
    rw [this] at e1
    injection e1 with e1
    exact e1.symm
  subst hz
  have e2 : map.low = 1 := by
    have : limits none [[0, 1 / 2], [1, 2]] = .ok ((1 : ℝ), (2 : ℝ)) := by
      norm_num [limits, stretch, List.min?, List.max?, bind, Except.bind, pure, Except.pure]
    rw [this] at k
    injection k with k
    exact (congrArg Prod.fst k).symm
  refine ⟨map, e, e2, 1 / 2, ⟨scan [0, 1] [2, 2] [0, 1 / 2], by simp, [0, 1 / 2], by simp [scan], by simp⟩, by norm_num, by rw [e2]; norm_num⟩

/-- **C172 is false** in full: a single scan at zero is drawn with cells of no height. -/
theorem C172_single_false (a b : ℝ) :
    ∃ map, pcolor (some [scan [0, 1] [0, 0] [a, b]]) "x" "y" "z" (some (0, 1)) = .ok map ∧ ∀ c ∈ map.cells, c.y0 = c.y1 := by
  have m0 : mean [0, 0] = 0 := by norm_num [mean]
  obtain ⟨es, -, hs⟩ := scanCells_ok (row_scan (xs := [0, 1]) (zs := [a, b]) [0, 0] m0 rfl (by simp) (by norm_num [List.pairwise_cons])) 0 0
  refine ⟨⟨rowCells 0 0 es [a, b] ++ rowCells 0 0 es [a, b] ++ [], 0, 1⟩, ?_, ?_⟩
  · have k1 : ([scan [0, 1] [0, 0] [a, b]] : List Columns).mapM (fun s => s.get "y") = (.ok [[0, 0]] : Except PlotErr _) := by
      simp [scan, Columns.get, bind, Except.bind, pure, Except.pure]
    have k2 : ([scan [0, 1] [0, 0] [a, b]] : List Columns).mapM (fun s => s.get "z") = (.ok [[a, b]] : Except PlotErr _) := by
      simp [scan, Columns.get, bind, Except.bind, pure, Except.pure]
    have k3 : edges ([[0, 0]].map mean) = .ok [(0 : ℝ), 0] := by
      simp only [List.map_cons, List.map_nil, m0, edges]; norm_num
    refine pcolor_eq k1 k3 k2 rfl ?_
    simp only [List.map_cons, List.map_nil, m0, allCells, hs]
    rfl
  · intro c hc
    simp only [List.append_nil, List.mem_append, or_self] at hc
    obtain ⟨j, a', b', v', -, -, -, rfl⟩ := mem_rowCells.1 hc
    rfl

/-- **C172 is false** in full: if the coordinates of the scans do not increase, a datum may be covered by the cells of another scan: for
scans at 0, 10 and 1 the cells of the last contain the place of the first. -/
theorem C172_order_false (a b : ℝ) (hab : a ≠ b) :
    ∃ map, pcolor (some [scan [0, 1] [0, 0] [a, a], scan [0, 1] [10, 10] [a, a], scan [0, 1] [1, 1] [b, b]]) "x" "y" "z" (some (0, 1)) =
      .ok map ∧ ¬ Shows map.cells 0 0 a := by
  have inc : ([0, 1] : List ℝ).Pairwise (· < ·) := by norm_num [List.pairwise_cons]
  have two : 2 ≤ ([0, 1] : List ℝ).length := by simp
  have m0 : mean [0, 0] = 0 := by norm_num [mean]
  have m1 : mean [10, 10] = 10 := by norm_num [mean]
  have m2 : mean [1, 1] = 1 := by norm_num [mean]
  obtain ⟨es0, t0, h0⟩ := scanCells_ok (row_scan (xs := [0, 1]) (zs := [a, a]) _ m0 rfl two inc) (-5) 5
  obtain ⟨es1, t1, h1⟩ := scanCells_ok (row_scan (xs := [0, 1]) (zs := [a, a]) _ m1 rfl two inc) 5 (11 / 2)
  obtain ⟨es2, t2, h2⟩ := scanCells_ok (row_scan (xs := [0, 1]) (zs := [b, b]) _ m2 rfl two inc) (11 / 2) (-7 / 2)
  have k1 : ([scan [0, 1] [0, 0] [a, a], scan [0, 1] [10, 10] [a, a], scan [0, 1] [1, 1] [b, b]] : List Columns).mapM (fun s => s.get "y") =
      (.ok [[0, 0], [10, 10], [1, 1]] : Except PlotErr _) := by
    simp [scan, Columns.get, bind, Except.bind, pure, Except.pure]
  have k2 : ([scan [0, 1] [0, 0] [a, a], scan [0, 1] [10, 10] [a, a], scan [0, 1] [1, 1] [b, b]] : List Columns).mapM (fun s => s.get "z") =
      (.ok [[a, a], [a, a], [b, b]] : Except PlotErr _) := by
    simp [scan, Columns.get, bind, Except.bind, pure, Except.pure]
  have k3 : edges ([[0, 0], [10, 10], [1, 1]].map mean) = .ok [-5, 5, 11 / 2, -7 / 2] := by
    simp only [List.map_cons, List.map_nil, m0, m1, m2, edges]; norm_num
  refine ⟨_, pcolor_eq k1 k3 k2 rfl (cells := (rowCells (-5) 0 es0 [a, a] ++ rowCells 0 5 es0 [a, a]) ++
    ((rowCells 5 10 es1 [a, a] ++ rowCells 10 (11 / 2) es1 [a, a]) ++
    ((rowCells (11 / 2) 1 es2 [b, b] ++ rowCells 1 (-7 / 2) es2 [b, b]) ++ []))) ?_, ?_⟩
  · simp only [List.map_cons, List.map_nil, m0, m1, m2, allCells, h0, h1, h2]
    rfl
  · rintro ⟨-, all⟩
    have e2 : es2 = [-1 / 2, 1 / 2, 3 / 2] := by
      have : edges [(0 : ℝ), 1] = .ok [-1 / 2, 1 / 2, 3 / 2] := by
        simp only [edges]; norm_num
      rw [this] at t2; injection t2 with t2; exact t2.symm
    have := all ⟨-1 / 2, 1 / 2, 1, -7 / 2, b⟩ (by
      simp only [List.mem_append]
      refine Or.inr (Or.inr (Or.inl (Or.inr (mem_rowCells.2 ⟨0, _, _, b, ?_, ?_, rfl, rfl⟩)))) <;> rw [e2] <;> rfl)
      (by norm_num [Cell.Contains])
    exact hab this.symm

end Verif.Data.Scans.Plot
