import Verif.Data.CombineRefine
import Mathlib.Algebra.BigOperators.Group.List.Basic
import Mathlib.Data.List.Nodup
import Mathlib.Tactic.Ring

set_option linter.unusedSectionVars false

/-! Facts about the row-wise merge, and the passage from rows back to columns. -/

namespace Verif.Data

variable {α β γ : Type} [Field α] [LinearOrder α]

/-- Position of a column among the columns selected by `p`. -/
def colIdx (p : String → Bool) (keys : List String) (k : String) : Nat := (keys.filter p).idxOf k

theorem valuesAt_colIdx {p : String → Bool} {t : Table α} {k : String} {c : List α}
    (hp : p k = true) (hl : t.lookup k = some c) (i : Nat) :
    (valuesAt (t.filter fun d => p d.1) i).getD (colIdx p (t.map Prod.fst) k) 0 = c.getD i 0 := by
  induction t with
  | nil => simp at hl
  | cons d t ih =>
    obtain ⟨k', c'⟩ := d
    by_cases hk : k' = k
    · subst hk
      simp only [List.lookup_cons_self, Option.some.injEq] at hl
      subst hl
      simp [colIdx, hp, valuesAt]
    · have hl' : t.lookup k = some c := by
        rw [List.lookup_cons] at hl
        have : (k == k') = false := by simpa using fun h => hk h.symm
        rwa [this] at hl
      have := ih hl'
      by_cases hp' : p k' = true
      · simp only [colIdx, List.map_cons, List.filter_cons, hp', if_true, valuesAt] at this ⊢
        rw [List.idxOf_cons_ne _ hk]
        simpa using this
      · simp only [colIdx, List.map_cons, List.filter_cons, hp', valuesAt] at this ⊢
        simpa using this

/-- Value of count column `k` in a row. -/
def countAt (dk : DataKeys) (keys : List String) (k : String) (r : Row α) : α :=
  r.counts.getD (colIdx (fun k => decide (k ∈ dk.values)) keys k) 0

/-- Value of coordinate column `k` in a row. -/
def coordAt (dk : DataKeys) (keys : List String) (k : String) (r : Row α) : α :=
  r.coord.getD (colIdx (fun k => decide (k ∉ dk.values)) keys k) 0

theorem list_eq_map_getD {c : List α} {n : Nat} (h : c.length = n) :
    c = (List.range n).map (fun i => c.getD i 0) := by
  apply List.ext_getElem
  · simp [h]
  · intro i h1 h2
    simp [List.getD_eq_getElem?_getD, h1]

theorem column_counts {dk : DataKeys} {t : Table α} {n : Nat} {k : String} {c : List α}
    (hk : k ∈ dk.values) (hr : Rect n t) (hl : t.lookup k = some c) :
    c = (rowsOf dk n t).map (countAt dk (t.map Prod.fst) k) := by
  have hc : c.length = n := by
    have : k ∈ t.map Prod.fst := by
      by_contra h
      rw [List.lookup_eq_none_iff.2] at hl
      · cases hl
      · intro p hp
        simp only [List.mem_map, not_exists, not_and] at h
        simpa using fun e => h p hp e.symm
    obtain ⟨d, h1, h2⟩ := lookup_rect hr this
    rw [hl] at h1; cases h1; exact h2
  conv_lhs => rw [list_eq_map_getD hc]
  rw [rowsOf, List.map_map]
  apply List.map_congr_left
  intro i _
  exact (valuesAt_colIdx (p := fun k => decide (k ∈ dk.values)) (by simpa using hk) hl i).symm

theorem column_coords {dk : DataKeys} {t : Table α} {n : Nat} {k : String} {c : List α}
    (hk : k ∉ dk.values) (hr : Rect n t) (hl : t.lookup k = some c) :
    c = (rowsOf dk n t).map (coordAt dk (t.map Prod.fst) k) := by
  have hc : c.length = n := by
    have : k ∈ t.map Prod.fst := by
      by_contra h
      rw [List.lookup_eq_none_iff.2] at hl
      · cases hl
      · intro p hp
        simp only [List.mem_map, not_exists, not_and] at h
        simpa using fun e => h p hp e.symm
    obtain ⟨d, h1, h2⟩ := lookup_rect hr this
    rw [hl] at h1; cases h1; exact h2
  conv_lhs => rw [list_eq_map_getD hc]
  rw [rowsOf, List.map_map]
  apply List.map_congr_left
  intro i _
  exact (valuesAt_colIdx (p := fun k => decide (k ∉ dk.values)) (by simpa using hk) hl i).symm

/-- A table is determined by its column names and its rows. -/
theorem table_ext {dk : DataKeys} {t u : Table α} {n m : Nat}
    (hk : t.map Prod.fst = u.map Prod.fst) (hn : (t.map Prod.fst).Nodup)
    (ht : Rect n t) (hu : Rect m u) (hrows : rowsOf dk n t = rowsOf dk m u) : t = u := by
  have hlen : t.length = u.length := by simpa using congrArg List.length hk
  apply List.ext_getElem hlen
  intro i h1 h2
  have hk1 : (t[i]).1 = (u[i]).1 := by
    have := congrArg (fun l => l[i]?) hk
    simpa [h1, h2] using this
  apply Prod.ext hk1
  have l1 := lookup_eq_of_mem hn (List.getElem_mem h1)
  have l2 := lookup_eq_of_mem (hk ▸ hn) (List.getElem_mem h2)
  by_cases hc : (t[i]).1 ∈ dk.values
  · rw [column_counts hc ht l1, column_counts (hk1 ▸ hc) hu l2, hrows, hk, hk1]
  · rw [column_coords hc ht l1, column_coords (hk1 ▸ hc) hu l2, hrows, hk, hk1]

theorem rowsOf_counts_length {dk : DataKeys} {n : Nat} {t : Table α} {r : Row α}
    (h : r ∈ rowsOf dk n t) :
    r.counts.length = ((t.map Prod.fst).filter (fun k => decide (k ∈ dk.values))).length := by
  simp only [rowsOf, List.mem_map] at h
  obtain ⟨i, _, rfl⟩ := h
  simp only [valuesAt, List.length_map, List.filter_map]
  rfl

theorem rowsOf_coord_length {dk : DataKeys} {n : Nat} {t : Table α} {r : Row α}
    (h : r ∈ rowsOf dk n t) :
    r.coord.length = ((t.map Prod.fst).filter (fun k => decide (k ∉ dk.values))).length := by
  simp only [rowsOf, List.mem_map] at h
  obtain ⟨i, _, rfl⟩ := h
  simp only [valuesAt, List.length_map, List.filter_map]
  rfl

theorem getD_zipWith_add {xs ys : List α} (h : xs.length = ys.length) (i : Nat) :
    (List.zipWith (· + ·) xs ys).getD i 0 = xs.getD i 0 + ys.getD i 0 := by
  by_cases hi : i < xs.length
  · simp [List.getD_eq_getElem?_getD, hi, h ▸ hi]
  · have h2 : ¬ i < ys.length := h ▸ hi
    simp [List.getD_eq_getElem?_getD, hi, h2]

theorem foldl_add_coord (B : List (Row α)) (a : Row α) : (B.foldl Row.add a).coord = a.coord := by
  induction B generalizing a with
  | nil => rfl
  | cons b B ih => rw [List.foldl_cons, ih]; rfl

theorem foldl_add_counts_length {m : Nat} (B : List (Row α)) (a : Row α)
    (ha : a.counts.length = m) (hB : ∀ b ∈ B, b.counts.length = m) :
    (B.foldl Row.add a).counts.length = m := by
  induction B generalizing a with
  | nil => exact ha
  | cons b B ih =>
    rw [List.foldl_cons]
    exact ih _ (by simp [Row.add, ha, hB b (by simp)]) (fun b' h => hB b' (by simp [h]))

theorem foldl_add_count {m : Nat} (i : Nat) (B : List (Row α)) (a : Row α)
    (ha : a.counts.length = m) (hB : ∀ b ∈ B, b.counts.length = m) :
    (B.foldl Row.add a).counts.getD i 0
      = a.counts.getD i 0 + (B.map fun b => b.counts.getD i 0).sum := by
  induction B generalizing a with
  | nil => simp
  | cons b B ih =>
    have hb := hB b (by simp)
    rw [List.foldl_cons, ih _ (by simp [Row.add, ha, hb]) (fun b' h => hB b' (by simp [h]))]
    simp only [Row.add, List.map_cons, List.sum_cons]
    rw [getD_zipWith_add (by rw [ha, hb]), add_assoc]

theorem specMerge_counts_length {m : Nat} (tols : List α) (A B : List (Row α))
    (hA : ∀ a ∈ A, a.counts.length = m) (hB : ∀ b ∈ B, b.counts.length = m) :
    ∀ r ∈ specMerge tols A B, r.counts.length = m := by
  intro r hr
  simp only [specMerge, List.mem_append, List.mem_mapIdx, List.mem_filter] at hr
  rcases hr with ⟨j, hj, rfl⟩ | ⟨hb, _⟩
  · exact foldl_add_counts_length _ _ (hA _ (List.getElem_mem _))
      (fun b hb => hB b (List.mem_of_mem_filter hb))
  · exact hB _ hb

theorem sum_modify_add (f : Row α → α) (R : List (Row α)) (j : Nat) (g : Row α → Row α) (d : α)
    (hj : j < R.length) (hg : ∀ r ∈ R, f (g r) = f r + d) :
    ((R.modify j g).map f).sum = (R.map f).sum + d := by
  induction R generalizing j with
  | nil => simp at hj
  | cons r R ih =>
    cases j with
    | zero => simp [hg r (by simp)]; ring
    | succ j =>
      have := ih j (by simpa using hj) (fun r' h => hg r' (by simp [h]))
      simp [this]; ring

theorem sum_specMerge {m : Nat} (i : Nat) (tols : List α) (A B : List (Row α))
    (hA : ∀ a ∈ A, a.counts.length = m) (hB : ∀ b ∈ B, b.counts.length = m) :
    ((specMerge tols A B).map fun r => r.counts.getD i 0).sum
      = (A.map fun r => r.counts.getD i 0).sum + (B.map fun r => r.counts.getD i 0).sum := by
  induction B using List.reverseRecOn with
  | nil => simp [specMerge, mapIdx_id]
  | append_singleton B b ih =>
    have hB' : ∀ b ∈ B, b.counts.length = m := fun b' h => hB b' (by simp [h])
    have hb : b.counts.length = m := hB b (by simp)
    specialize ih hB'
    rw [← mergeStep_spec]
    unfold mergeStep
    cases h : firstNear tols A b with
    | none =>
      simp only [List.map_append, List.sum_append, ih, List.map_cons, List.map_nil]
      rw [add_assoc]
    | some j =>
      have hj := firstNear_lt h
      have hge := length_specMerge_ge tols A B
      simp only
      rw [sum_modify_add (fun r => r.counts.getD i 0) _ j _ (b.counts.getD i 0) (by omega)]
      · rw [ih]; simp; ring
      · intro r hr
        have := specMerge_counts_length tols A B hA hB' r hr
        simp only [Row.add]
        rw [getD_zipWith_add (by rw [this, hb])]

theorem firstNear_none {tols : List α} {A : List (Row α)} {b : Row α} :
    firstNear tols A b = none ↔ ∀ a ∈ A, ¬ Near tols a b := by
  simp [firstNear, List.findIdx?_eq_none_iff]

theorem firstNear_some {tols : List α} {A : List (Row α)} {b : Row α} {j : Nat} :
    firstNear tols A b = some j ↔
      ∃ h : j < A.length, Near tols A[j] b ∧ ∀ j' (h' : j' < j), ¬ Near tols A[j'] b := by
  simp [firstNear, List.findIdx?_eq_some_iff_getElem]

theorem rowLe_trans (a b c : Row α) (h1 : rowLe a b = true) (h2 : rowLe b c = true) :
    rowLe a c = true := by
  simp only [rowLe, lexLe_iff] at *
  rcases h1 with h1 | h1
  · rw [h1]; exact h2
  · rcases h2 with h2 | h2
    · rw [← h2]; exact Or.inr h1
    · exact Or.inr (List.lex_trans (fun h h' => lt_trans h h') h1 h2)

theorem rowLe_total (a b : Row α) : (rowLe a b || rowLe b a) = true := by
  simp only [rowLe, Bool.or_eq_true, lexLe_iff]
  rcases trichotomous_of (List.Lex (· < ·)) a.coord.reverse b.coord.reverse with h | h | h
  · exact Or.inl (Or.inr h)
  · exact Or.inl (Or.inl h)
  · exact Or.inr (Or.inr h)

theorem pairwise_sorted (R : List (Row α)) : (isort rowLe R).Pairwise CoordLe := by
  have := isort_pairwise (le := rowLe) rowLe_trans rowLe_total R
  exact this.imp (fun h => (rowLe_iff _ _).1 h)

/-- Stability: rows with equal coordinates keep their relative order. -/
theorem stable_sort (R : List (Row α)) (c : List α) :
    (isort rowLe R).filter (fun r => decide (r.coord = c))
      = R.filter (fun r => decide (r.coord = c)) := by
  apply isort_filter
  intro a b ha hb
  simp only [decide_eq_true_eq] at ha hb
  rw [rowLe_iff, CoordLe, ha, hb]
  exact Or.inl rfl

end Verif.Data
