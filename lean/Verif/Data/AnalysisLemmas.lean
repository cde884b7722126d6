import Verif.Data.Analysis
import Verif.Data.BinLemmas
import Mathlib.Algebra.BigOperators.Group.List.Basic
import Mathlib.Algebra.BigOperators.Intervals
import Mathlib.Algebra.BigOperators.Ring.Finset
import Mathlib.Algebra.Order.BigOperators.Group.Finset

set_option linter.unusedSectionVars false

/-!
# Specification and lemmas for integration, position and width
-/

namespace Verif.Data

open Finset

variable {α : Type} [Field α] [LinearOrder α]

/-- The trapezoidal rule for samples `y` at `x`. -/
def trapSum (x y : List α) : α :=
  ∑ i ∈ range (x.length - 1),
    (x.getD (i + 1) 0 - x.getD i 0) * (y.getD i 0 + y.getD (i + 1) 0) / 2

theorem trapz_eq {y x : List α} (h : y.length = x.length) : trapz y x = .ok (trapSum x y) := by
  unfold trapz
  rw [if_pos h]
  congr 1
  unfold trapSum
  induction x generalizing y with
  | nil =>
    have : y = [] := List.eq_nil_of_length_eq_zero h
    subst this; simp
  | cons a x ih =>
    match y, x with
    | [], _ => simp at h
    | [b], [] => simp
    | [b], _ :: _ => simp at h
    | b :: b' :: y, [] => simp at h
    | b :: b' :: y, a' :: x =>
      have ih := ih (y := b' :: y) (by simpa using h)
      simp only [List.tail_cons, List.zipWith_cons_cons, List.sum_cons] at ih ⊢
      rw [ih]
      simp only [List.length_cons, Nat.add_sub_cancel]
      rw [Finset.sum_range_succ' _ x.length]
      simp only [List.getD_cons_succ, List.getD_cons_zero, Nat.zero_add]
      rw [_root_.add_comm]
      congr 1
      ring

theorem trapSum_const (c : α) (n : Nat) (y : List α) : trapSum (List.replicate n c) y = 0 := by
  unfold trapSum
  apply Finset.sum_eq_zero
  intro i hi
  rw [Finset.mem_range, List.length_replicate] at hi
  rw [List.getD_eq_getElem _ _ (by simp; omega), List.getD_eq_getElem _ _ (by simp; omega)]
  simp

theorem getD_zipWith {β γ : Type} (f : α → β → γ) (zero : γ) (x : List α) (y : List β) (a : α) (b : β)
    (i : Nat) (hx : i < x.length) (hy : i < y.length) :
    (List.zipWith f x y).getD i zero = f (x.getD i a) (y.getD i b) := by
  rw [List.getD_eq_getElem _ _ (by simp; omega), List.getD_eq_getElem _ _ hx,
    List.getD_eq_getElem _ _ hy, List.getElem_zipWith]

/-- The rule is linear in the samples. -/
theorem trapSum_smul (x : List α) (c : α) {y : List α} (h : y.length = x.length) :
    trapSum x (y.map (c * ·)) = c * trapSum x y := by
  unfold trapSum
  rw [Finset.mul_sum]
  apply Finset.sum_congr rfl
  intro i hi
  rw [Finset.mem_range] at hi
  rw [List.getD_eq_getElem (y.map (c * ·)) _ (by simp; omega),
    List.getD_eq_getElem (y.map (c * ·)) _ (by simp; omega),
    List.getD_eq_getElem y _ (by omega), List.getD_eq_getElem y _ (by omega)]
  simp only [List.getElem_map]
  ring

theorem trapSum_congr {x y y' : List α} (h : ∀ i < x.length, y.getD i 0 = y'.getD i 0) :
    trapSum x y = trapSum x y' := by
  unfold trapSum
  apply Finset.sum_congr rfl
  intro i hi
  rw [Finset.mem_range] at hi
  rw [h i (by omega), h (i + 1) (by omega)]

theorem trapSum_add {x y z w : List α}
    (h : ∀ i < x.length, w.getD i 0 = y.getD i 0 + z.getD i 0) :
    trapSum x w = trapSum x y + trapSum x z := by
  unfold trapSum
  rw [← Finset.sum_add_distrib]
  apply Finset.sum_congr rfl
  intro i hi
  rw [Finset.mem_range] at hi
  rw [h i (by omega), h (i + 1) (by omega)]
  ring

/-- Shifting the axis does not change the rule. -/
theorem trapSum_shift (x y : List α) (t : α) : trapSum (x.map (· + t)) y = trapSum x y := by
  unfold trapSum
  rw [List.length_map]
  apply Finset.sum_congr rfl
  intro i hi
  rw [Finset.mem_range] at hi
  rw [List.getD_eq_getElem (x.map (· + t)) _ (by simp; omega),
    List.getD_eq_getElem (x.map (· + t)) _ (by simp; omega),
    List.getD_eq_getElem x _ (by omega), List.getD_eq_getElem x _ (by omega)]
  simp

/-- Monotone in the samples along an increasing axis. -/
theorem trapSum_le [IsStrictOrderedRing α] {x y z : List α}
    (hx : ∀ i, i + 1 < x.length → x.getD i 0 ≤ x.getD (i + 1) 0)
    (h : ∀ i < x.length, y.getD i 0 ≤ z.getD i 0) : trapSum x y ≤ trapSum x z := by
  unfold trapSum
  apply Finset.sum_le_sum
  intro i hi
  rw [Finset.mem_range] at hi
  have h1 := hx i (by omega)
  have h2 := h i (by omega)
  have h3 := h (i + 1) (by omega)
  have : (x.getD (i + 1) 0 - x.getD i 0) * (y.getD i 0 + y.getD (i + 1) 0) ≤
      (x.getD (i + 1) 0 - x.getD i 0) * (z.getD i 0 + z.getD (i + 1) 0) :=
    mul_le_mul_of_nonneg_left (by linarith) (by linarith)
  linarith

/-- Which points a `bounds` argument selects: with a mask those marked; without
one those with h ≠ 0. -/
inductive Selects (d : DataObj α) (n : Nat) : Option (List Bool) → List Nat → Prop
  | mask (b : List Bool) (hb : b.length = n) :
      Selects d n (some b) ((List.range n).filter fun i => b.getD i false)
  | all (h : List α) (hh : d.cols.lookup d.qk.h = some h) :
      Selects d n none ((List.range n).filter fun i => decide (h.getD i 0 ≠ 0))

/-- A data set with intensities `int` (per point) and background `β`, rectangular,
with distinct column names, all coordinate columns present and none of them a
count column. -/
structure Measured [FloorRing α] (d : DataObj α) (n : Nat) (bg : Bg α) (int : List α) (β : α) :
    Prop where
  rect : Rect n d.cols
  names : (d.cols.map Prod.fst).Nodup
  coords : ∀ k ∈ d.qk.values, k ∈ d.cols.map Prod.fst
  distinct : ∀ k ∈ d.qk.values, k ∉ d.dk.values
  counted : ∃ d', intensity d = .ok (int, d')
  len : int.length = n
  back : background int bg = .ok (some β)

variable [FloorRing α]

theorem Measured.lookup {d : DataObj α} {n : Nat} {bg : Bg α} {int : List α} {β : α}
    (h : Measured d n bg int β) {k : String} (hk : k ∈ d.cols.map Prod.fst) :
    ∃ c, d.cols.lookup k = some c ∧ c.length = n := by
  obtain ⟨c, hc, _, h3⟩ := lookup_isSome_of_mem_keys hk
  exact ⟨c.2, h3, h.rect c hc⟩

theorem getBounds_ok {d : DataObj α} {n : Nat} {bg : Bg α} {int : List α} {β : α}
    (h : Measured d n bg int β) {bounds : Option (List Bool)} {sel : List Nat}
    (hs : Selects d n bounds sel) : getBounds d bounds = .ok sel := by
  cases hs with
  | mask b hb =>
    simp only [getBounds, whereTrue, hb]
  | all c hc =>
    have hcols : d.qk.values.mapM d.cols.get =
        .ok (d.qk.values.map fun k => (d.cols.lookup k).getD []) := by
      apply mapM_ok
      intro k hk
      obtain ⟨c, hc, _⟩ := h.lookup (h.coords k hk)
      rw [get_eq_ok.2 hc, hc]; rfl
    have hlen : c.length = n := by
      obtain ⟨c', hc', hl⟩ := h.lookup (h.coords d.qk.h (by simp [QKeys.values]))
      rw [hc] at hc'; cases hc'; exact hl
    have hhead : (d.qk.values.map fun k => (d.cols.lookup k).getD []).headD [] = c := by
      simp [QKeys.values, hc]
    have hall : (d.qk.values.map fun k => (d.cols.lookup k).getD []).all
        (fun col => col.length = c.length) = true := by
      rw [List.all_map, List.all_eq_true]
      intro k hk
      obtain ⟨c', hc', hl⟩ := h.lookup (h.coords k hk)
      simp [hc', hl, hlen]
    unfold getBounds
    rw [hcols, ok_bind]
    simp only [hhead, hall, if_true]
    rw [pure_ok]
    congr 1
    unfold whereTrue
    rw [List.length_map, hlen]
    apply List.filter_congr
    intro i hi
    have hi' : i < c.length := by rw [hlen]; exact List.mem_range.1 hi
    rw [List.getD_eq_getElem _ _ (by simpa using hi'), List.getElem_map,
      List.getD_eq_getElem _ _ hi']

theorem sel_lt {d : DataObj α} {n : Nat} {bounds : Option (List Bool)} {sel : List Nat}
    (hs : Selects d n bounds sel) : ∀ i ∈ sel, i < n := by
  intro i hi
  cases hs with
  | mask b hb => exact List.mem_range.1 (List.mem_filter.1 hi).1
  | all c hc => exact List.mem_range.1 (List.mem_filter.1 hi).1

/-- Selected background-corrected intensities. -/
def net (int : List α) (β : α) (sel : List Nat) : List α := sel.map fun i => int.getD i 0 - β

/-- Selected values of a column. -/
def column (d : DataObj α) (sel : List Nat) (k : String) : List α :=
  sel.map fun i => ((d.cols.lookup k).getD []).getD i 0

theorem netIntensity_ok {d : DataObj α} {n : Nat} {bg : Bg α} {int : List α} {β : α}
    (h : Measured d n bg int β) {bounds : Option (List Bool)} {sel : List Nat}
    (hs : Selects d n bounds sel) : netIntensity d bounds bg = .ok (some (net int β sel)) := by
  obtain ⟨d', hi⟩ := h.counted
  unfold netIntensity net
  rw [hi, ok_bind]
  simp only [getBounds_ok h hs, ok_bind, h.back,
    take_getD (fun i hi => by rw [h.len]; exact sel_lt hs i hi)]
  rw [pure_ok, Option.map_some, List.map_map]
  rfl

theorem selected_ok {d : DataObj α} {n : Nat} {bg : Bg α} {int : List α} {β : α}
    (h : Measured d n bg int β) {bounds : Option (List Bool)} {sel : List Nat}
    (hs : Selects d n bounds sel) {k : String} (hk : k ∈ d.cols.map Prod.fst) :
    selected d bounds k = .ok (column d sel k) := by
  obtain ⟨c, hc, hl⟩ := h.lookup hk
  unfold selected column
  rw [getBounds_ok h hs, ok_bind, get_eq_ok.2 hc, ok_bind,
    take_getD (fun i hi => by rw [hl]; exact sel_lt hs i hi), hc]
  rfl

theorem sumKeys_ok {keys : List String} {f : String → Except Err α} {g : String → α}
    (h : ∀ k ∈ keys, f k = .ok (g k)) : sumKeys keys f = .ok (keys.map g).sum := by
  have key : ∀ (keys : List String) (s : α), (∀ k ∈ keys, f k = .ok (g k)) →
      keys.foldlM (fun s k => do return s + (← f k)) s = .ok (s + (keys.map g).sum) := by
    intro keys
    induction keys with
    | nil => intro s _; simp [pure_ok]
    | cons k ks ih =>
      intro s hk
      rw [List.foldlM_cons, hk k (by simp), ok_bind, pure_ok, ok_bind,
        ih _ (fun k' hk' => hk k' (by simp [hk']))]
      simp [add_assoc]
  unfold sumKeys
  rw [key keys 0 h, zero_add]

theorem getKeys_sub (d : DataObj α) (b : Bool) : ∀ k ∈ getKeys d b, k ∈ d.cols.map Prod.fst :=
  fun _ hk => (List.mem_filter.1 hk).1

theorem integrate_ok {d : DataObj α} {n : Nat} {bg : Bg α} {int : List α} {β : α}
    (h : Measured d n bg int β) {bounds : Option (List Bool)} {sel : List Nat}
    (hs : Selects d n bounds sel) (hl : sel.length ≠ 1) (hkle : Bool) :
    integrate d bounds bg hkle = .ok (some
      ((getKeys d hkle).map fun k => trapSum (column d sel k) (net int β sel)).sum) := by
  unfold integrate
  rw [netIntensity_ok h hs, ok_bind]
  simp only
  rw [sumKeys_ok (g := fun k => trapSum (column d sel k) (net int β sel))]
  · rfl
  · intro k hk
    rw [selected_ok h hs (getKeys_sub d _ k hk), ok_bind, squeeze, if_neg (by simpa [column] using hl),
      ok_bind, trapz_eq (by simp [net, column])]

theorem position_ok {d : DataObj α} {n : Nat} {bg : Bg α} {int : List α} {β : α}
    (h : Measured d n bg int β) {bounds : Option (List Bool)} {sel : List Nat}
    (hs : Selects d n bounds sel) (hl : sel.length ≠ 1) (hkle : Bool) :
    position d bounds bg hkle = .ok ((getKeys d hkle).map fun key =>
      (key, div? ((getKeys d hkle).map fun k => trapSum (column d sel k)
          (List.zipWith (· * ·) (column d sel key) (net int β sel))).sum
        ((getKeys d true).map fun k => trapSum (column d sel k) (net int β sel)).sum)) := by
  unfold position
  apply mapM_ok
  intro key hkey
  rw [netIntensity_ok h hs, ok_bind]
  simp only
  rw [selected_ok h hs (getKeys_sub d _ key hkey), ok_bind,
    sumKeys_ok (g := fun k => trapSum (column d sel k)
          (List.zipWith (· * ·) (column d sel key) (net int β sel)))]
  · rw [ok_bind, integrate_ok h hs hl, ok_bind]
    rfl
  · intro k hk
    rw [selected_ok h hs (getKeys_sub d _ k hk), ok_bind, trapz_eq (by simp [net, column])]

/-- A scan along one column: all other columns that are not counts are constant on
the selected points. -/
structure LineScan (d : DataObj α) (sel : List Nat) (key : String) : Prop where
  coord : key ∈ d.qk.values
  two : 2 ≤ sel.length
  others : ∀ k ∈ d.cols.map Prod.fst, k ∉ d.dk.values → k ≠ key →
    ∃ c, column d sel k = List.replicate sel.length c

theorem sum_line {d : DataObj α} {n : Nat} {bg : Bg α} {int : List α} {β : α}
    (h : Measured d n bg int β) {sel : List Nat} {key : String} (hline : LineScan d sel key)
    (hkle : Bool) (y : List α) :
    ((getKeys d hkle).map fun k => trapSum (column d sel k) y).sum =
      trapSum (column d sel key) y := by
  have hmem : key ∈ getKeys d hkle := by
    unfold getKeys
    rw [List.mem_filter]
    refine ⟨h.coords key hline.coord, ?_⟩
    cases hkle
    · simpa using h.distinct key hline.coord
    · simpa using hline.coord
  have hnd : (getKeys d hkle).Nodup := h.names.filter _
  have hzero : ∀ k ∈ getKeys d hkle, k ≠ key → trapSum (column d sel k) y = 0 := by
    intro k hk hne
    unfold getKeys at hk
    rw [List.mem_filter] at hk
    have hnc : k ∉ d.dk.values := by
      cases hkle
      · simpa using hk.2
      · exact h.distinct k (by simpa using hk.2)
    obtain ⟨c, hc⟩ := hline.others k hk.1 hnc hne
    rw [hc, trapSum_const]
  generalize getKeys d hkle = L at *
  induction L with
  | nil => simp at hmem
  | cons k L ih =>
    rw [List.map_cons, List.sum_cons]
    by_cases hk : k = key
    · subst hk
      have : (L.map fun k => trapSum (column d sel k) y).sum = 0 := by
        apply List.sum_eq_zero
        intro x hx
        obtain ⟨k', hk', rfl⟩ := List.mem_map.1 hx
        exact hzero k' (by simp [hk']) (by rintro rfl; exact (List.nodup_cons.1 hnd).1 hk')
      rw [this, add_zero]
    · rw [hzero k (by simp) hk, zero_add]
      apply ih
      · simpa [Ne.symm hk] using hmem
      · exact (List.nodup_cons.1 hnd).2
      · exact fun k' hk' => hzero k' (by simp [hk'])

end Verif.Data
