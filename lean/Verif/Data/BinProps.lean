import Verif.Data.BinLemmas
import Verif.Data.Props

set_option linter.unusedSectionVars false

/-!
# Properties C09–C14, C76: rebinning
-/

namespace Verif.Data

variable {α : Type} [Field α] [LinearOrder α] [IsStrictOrderedRing α]

/-! ## Specification -/

/-- Arithmetic mean. -/
def mean (xs : List α) : α := xs.sum / xs.length

/-- Value of column `key` at point `i`. -/
def valueAt (d : DataObj α) (i : Nat) (key : String) : α :=
  ((d.cols.lookup key).getD []).getD i 0

/-- Smallest value of a non-empty list. -/
def minOf (xs : List α) : α := xs.tail.foldl min (xs.headD 0)

/-- The axis the user asked for, or a single cell over the range of the column. -/
def axisOf (d : DataObj α) (toBin : List (String × BinAxis α)) (key : String) : BinAxis α :=
  (toBin.lookup key).getD
    ⟨minOf ((d.cols.lookup key).getD []), maxOf ((d.cols.lookup key).getD []), 1⟩

/-- Width of the cells of an axis. -/
def width (a : BinAxis α) : α := if a.n = 1 then a.hi - a.lo else (a.hi - a.lo) / (a.n - 1)

/-- Centre of cell `i` of an axis. -/
def centre (a : BinAxis α) (i : Nat) : α :=
  if a.n = 1 then (a.lo + a.hi) / 2 else a.lo + i * width a

/-- A cell is given by its centre; it is closed on all sides. -/
def InCell (axes : List (BinAxis α)) (c x : List α) : Prop :=
  ∀ j < axes.length, |x.getD j 0 - c.getD j 0| ≤ width (axes.getD j ⟨0, 0, 0⟩) / 2

instance (axes : List (BinAxis α)) (c x : List α) : Decidable (InCell axes c x) := by
  unfold InCell; infer_instance

/-- The points of the data set inside a cell. -/
def pointsIn (d : DataObj α) (n : Nat) (keys : List String) (axes : List (BinAxis α))
    (c : List α) : List Nat :=
  (List.range n).filter fun i => InCell axes c (keys.map (valueAt d i))

/-- The coordinates of a cell with the second one moved to the front: the grid is
ordered by these (the second axis is the slowest). -/
def secondFirst : List α → List α
  | a :: b :: r => b :: a :: r
  | r => r

/-- The cells of the grid: one centre per axis. -/
def IsCell (axes : List (BinAxis α)) (c : List α) : Prop :=
  List.Forall₂ (fun x a => ∃ i < a.n, x = centre a i) c axes

theorem axisCells_fst (a : BinAxis α) : ∀ x, x ∈ (axisCells a).1 ↔ ∃ i < a.n, x = centre a i := by
  intro x
  unfold axisCells
  split
  · next h =>
    simp only [List.mem_singleton, centre, h, if_true]
    exact ⟨fun hx => ⟨0, by omega, hx⟩, fun ⟨_, _, hx⟩ => hx⟩
  · next h =>
    simp only [List.mem_map, List.mem_range, centre, width, h, if_false]
    exact ⟨fun ⟨i, hi, e⟩ => ⟨i, hi, e.symm⟩, fun ⟨i, hi, e⟩ => ⟨i, hi, e.symm⟩⟩

theorem axisCells_length (a : BinAxis α) : (axisCells a).1.length = a.n := by
  unfold axisCells
  split
  · next h => simp [h]
  · simp

theorem axisCells_sorted {a : BinAxis α} (h : a.n = 1 ∨ a.lo < a.hi) :
    (axisCells a).1.Pairwise (· < ·) := by
  unfold axisCells
  split
  · simp
  · next hn =>
    rcases h with h | h
    · exact absurd h hn
    · simp only
      rw [List.pairwise_map]
      match hm : a.n with
      | 0 => simp
      | 1 => exact absurd hm hn
      | m + 2 =>
        have hpos : 0 < (a.hi - a.lo) / (((m + 2 : Nat) : α) - 1) := by
          apply div_pos (by linarith)
          push_cast
          have : (0 : α) ≤ m := Nat.cast_nonneg m
          linarith
        apply List.pairwise_lt_range.imp
        intro i j hij
        have : (i : α) < j := by exact_mod_cast hij
        have := mul_lt_mul_of_pos_right this hpos
        linarith

theorem axisCells_snd (a : BinAxis α) : (axisCells a).2 = width a := by
  unfold axisCells width
  split <;> rfl

/-- A data set with its counts that can be binned along `keys`. -/
structure Binnable (d : DataObj α) (n : Nat) (keys : List String) : Prop where
  pos : 0 < n
  rect : Rect n d.cols
  names : (d.cols.map Prod.fst).Nodup
  present : ∀ k ∈ keys, k ∈ d.cols.map Prod.fst
  nonempty : keys ≠ []

theorem Binnable.lookup {d : DataObj α} {n : Nat} {keys : List String} (h : Binnable d n keys)
    {k : String} (hk : k ∈ d.cols.map Prod.fst) :
    ∃ c, d.cols.lookup k = some c ∧ c.length = n := by
  obtain ⟨c, hc, _, h3⟩ := lookup_isSome_of_mem_keys hk
  exact ⟨c.2, h3, h.rect c hc⟩

theorem binArgs_ok {d : DataObj α} {n : Nat} {toBin : List (String × BinAxis α)} {b : Bool}
    (h : Binnable d n (binKeys toBin d.qk b)) :
    (binKeys toBin d.qk b).mapM (binArg d toBin) =
      .ok ((binKeys toBin d.qk b).map (axisOf d toBin)) := by
  apply mapM_ok
  intro k hk
  unfold binArg axisOf
  cases hl : toBin.lookup k with
  | some a => rfl
  | none =>
    have hq : k ∈ d.qk.values := by
      rcases mem_binKeys hk with h1 | h1
      · exfalso
        have : ∀ (t : List (String × BinAxis α)), k ∈ t.map Prod.fst → t.lookup k ≠ none := by
          intro t
          induction t with
          | nil => simp
          | cons c t ih =>
            intro hm
            by_cases he : k = c.1
            · subst he; simp
            · have : (k == c.1) = false := by simpa using he
              simp only [List.map_cons, List.mem_cons, he, false_or] at hm
              rw [List.lookup_cons, this]
              exact ih hm
        exact this toBin h1 hl
      · exact h1
    obtain ⟨c, hc, hlen⟩ := h.lookup (h.present k hk)
    simp only [hq, if_true, get_eq_ok.2 hc, ok_bind, hc, Option.getD_none, Option.getD_some]
    cases c with
    | nil => simp at hlen; have := h.pos; omega
    | cons x xs => rfl

theorem binCell_ok {sqrt : α → α} {d : DataObj α} {n : Nat} {keys : List String}
    (h : Binnable d n keys) {e : List α} {d' : DataObj α} (he : error sqrt d = .ok (e, d'))
    (hle : e.length = n) {axes : List (BinAxis α)} (hax : axes.length = keys.length)
    {c : List α} (hc : c.length = keys.length) :
    binCell sqrt d keys (axes.map fun a => (axisCells a).2) c = .ok
      (if pointsIn d n keys axes c = [] then none
       else some
        ((((d.cols.filter (fun col => decide (col.1 ∉ keys))).map Prod.snd).map fun col =>
            avg ((pointsIn d n keys axes c).map fun i => col.getD i 0)),
          sqrt (avg (((pointsIn d n keys axes c).map fun i => e.getD i 0).map (· ^ 2))))) := by
  have hcols : keys.mapM d.cols.get = .ok (keys.map fun k => (d.cols.lookup k).getD []) := by
    apply mapM_ok
    intro k hk
    obtain ⟨c, hc, _⟩ := h.lookup (h.present k hk)
    rw [get_eq_ok.2 hc, hc]; rfl
  have hn : ((keys.map fun k => (d.cols.lookup k).getD []).headD []).length = n := by
    cases hkeys : keys with
    | nil => exact absurd hkeys h.nonempty
    | cons k ks =>
      obtain ⟨c, hc, hl⟩ := h.lookup (h.present k (by simp [hkeys]))
      simp [hc, hl]
  have hall : (keys.map fun k => (d.cols.lookup k).getD []).all (fun col => col.length = n) = true := by
    rw [List.all_map, List.all_eq_true]
    intro k hk
    obtain ⟨c, hc, hl⟩ := h.lookup (h.present k hk)
    simp [hc, hl]
  have hind : ((List.range n).filter fun i => inCell (axes.map fun a => (axisCells a).2) c
      ((keys.map fun k => (d.cols.lookup k).getD []).map fun col => col.getD i 0)) =
      pointsIn d n keys axes c := by
    unfold pointsIn
    apply List.filter_congr
    intro i _
    have hx : (keys.map fun k => (d.cols.lookup k).getD []).map (fun col => col.getD i 0) =
        keys.map (valueAt d i) := by
      rw [List.map_map]; rfl
    rw [hx, Bool.eq_iff_iff, inCell_iff (by simp [hc]) (by simp [hc, hax]), decide_eq_true_eq]
    unfold InCell
    rw [hc, hax]
    refine forall_congr' fun j => forall_congr' fun hj => ?_
    have hs : (axes.map fun a => (axisCells a).2).getD j 0 = width (axes.getD j ⟨0, 0, 0⟩) := by
      have hj' : j < axes.length := by omega
      rw [List.getD_eq_getElem _ _ (by simpa using hj'), List.getD_eq_getElem _ _ hj',
        List.getElem_map, axisCells_snd]
    rw [hs, abs_le]
    constructor
    · rintro ⟨h1, h2⟩; constructor <;> linarith
    · rintro ⟨h1, h2⟩; constructor <;> linarith
  have hlt : ∀ i ∈ pointsIn d n keys axes c, i < n := by
    intro i hi
    exact List.mem_range.1 (List.mem_filter.1 hi).1
  unfold binCell
  rw [hcols, ok_bind]
  simp only [hn, hall, if_true, he, ok_bind, hind]
  split
  · rfl
  · have houts : ((d.cols.filter (fun col => decide (col.1 ∉ keys))).map Prod.snd).mapM
        (fun col => do return avg (← take (pointsIn d n keys axes c) col)) =
        .ok (((d.cols.filter (fun col => decide (col.1 ∉ keys))).map Prod.snd).map fun col =>
            avg ((pointsIn d n keys axes c).map fun i => col.getD i 0)) := by
      apply mapM_ok
      intro col hcol
      obtain ⟨cc, hcc, rfl⟩ := List.mem_map.1 hcol
      have hl := h.rect cc (List.mem_filter.1 hcc).1
      rw [take_getD (fun i hi => by rw [hl]; exact hlt i hi)]
      rfl
    rw [houts, ok_bind, take_getD (fun i hi => by rw [hle]; exact hlt i hi)]
    rfl

/-- The columns put together by `assemble`. -/
theorem assemble_lookup_binned {keys : List String} {kept : List (List α × List α × α)} {k : String}
    (hk : k ∈ keys) (t : Table α) (hkt : k ∈ t.map Prod.fst) (m : Nat) :
    (assemble keys kept m t).lookup k = some (kept.map fun r => r.1.getD (keys.idxOf k) 0) := by
  induction t generalizing m with
  | nil => simp at hkt
  | cons c t ih =>
    unfold assemble
    by_cases hc : k = c.1
    · subst hc
      rw [if_pos hk]; simp
    · have hb : (k == c.1) = false := by simpa using hc
      simp only [List.map_cons, List.mem_cons, hc, false_or] at hkt
      split
      · rw [List.lookup_cons, hb]; exact ih hkt m
      · rw [List.lookup_cons, hb]; exact ih hkt (m + 1)

theorem assemble_lookup_averaged {keys : List String} {kept : List (List α × List α × α)}
    {k : String} (hk : k ∉ keys) (t : Table α) {col : List α} (hkt : t.lookup k = some col)
    (m : Nat) : ∃ j, ((t.filter (fun c => decide (c.1 ∉ keys))).map Prod.snd)[j]? = some col ∧
      (assemble keys kept m t).lookup k = some (kept.map fun r => r.2.1.getD (m + j) 0) := by
  induction t generalizing m with
  | nil => simp at hkt
  | cons c t ih =>
    unfold assemble
    by_cases hc : k = c.1
    · subst hc
      rw [if_neg hk]
      have hkt : c.2 = col := by
        rw [List.lookup_cons] at hkt
        simpa using hkt
      refine ⟨0, ?_, by simp⟩
      rw [List.filter_cons, if_pos (by simpa using hk)]
      simp [hkt]
    · have hb : (k == c.1) = false := by simpa using hc
      rw [List.lookup_cons, hb] at hkt
      split
      · next hin =>
        rw [List.lookup_cons, hb, List.filter_cons, if_neg (by simpa using hin)]
        exact ih hkt m
      · next hin =>
        rw [List.lookup_cons, hb, List.filter_cons, if_pos (by simpa using hin)]
        obtain ⟨j, h1, h2⟩ := ih hkt (m + 1)
        refine ⟨j + 1, by simpa using h1, ?_⟩
        rw [show m + (j + 1) = m + 1 + j by omega]
        exact h2

theorem assemble_keys (keys : List String) (kept : List (List α × List α × α)) (t : Table α)
    (m : Nat) : (assemble keys kept m t).map Prod.fst = t.map Prod.fst := by
  induction t generalizing m with
  | nil => rfl
  | cons c t ih =>
    unfold assemble
    split <;> simp [ih]

/-! ## C09, C11 -/

/-- **C09, C11** the result of `bin`: there is a list `cells` consisting of all the
non-empty cells of the requested grid and no others, each once and in the order of
the grid enumeration `Q` (second axis slowest, then first, then the others); every binned column holds the cell centres, every
other column the mean over exactly the points in the (closed) cell, and the stored
error is the root mean square of the errors of these points. -/
theorem C09_bin_averages {sqrt : α → α} {p : Nat} (hp : 0 < p) {d : DataObj α} {n : Nat}
    {toBin : List (String × BinAxis α)} {b : Bool} {keys : List String}
    (hkeys : keys = binKeys toBin d.qk b) (hnd : keys.Nodup) (h : Binnable d n keys)
    {e : List α} {d' : DataObj α} (he : error sqrt d = .ok (e, d')) (hle : e.length = n) :
    ∃ (r : DataObj α) (Q cells : List (List α)), bin sqrt p d toBin b = .ok r ∧
      (∀ c, c ∈ Q ↔ IsCell (keys.map (axisOf d toBin)) c) ∧
      Q.length = ((keys.map (axisOf d toBin)).map BinAxis.n).prod ∧
      ((∀ a ∈ keys.map (axisOf d toBin), a.n = 1 ∨ a.lo < a.hi) →
        (Q.map secondFirst).Pairwise (List.Lex (· < ·))) ∧
      cells = Q.filter (fun c => pointsIn d n keys (keys.map (axisOf d toBin)) c ≠ []) ∧
      r.cols.map Prod.fst = d.cols.map Prod.fst ∧
      (∀ j k, keys[j]? = some k → r.cols.lookup k = some (cells.map fun c => c.getD j 0)) ∧
      (∀ k ∉ keys, ∀ col, d.cols.lookup k = some col → r.cols.lookup k = some (cells.map fun c =>
        mean ((pointsIn d n keys (keys.map (axisOf d toBin)) c).map fun i => col.getD i 0))) ∧
      r.err = some (cells.map fun c => sqrt (mean
        ((pointsIn d n keys (keys.map (axisOf d toBin)) c).map fun i => e.getD i 0 ^ 2))) ∧
      r.dk = d.dk ∧ r.qk = d.qk ∧ r.m0 = d.m0 ∧ r.t0 = d.t0 ∧ r.timeNorm = d.timeNorm := by
  set axes := keys.map (axisOf d toBin) with haxes
  have hargs : keys.mapM (binArg d toBin) = .ok axes := by
    subst hkeys; exact binArgs_ok h
  have hne : axes.map (fun a => (axisCells a).1) ≠ [] := by
    simpa [haxes] using h.nonempty
  obtain ⟨Q, hQ, hmem⟩ := grid_ok hne
  have hmem' : ∀ c, c ∈ Q ↔ IsCell axes c := by
    intro c
    rw [hmem, IsCell]
    rw [List.forall₂_map_right_iff]
    constructor
    · exact List.Forall₂.imp fun x a hx => (axisCells_fst a x).1 hx
    · exact List.Forall₂.imp fun x a hx => (axisCells_fst a x).2 hx
  have hlen : ∀ c ∈ Q, c.length = keys.length := by
    intro c hc
    rw [((hmem' c).1 hc).length_eq, haxes, List.length_map]
  set P := pointsIn d n keys axes with hP
  set A : List α → List α := fun c =>
    (((d.cols.filter (fun col => decide (col.1 ∉ keys))).map Prod.snd).map fun col =>
      avg ((P c).map fun i => col.getD i 0)) with hA
  set E : List α → α := fun c => sqrt (avg (((P c).map fun i => e.getD i 0).map (· ^ 2))) with hE
  have houts : Q.mapM (binCell sqrt d keys (axes.map fun a => (axisCells a).2)) =
      .ok (Q.map fun c => if P c = [] then none else some (A c, E c)) := by
    apply mapM_ok
    intro c hc
    exact binCell_ok h he hle (by simp [haxes]) (hlen c hc)
  have hkept : (Q.zip (Q.map fun c => if P c = [] then none else some (A c, E c))).filterMap
      (fun r => r.2.map fun o => (r.1, o)) =
      (Q.filter fun c => P c ≠ []).map fun c => (c, A c, E c) := by
    clear hQ hmem hmem' hlen houts
    induction Q with
    | nil => rfl
    | cons c Q ih =>
      rw [List.map_cons, List.zip_cons_cons, List.filterMap_cons, List.filter_cons]
      by_cases hc : P c = []
      · simp only [hc, if_true, Option.map_none, ne_eq, not_true_eq_false, decide_false,
          Bool.false_eq_true, if_false]
        exact ih
      · simp only [hc, if_false, Option.map_some, ne_eq, not_false_eq_true, decide_true, if_true,
          List.map_cons]
        rw [ih]
  refine ⟨{ d with
      cols := assemble keys ((Q.filter fun c => P c ≠ []).map fun c => (c, A c, E c)) 0 d.cols
      err := some (((Q.filter fun c => P c ≠ []).map fun c => (c, A c, E c)).map fun r => r.2.2) },
    Q, Q.filter fun c => P c ≠ [], ?_, hmem', ?_, ?_, rfl, ?_⟩
  · rw [bin_eq hp]
    subst hkeys
    simp only [hargs, ok_bind, hQ, houts]
    rw [hkept]
    rfl
  · rw [length_grid hQ, List.map_map]
    congr 1
    apply List.map_congr_left
    intro a _
    exact axisCells_length a
  · intro hlt
    refine grid_sorted ?_ hQ
    intro q hq
    obtain ⟨a, ha, rfl⟩ := List.mem_map.1 hq
    exact axisCells_sorted (hlt a ha)
  · refine ⟨assemble_keys _ _ _ _, ?_, ?_, ?_, rfl, rfl, rfl, rfl, rfl⟩
    · intro j k hj
      have hjl : j < keys.length := by
        by_contra hcon
        rw [List.getElem?_eq_none (by omega)] at hj
        cases hj
      have hkk : keys[j] = k := by
        rw [List.getElem?_eq_getElem hjl] at hj; simpa using hj
      have hk : k ∈ keys := hkk ▸ List.getElem_mem hjl
      have hidx : keys.idxOf k = j := by rw [← hkk]; exact hnd.idxOf_getElem j hjl
      rw [assemble_lookup_binned hk _ (h.present k hk), hidx, List.map_map]
      rfl
    · intro k hk col hcol
      obtain ⟨j, h1, h2⟩ := assemble_lookup_averaged
        (kept := (Q.filter fun c => P c ≠ []).map fun c => (c, A c, E c)) hk _ hcol 0
      simp only at h2 ⊢
      rw [h2, List.map_map, Nat.zero_add]
      congr 1
      apply List.map_congr_left
      intro c _
      simp only [Function.comp, hA]
      rw [List.getD_eq_getElem?_getD, List.getElem?_map, h1]
      rfl
    · simp only [List.map_map, hE]
      rfl

/-- Three points, the grid `h = 0, 1`, everything else averaged. -/
def exBin : DataObj ℚ :=
  { emptyData with
    cols := [("h", [0, 1, 1]), ("k", [0, 0, 0]), ("l", [2, 2, 2]), ("e", [5, 5, 5]),
      ("temp", [300, 300, 300]), ("detector", [10, 20, 30]), ("monitor", [1, 1, 1]),
      ("time", [1, 1, 1])] }

example : Binnable exBin 3 (binKeys [("h", (⟨0, 1, 2⟩ : BinAxis ℚ))] exBin.qk true) where
  pos := by decide
  rect := by unfold Rect; decide
  names := by decide
  present := by decide
  nonempty := by decide

example : (bin id 4 exBin [("h", ⟨0, 1, 2⟩)] true).map (fun r => (r.cols, r.err)) =
    .ok ([("h", [0, 1]), ("k", [0, 0]), ("l", [2, 2]), ("e", [5, 5]), ("temp", [300, 300]),
      ("detector", [10, 25]), ("monitor", [1, 1]), ("time", [1, 1])],
      some [100, 650]) := by decide +kernel

/-! ## C10 -/

/-- **C10** the result (or the error raised) does not depend on the number of
worker processes. -/
theorem C10_bin_processors {sqrt : α → α} {p q : Nat} (hp : 0 < p) (hq : 0 < q) (d : DataObj α)
    (toBin : List (String × BinAxis α)) (b : Bool) :
    bin sqrt p d toBin b = bin sqrt q d toBin b := by
  rw [bin_eq hp, bin_eq hq]

/-- **C10** the chunks are a partition of the grid in order. -/
theorem C10_chunks_partition {β : Type} {p : Nat} (hp : 0 < p) (Q : List β) :
    (chunks p Q).length = p ∧ (chunks p Q).flatten = Q :=
  ⟨by simp [chunks], chunks_flatten hp Q⟩

/-! ## C12 -/

theorem width_nonneg {a : BinAxis α} (hn : 1 ≤ a.n) (h : a.lo ≤ a.hi) : 0 ≤ width a := by
  unfold width
  split
  · linarith
  · apply div_nonneg (by linarith)
    have : (1 : α) ≤ a.n := by exact_mod_cast hn
    linarith

theorem axis_covered {a : BinAxis α} (hn : 1 ≤ a.n) {x : α} (h1 : a.lo ≤ x) (h2 : x ≤ a.hi) :
    ∃ i < a.n, |x - centre a i| ≤ width a / 2 := by
  by_cases h : a.n = 1
  · refine ⟨0, by omega, ?_⟩
    simp only [centre, width, h, if_true]
    rw [abs_le]
    constructor <;> linarith
  · obtain ⟨m, hm⟩ : ∃ m, a.n = m + 2 := ⟨a.n - 2, by omega⟩
    have hw := width_nonneg hn (h1.trans h2)
    have hcast : ((m : α) + 1) ≠ 0 := by
      have : (0 : α) ≤ m := Nat.cast_nonneg m
      linarith
    have htop : a.lo + ((m + 1 : Nat) : α) * width a = a.hi := by
      have hwd : width a = (a.hi - a.lo) / (m + 1) := by
        unfold width
        rw [if_neg h, hm]
        push_cast; ring
      rw [hwd]
      push_cast
      field_simp
      ring
    have hex : ∃ i : Nat, x ≤ a.lo + (i : α) * width a + width a / 2 :=
      ⟨m + 1, by rw [htop]; linarith⟩
    classical
    obtain ⟨i, hi, hmin⟩ : ∃ i, x ≤ a.lo + ((i : Nat) : α) * width a + width a / 2 ∧
        ∀ j < i, ¬ x ≤ a.lo + ((j : Nat) : α) * width a + width a / 2 :=
      ⟨Nat.find hex, Nat.find_spec hex, fun j hj => Nat.find_min hex hj⟩
    have hile : i ≤ m + 1 := by
      by_contra hcon
      exact hmin (m + 1) (by omega) (by rw [htop]; linarith)
    refine ⟨i, by omega, ?_⟩
    simp only [centre, h, if_false]
    rw [abs_le]
    constructor
    · cases i with
      | zero => push_cast; linarith
      | succ i =>
        have := not_le.1 (hmin i (by omega))
        push_cast
        linarith
    · linarith

/-- **C12** every point inside the requested range is in a cell of the grid. -/
theorem C12_range_covered {axes : List (BinAxis α)} (hn : ∀ a ∈ axes, 1 ≤ a.n) {x : List α}
    (hx : List.Forall₂ (fun x a => a.lo ≤ x ∧ x ≤ a.hi) x axes) :
    ∃ c, IsCell axes c ∧ InCell axes c x := by
  induction hx with
  | nil => exact ⟨[], List.Forall₂.nil, fun j hj => by simp at hj⟩
  | cons h hrest ih =>
    rename_i y a ys as
    obtain ⟨c, hc, hin⟩ := ih (fun a ha => hn a (by simp [ha]))
    obtain ⟨i, hi, hb⟩ := axis_covered (hn a (by simp)) h.1 h.2
    refine ⟨centre a i :: c, List.Forall₂.cons ⟨i, hi, rfl⟩ hc, ?_⟩
    intro j hj
    cases j with
    | zero => simpa using hb
    | succ j => simpa using hin j (by simpa using hj)

theorem axis_unique {a : BinAxis α} (ha : a.n = 1 ∨ a.lo < a.hi) {i i' : Nat} (hi : i < a.n) {x : α} (h1 : |x - centre a i| ≤ width a / 2)
    (h2 : |x - centre a i'| ≤ width a / 2) (hne : centre a i ≠ centre a i') :
    1 < a.n ∧ |x - centre a i| = width a / 2 := by
  by_cases h : a.n = 1
  · exfalso; apply hne; simp [centre, h]
  · have hlt : a.lo < a.hi := ha.resolve_left h
    have hn2 : 1 < a.n := by omega
    refine ⟨hn2, ?_⟩
    have hw : 0 < width a := by
      simp only [width, h, if_false]
      apply div_pos (by linarith)
      have : (1 : α) < a.n := by exact_mod_cast hn2
      linarith
    simp only [centre, h, if_false] at *
    rw [abs_le] at h1 h2
    have hii : i ≠ i' := by rintro rfl; exact hne rfl
    rcases lt_or_gt_of_ne hii with hlt' | hgt
    · have : (i : α) + 1 ≤ i' := by exact_mod_cast hlt'
      have := mul_le_mul_of_nonneg_right this hw.le
      have e : x - (a.lo + i * width a) = width a / 2 := by
        apply le_antisymm h1.2
        linarith [h2.1]
      rw [e, abs_of_nonneg (by linarith)]
    · have : (i' : α) + 1 ≤ i := by exact_mod_cast hgt
      have := mul_le_mul_of_nonneg_right this hw.le
      have e : x - (a.lo + i * width a) = -(width a / 2) := by
        apply le_antisymm _ h1.1
        linarith [h2.2]
      rw [e, abs_neg, abs_of_nonneg (by linarith)]

/-- **C12** a point in two cells lies exactly on a cell boundary of some axis. -/
theorem C12_one_cell {axes : List (BinAxis α)} (hax : ∀ a ∈ axes, a.n = 1 ∨ a.lo < a.hi)
    {c c' x : List α} (hc : IsCell axes c) (hc' : IsCell axes c') (h1 : InCell axes c x)
    (h2 : InCell axes c' x) (hne : c ≠ c') :
    ∃ j < axes.length, 1 < (axes.getD j ⟨0, 0, 0⟩).n ∧
      |x.getD j 0 - c.getD j 0| = width (axes.getD j ⟨0, 0, 0⟩) / 2 := by
  induction hc generalizing c' x with
  | nil => cases hc'; exact absurd rfl hne
  | cons h hrest ih =>
    rename_i y a ys as
    cases hc' with
    | cons h' hrest' =>
      rename_i y' ys'
      obtain ⟨i, hi, rfl⟩ := h
      obtain ⟨i', hi', rfl⟩ := h'
      by_cases he : centre a i = centre a i'
      · have hys : ys ≠ ys' := by rintro rfl; exact hne (by rw [he])
        obtain ⟨j, hj, h3, h4⟩ := ih (fun a ha => hax a (by simp [ha])) hrest' (x := x.tail)
          (fun j hj => by
            have := h1 (j + 1) (by simpa using hj)
            cases x <;> simpa using this)
          (fun j hj => by
            have := h2 (j + 1) (by simpa using hj)
            cases x <;> simpa using this) hys
        refine ⟨j + 1, by simpa using hj, by simpa using h3, ?_⟩
        cases x <;> simpa using h4
      · have a1 := h1 0 (by simp)
        have a2 := h2 0 (by simp)
        simp only [List.getD_cons_zero] at a1 a2
        obtain ⟨h3, h4⟩ := axis_unique (hax a (by simp)) hi a1 a2 he
        exact ⟨0, by simp, by simpa using h3, by simpa using h4⟩

/-- **C12** (the stronger claim fails) the point at 1/2 between the cells at 0 and
1 is counted in both rows: three counts become rows with means over two points
each. -/
theorem C12_boundary_counted_twice :
    (bin (α := ℚ) id 1 { emptyData with cols := [("h", [0, 1 / 2, 1]), ("detector", [10, 20, 30]),
      ("monitor", [1, 1, 1]), ("time", [1, 1, 1])] } [("h", (⟨0, 1, 2⟩ : BinAxis ℚ))] false).map
      (fun r => r.cols) = .ok [("h", [0, 1]), ("detector", [15, 25]), ("monitor", [1, 1]),
        ("time", [1, 1])] := by decide +kernel

example : List.Forall₂ (fun x (a : BinAxis ℚ) => a.lo ≤ x ∧ x ≤ a.hi) [1 / 3, 7] [⟨0, 1, 4⟩, ⟨5, 9, 1⟩] :=
  .cons (by norm_num) (.cons (by norm_num) .nil)

/-! ## C13 -/

/-- **C13** binning with one cell per axis whose range holds every point gives a
single row with the centre of the range and the mean of every other column. -/
theorem C13_whole_range {sqrt : α → α} {p : Nat} (hp : 0 < p) {d : DataObj α} {n : Nat}
    {toBin : List (String × BinAxis α)} {b : Bool} {keys : List String}
    (hkeys : keys = binKeys toBin d.qk b) (hnd : keys.Nodup) (h : Binnable d n keys)
    {e : List α} {d' : DataObj α} (he : error sqrt d = .ok (e, d')) (hle : e.length = n)
    (hone : ∀ k ∈ keys, (axisOf d toBin k).n = 1 ∧ ∀ i < n, (axisOf d toBin k).lo ≤ valueAt d i k ∧
      valueAt d i k ≤ (axisOf d toBin k).hi) :
    ∃ r, bin sqrt p d toBin b = .ok r ∧
      (∀ k ∈ keys, r.cols.lookup k = some [((axisOf d toBin k).lo + (axisOf d toBin k).hi) / 2]) ∧
      (∀ k ∉ keys, ∀ col, d.cols.lookup k = some col → r.cols.lookup k = some [mean col]) ∧
      r.err = some [sqrt (mean (e.map (· ^ 2)))] := by
  obtain ⟨r, Q, cells, h1, h2, h3, h4, h5, h6, h7, h8, h9, _⟩ :=
    C09_bin_averages hp hkeys hnd h he hle
  have hlenQ : Q.length = 1 := by
    rw [h3, List.map_map]
    apply List.prod_eq_one
    intro x hx
    obtain ⟨k, hk, rfl⟩ := List.mem_map.1 hx
    exact (hone k hk).1
  obtain ⟨c, rfl⟩ := List.length_eq_one_iff.1 hlenQ
  have hc := (h2 c).1 (by simp)
  have hcval : ∀ j k, keys[j]? = some k → c.getD j 0 =
      ((axisOf d toBin k).lo + (axisOf d toBin k).hi) / 2 := by
    intro j k hj
    have hjl : j < keys.length := by
      by_contra hcon
      rw [List.getElem?_eq_none (by omega)] at hj
      cases hj
    have hkk : keys[j] = k := by
      rw [List.getElem?_eq_getElem hjl] at hj; simpa using hj
    have hjc : j < c.length := by rw [hc.length_eq]; simpa using hjl
    obtain ⟨i, _, hi⟩ := List.Forall₂.get hc hjc (by simpa using hjl)
    rw [List.getD_eq_getElem _ _ hjc]
    simp only [List.get_eq_getElem, List.getElem_map, hkk] at hi
    rw [hi]
    simp only [centre, (hone k (hkk ▸ List.getElem_mem hjl)).1, if_true]
  have hall : pointsIn d n keys (keys.map (axisOf d toBin)) c = List.range n := by
    unfold pointsIn
    rw [List.filter_eq_self]
    intro i hi
    rw [decide_eq_true_eq]
    intro j hj
    have hjl : j < keys.length := by simpa using hj
    have hk : keys[j]? = some keys[j] := List.getElem?_eq_getElem hjl
    have hkm : keys[j] ∈ keys := List.getElem_mem hjl
    rw [hcval j _ hk, List.getD_eq_getElem _ _ (by simpa using hjl),
      List.getD_eq_getElem _ _ hj, List.getElem_map, List.getElem_map]
    simp only [width, (hone _ hkm).1, if_true]
    have := (hone _ hkm).2 i (List.mem_range.1 hi)
    rw [abs_le]
    constructor <;> linarith [this.1, this.2]
  have hcells : cells = [c] := by
    rw [h5, List.filter_cons, hall]
    have : List.range n ≠ [] := by
      have := h.pos
      simp; omega
    simp [this]
  have hcol : ∀ col : List α, col.length = n →
      (List.range n).map (fun i => col.getD i 0) = col := by
    intro col hl
    subst hl
    apply List.ext_getElem (by simp)
    intro i h1 h2
    rw [List.getElem_map, List.getElem_range, List.getD_eq_getElem _ _ h2]
  refine ⟨r, h1, ?_, ?_, ?_⟩
  · intro k hk
    obtain ⟨j, hj, hjk⟩ := List.getElem_of_mem hk
    have hk' : keys[j]? = some k := by rw [List.getElem?_eq_getElem hj, hjk]
    rw [h7 j k hk', hcells]
    simp only [List.map_cons, List.map_nil, hcval j k hk']
  · intro k hk col hl
    have hlen : col.length = n := by
      have hm : k ∈ d.cols.map Prod.fst := by
        by_contra hcon
        have hnone : ∀ (t : Table α), k ∉ t.map Prod.fst → t.lookup k = none := by
          intro t
          induction t with
          | nil => simp
          | cons c t ih =>
            intro hm
            simp only [List.map_cons, List.mem_cons, not_or] at hm
            have : (k == c.1) = false := by simpa using hm.1
            rw [List.lookup_cons, this]
            exact ih hm.2
        rw [hnone _ hcon] at hl; cases hl
      obtain ⟨c, hc, hlc⟩ := h.lookup hm
      rw [hl] at hc; cases hc; exact hlc
    rw [h8 k hk col hl, hcells]
    simp only [List.map_cons, List.map_nil, hall, hcol col hlen]
  · rw [h9, hcells]
    simp only [List.map_cons, List.map_nil, hall]
    congr 4
    have := congrArg (List.map (· ^ 2)) (hcol e hle)
    rw [List.map_map] at this
    exact this

example : (bin id 3 exBin [] true).map (fun r => (r.cols, r.err)) =
    .ok ([("h", [1 / 2]), ("k", [0]), ("l", [2]), ("e", [5]), ("temp", [300]),
      ("detector", [20]), ("monitor", [1]), ("time", [1])],
      some [1400 / 3]) := by decide +kernel

/-! ## C14 -/

/-- **C14** if all points have the same monitor count and the normaliser of the
data set is that count (as after construction), the error reported by the rebinned
data set is the stored root mean square error.
Missing: a normaliser that differs from the monitor, see
`C14_error_normalised_twice`. -/
theorem C14_error_scale_partial {sqrt : α → α} {p : Nat} (hp : 0 < p) {d : DataObj α} {n : Nat}
    {toBin : List (String × BinAxis α)} {b : Bool} {keys : List String}
    (hkeys : keys = binKeys toBin d.qk b) (hnd : keys.Nodup) (h : Binnable d n keys)
    {det time : List α} {m : α} (hm : m ≠ 0) (hd : Counted d n det (List.replicate n m) time)
    (hmon : d.dk.monitor ∉ keys) (htn : d.timeNorm = false) (h0 : d.m0 = m)
    {e : List α} {d' : DataObj α} (he : error sqrt d = .ok (e, d')) (hle : e.length = n) :
    ∃ (r r' : DataObj α) (cells : List (List α)), bin sqrt p d toBin b = .ok r ∧
      (∀ c ∈ cells, IsCell (keys.map (axisOf d toBin)) c) ∧
      error sqrt r = .ok (cells.map fun c => sqrt (mean
        ((pointsIn d n keys (keys.map (axisOf d toBin)) c).map fun i => e.getD i 0 ^ 2)), r') := by
  obtain ⟨r, Q, cells, h1, h2, h3, h4, h5, h6, h7, h8, h9, h10, h11, h12, h13, h14⟩ :=
    C09_bin_averages hp hkeys hnd h he hle
  have hmonr : r.cols.lookup r.dk.monitor = some (cells.map fun _ => m) := by
    rw [h10, h8 _ hmon _ hd.hmon]
    congr 1
    apply List.map_congr_left
    intro c hc
    have hne : pointsIn d n keys (keys.map (axisOf d toBin)) c ≠ [] := by
      rw [h5, List.mem_filter] at hc
      simpa using hc.2
    have hconst : (pointsIn d n keys (keys.map (axisOf d toBin)) c).map
        (fun i => (List.replicate n m).getD i 0) =
        List.replicate (pointsIn d n keys (keys.map (axisOf d toBin)) c).length m := by
      rw [List.eq_replicate_iff]
      refine ⟨by simp, ?_⟩
      intro x hx
      obtain ⟨i, hi, rfl⟩ := List.mem_map.1 hx
      have hi' : i < n := List.mem_range.1 (List.mem_filter.1 hi).1
      rw [List.getD_eq_getElem _ _ (by simpa using hi')]
      simp
    unfold mean
    rw [hconst, List.sum_replicate, List.length_replicate, nsmul_eq_mul]
    have : ((pointsIn d n keys (keys.map (axisOf d toBin)) c).length : α) ≠ 0 := by
      rw [Nat.cast_ne_zero]
      exact fun h0 => hne (List.eq_nil_of_length_eq_zero h0)
    field_simp
  refine ⟨r, r, cells, h1, ?_, ?_⟩
  · intro c hc
    rw [h5, List.mem_filter] at hc
    exact (h2 c).1 hc.1
  · have hnorm : normalise r = .ok (r, cells.map fun _ => m, m) := by
      unfold normalise DataObj.monitor
      rw [h14, htn]
      simp only [Bool.false_eq_true, if_false, get_eq_ok.2 hmonr, ok_bind]
      rw [h12, h0]
      simp only [hm, if_false]
      rw [pure_ok, Except.ok.injEq, Prod.mk.injEq]
      refine ⟨?_, rfl⟩
      rw [← h0, ← h12, ← htn, ← h14]
    unfold error rawError
    rw [h9]
    simp only [ok_bind, hnorm]
    unfold bcast
    rw [if_pos (by simp), ok_bind, pure_ok]
    congr 2
    rw [List.zipWith_map, List.map_zipWith]
    clear h5 hmonr h7 h8 h9 hnorm
    induction cells with
    | nil => rfl
    | cons c cs ih =>
      simp only [List.zipWith_cons_cons, List.map_cons]
      rw [ih, div_mul_cancel₀ _ hm]

example : Counted { exBin with m0 := 1 } 3 [10, 20, 30] (List.replicate 3 1) [1, 1, 1] where
  pos := by decide
  names := by decide
  hdet := rfl
  hmon := rfl
  htime := rfl
  ldet := rfl
  lmon := rfl
  ltime := rfl
  lerr := by intro e h; cases h

/-- **C14 is false** when the normaliser is not the monitor count, for example
after combining in place: two points with stored error 2, monitor 2 and normaliser
1 report the error 1 each, but the rebinned data set reports 1/2.  (The only square
root taken is that of 1, so `id` stands for it.) -/
theorem C14_error_normalised_twice :
    ∃ (d r : DataObj ℚ), d.err = some [2, 2] ∧ d.cols.lookup "monitor" = some [2, 2] ∧
      (error id d).map Prod.fst = .ok [1, 1] ∧ bin id 1 d [("h", ⟨0, 2, 1⟩)] false = .ok r ∧
      r.err = some [1] ∧ (error id r).map Prod.fst = .ok [1 / 2] := by
  refine ⟨{ emptyData with
      cols := [("h", [0, 1]), ("detector", [4, 4]), ("monitor", [2, 2]), ("time", [1, 1])]
      m0 := 1
      err := some [2, 2] },
    { emptyData with
      cols := [("h", [1]), ("detector", [4]), ("monitor", [2]), ("time", [1])]
      m0 := 1
      err := some [1] }, ?_⟩
  decide +kernel

/-! ## C76 -/

/-- A data set whose first coordinate is called `QX`, as several loaders make. -/
def exQX : DataObj ℚ :=
  { emptyData with
    cols := [("QX", [0, 1 / 2, 1]), ("k", [0, 0, 0]), ("l", [2, 2, 2]), ("e", [5, 5, 5]),
      ("temp", [300, 300, 300]), ("detector", [10, 20, 30]), ("monitor", [1, 1, 1]),
      ("time", [1, 1, 1])]
    qk := ⟨"QX", "k", "l", "e", "temp"⟩ }

/-- **C76 is false**: naming the axis by its role (`h`) the requested grid is
silently ignored and one row comes back; naming it by the column (`QX`) the axis
is used twice, so that a two-cell grid returns four rows. -/
theorem C76_bin_other_names :
    (bin id 1 exQX [("h", ⟨0, 1, 2⟩)] true).map (fun r => r.cols.lookup "detector") =
      .ok (some [20]) ∧
    (bin id 1 exQX [("QX", ⟨0, 1, 2⟩)] true).map (fun r => r.cols.lookup "detector") =
      .ok (some [15, 20, 20, 25]) := by decide +kernel

/-- **C76** with the default naming every requested axis is used exactly once, and
so are all coordinates.  Missing: other names. -/
theorem C76_axes_partial {toBin : List (String × BinAxis α)} (h : (toBin.map Prod.fst).Nodup) :
    (binKeys toBin .default true).Nodup ∧
      ∀ k, k ∈ binKeys toBin .default true ↔
        k ∈ toBin.map Prod.fst ∨ k ∈ ["h", "k", "l", "e", "temp"] := by
  refine ⟨nodup_binKeys h true, fun k => ⟨fun hk => ?_, fun hk => ?_⟩⟩
  · exact mem_binKeys hk
  · unfold binKeys
    simp only [if_true, List.foldl_cons, List.foldl_nil, QKeys.default]
    have step : ∀ (ks : List String) (a : String), k ∈ ks.erase a ++ [a] ↔ k ∈ ks ∨ k = a := by
      intro ks a
      by_cases hka : k = a
      · simp [hka]
      · simp [List.mem_erase_of_ne hka, hka]
    simp only [step]
    simp only [List.mem_cons, List.not_mem_nil, or_false] at hk
    tauto

end Verif.Data
