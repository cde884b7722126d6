import Verif.Data.CombineFold

set_option linter.unusedSectionVars false

/-!
# Properties C01–C04 and C06: combining data sets

Theorems about `Data.combine_data` for all combinable data sets (any number of
rows, any columns) and every documented form of the tolerance argument.
-/

namespace Verif.Data

variable {α : Type} [Field α] [LinearOrder α]

/-- What `combine_data` leaves behind, in one statement: used by the theorems
below. -/
theorem combine_result {a b : DataObj α} {na nb : Nat} (hc : Combinable a b na nb)
    {tols : Option (Tols α)} {ts : List α} (ht : TolsMean (ncoord a) tols ts) :
    ∃ (t : Table α) (R : List (Row α)), combineTable a b tols = .ok t ∧
      combineInPlace a b tols = .ok { a with cols := t } ∧
      combineRet a b tols = .ok { emptyData with cols := t } ∧
      R = isort rowLe (specMerge ts (rowsOf a.dk na a.cols) (rowsOf a.dk nb b.cols)) ∧
      Repr a.dk (a.cols.map Prod.fst) t R := by
  obtain ⟨t, h1, h2⟩ := combineTable_refines hc ht
  refine ⟨t, _, h1, ?_, ?_, rfl, h2⟩
  · unfold combineInPlace; rw [h1]; rfl
  · unfold combineRet; rw [h1]; rfl

/-- A concrete pair of data sets used in the examples below. -/
def exA : DataObj ℚ where
  cols := [("h", [0, 1, 2]), ("e", [5, 5, 4]), ("detector", [10, 20, 30]),
           ("monitor", [1, 1, 1]), ("time", [7, 8, 9])]
  dk := .default
  qk := .default
  m0 := 1
  t0 := 9
  timeNorm := false
  err := none

/-- See `exA`. -/
def exB : DataObj ℚ where
  cols := [("h", [2, 3]), ("e", [4, 4]), ("detector", [100, 200]),
           ("monitor", [2, 2]), ("time", [3, 3])]
  dk := .default
  qk := .default
  m0 := 2
  t0 := 3
  timeNorm := false
  err := none

theorem exAB : Combinable exA exB 3 2 where
  keys := rfl
  nodup := by decide
  rectA := by unfold Rect; decide
  rectB := by unfold Rect; decide
  dk := rfl
  names := by decide
  present := by decide
  coord := ⟨"h", by decide, by decide⟩

theorem exAB_tols : TolsMean (ncoord exA) (none : Option (Tols ℚ)) [5 / 10000, 5 / 10000] :=
  TolsMean.default

/-- **C01** combining conserves detector, monitor and time counts.  Partial: the columns are of one type of exact numbers; for an array of
integers to which counts are added that are not whole it is false (`Whole.C188_combine_false`). -/
theorem C01_combine_conserves_counts_partial {a b : DataObj α} {na nb : Nat} (hc : Combinable a b na nb)
    {tols : Option (Tols α)} {ts : List α} (ht : TolsMean (ncoord a) tols ts)
    {key : String} (hkey : key = a.dk.detector ∨ key = a.dk.monitor ∨ key = a.dk.time) :
    ∃ (r : DataObj α) (ca cb cr : List α), combineInPlace a b tols = .ok r ∧
      a.cols.lookup key = some ca ∧ b.cols.lookup key = some cb ∧ r.cols.lookup key = some cr ∧
      cr.sum = ca.sum + cb.sum := by
  have hk : key ∈ a.dk.values := by
    rcases hkey with rfl | rfl | rfl <;> simp [DataKeys.values]
  obtain ⟨t, R, _, h2, _, hR, hrep⟩ := combine_result hc ht
  have hka := hc.present key hk
  obtain ⟨ca, la, _⟩ := lookup_rect hc.rectA hka
  obtain ⟨cb, lb, _⟩ := lookup_rect hc.rectB (hc.keys ▸ hka)
  obtain ⟨cr, lr, _⟩ := lookup_rect hrep.rect (hrep.keys ▸ hka)
  refine ⟨_, ca, cb, cr, h2, la, lb, lr, ?_⟩
  rw [column_counts hk hc.rectA la, column_counts hk hc.rectB lb, column_counts hk hrep.rect lr,
    hrep.rows, hrep.keys, hc.keys]
  have hp : R.Perm (specMerge ts (rowsOf a.dk na a.cols) (rowsOf a.dk nb b.cols)) := by
    rw [hR]; exact isort_perm _ _
  rw [(hp.map _).sum_eq]
  exact sum_specMerge _ ts _ _ (fun r hr => rowsOf_counts_length hr)
    (fun r hr => by rw [rowsOf_counts_length hr, hc.keys])

example : ∃ (r : DataObj ℚ) (ca cb cr : List ℚ), combineInPlace exA exB = .ok r ∧
    exA.cols.lookup "detector" = some ca ∧ exB.cols.lookup "detector" = some cb ∧
    r.cols.lookup "detector" = some cr ∧ cr.sum = ca.sum + cb.sum :=
  C01_combine_conserves_counts_partial exAB exAB_tols (Or.inl rfl)

/-- **C02** rows of the result: every left coordinate row once, and exactly the
right coordinate rows no left row is close to; the column names are kept and all
columns have the resulting length. -/
theorem C02_combine_coordinates {a b : DataObj α} {na nb : Nat} (hc : Combinable a b na nb)
    {tols : Option (Tols α)} {ts : List α} (ht : TolsMean (ncoord a) tols ts) :
    ∃ (r : DataObj α) (n : Nat), combineInPlace a b tols = .ok r ∧
      r.cols.map Prod.fst = a.cols.map Prod.fst ∧ Rect n r.cols ∧
      ((rowsOf a.dk n r.cols).map Row.coord).Perm
        ((rowsOf a.dk na a.cols).map Row.coord ++
          ((rowsOf a.dk nb b.cols).filter fun y =>
            ∀ x ∈ rowsOf a.dk na a.cols, ¬ Near ts x y).map Row.coord) ∧
      n = na + ((rowsOf a.dk nb b.cols).filter fun y =>
            ∀ x ∈ rowsOf a.dk na a.cols, ¬ Near ts x y).length := by
  obtain ⟨t, R, _, h2, _, hR, hrep⟩ := combine_result hc ht
  have hp : R.Perm (specMerge ts (rowsOf a.dk na a.cols) (rowsOf a.dk nb b.cols)) := by
    rw [hR]; exact isort_perm _ _
  have hf : (rowsOf a.dk nb b.cols).filter (fun y =>
      decide (∀ x ∈ rowsOf a.dk na a.cols, ¬ Near ts x y))
      = (rowsOf a.dk nb b.cols).filter (fun y =>
        decide (firstNear ts (rowsOf a.dk na a.cols) y = none)) := by
    congr 1; funext y; rw [decide_eq_decide]; exact firstNear_none.symm
  have hperm : ((rowsOf a.dk R.length t).map Row.coord).Perm
        ((rowsOf a.dk na a.cols).map Row.coord ++
          ((rowsOf a.dk nb b.cols).filter fun y =>
            ∀ x ∈ rowsOf a.dk na a.cols, ¬ Near ts x y).map Row.coord) := by
    rw [hf, ← map_coord_specMerge, hrep.rows]
    exact hp.map _
  refine ⟨_, R.length, h2, hrep.keys, hrep.rect, hperm, ?_⟩
  have := hperm.length_eq
  simpa [rowsOf] using this

example : ∃ (r : DataObj ℚ) (n : Nat), combineInPlace exA exB = .ok r ∧ n = 4 ∧ Rect n r.cols := by
  obtain ⟨r, n, h1, _, h3, _, h5⟩ := C02_combine_coordinates exAB exAB_tols
  refine ⟨r, n, h1, ?_, h3⟩
  rw [h5]; decide +kernel

/-- **C03** the counts of the result: row `j` of the left data set gets the
counts of exactly the right rows for which it is the first close row; the
unmatched right rows keep their counts.  Partial: columns of one type of exact
numbers; for mixed types see `Whole.C06_types_false`. -/
theorem C03_first_match_partial {a b : DataObj α} {na nb : Nat} (hc : Combinable a b na nb)
    {tols : Option (Tols α)} {ts : List α} (ht : TolsMean (ncoord a) tols ts) :
    ∃ (r : DataObj α) (n : Nat) (L : List (Row α)), combineInPlace a b tols = .ok r ∧
      Rect n r.cols ∧ L.length = na ∧
      (rowsOf a.dk n r.cols).Perm (L ++
        (rowsOf a.dk nb b.cols).filter fun y => ∀ x ∈ rowsOf a.dk na a.cols, ¬ Near ts x y) ∧
      ∀ j (hL : j < L.length) (hA : j < (rowsOf a.dk na a.cols).length),
        L[j].coord = (rowsOf a.dk na a.cols)[j].coord ∧
        L[j].counts.length = (rowsOf a.dk na a.cols)[j].counts.length ∧
        ∀ i, L[j].counts.getD i 0 = (rowsOf a.dk na a.cols)[j].counts.getD i 0 +
          (((rowsOf a.dk nb b.cols).filter fun y =>
            Near ts (rowsOf a.dk na a.cols)[j] y ∧
            ∀ x ∈ (rowsOf a.dk na a.cols).take j, ¬ Near ts x y).map
              fun y => y.counts.getD i 0).sum := by
  obtain ⟨t, R, _, h2, _, hR, hrep⟩ := combine_result hc ht
  have hp : R.Perm (specMerge ts (rowsOf a.dk na a.cols) (rowsOf a.dk nb b.cols)) := by
    rw [hR]; exact isort_perm _ _
  have hf : (rowsOf a.dk nb b.cols).filter (fun y =>
      decide (∀ x ∈ rowsOf a.dk na a.cols, ¬ Near ts x y))
      = (rowsOf a.dk nb b.cols).filter (fun y =>
        decide (firstNear ts (rowsOf a.dk na a.cols) y = none)) := by
    congr 1; funext y; rw [decide_eq_decide]; exact firstNear_none.symm
  refine ⟨_, R.length, _, h2, hrep.rect, ?_, by rw [hf, hrep.rows]; exact hp, ?_⟩
  · simp [rowsOf]
  intro j hL hA
  have hg : (rowsOf a.dk nb b.cols).filter (fun y =>
      decide (Near ts (rowsOf a.dk na a.cols)[j] y ∧
            ∀ x ∈ (rowsOf a.dk na a.cols).take j, ¬ Near ts x y))
      = (rowsOf a.dk nb b.cols).filter (fun y =>
        decide (firstNear ts (rowsOf a.dk na a.cols) y = some j)) := by
    congr 1; funext y; rw [decide_eq_decide, firstNear_some]
    constructor
    · rintro ⟨h1, h2⟩
      exact ⟨hA, h1, fun j' h' => h2 _ (List.mem_take_iff_getElem.2 ⟨j', by omega, rfl⟩)⟩
    · rintro ⟨_, h1, h2⟩
      refine ⟨h1, fun x hx => ?_⟩
      obtain ⟨j', h', rfl⟩ := List.mem_take_iff_getElem.1 hx
      exact h2 j' (by omega)
  have hla : ∀ r ∈ rowsOf a.dk na a.cols, r.counts.length =
      ((a.cols.map Prod.fst).filter (fun k => decide (k ∈ a.dk.values))).length :=
    fun r hr => rowsOf_counts_length hr
  have hlb : ∀ r ∈ rowsOf a.dk nb b.cols, r.counts.length =
      ((a.cols.map Prod.fst).filter (fun k => decide (k ∈ a.dk.values))).length :=
    fun r hr => by rw [rowsOf_counts_length hr, hc.keys]
  rw [List.getElem_mapIdx]
  refine ⟨foldl_add_coord _ _, ?_, ?_⟩
  · rw [foldl_add_counts_length _ _ (hla _ (List.getElem_mem _))
      (fun y hy => hlb y (List.mem_of_mem_filter hy)), hla _ (List.getElem_mem _)]
  · intro i
    rw [foldl_add_count i _ _ (hla _ (List.getElem_mem _))
      (fun y hy => hlb y (List.mem_of_mem_filter hy)), hg]

/-- With overlapping windows the first row wins: here both left rows are within
tolerance of the right row, and the counts go to the first. -/
example : ∃ t, combineTable exA exB (some (.scalar 1)) = .ok t ∧
    t.lookup "h" = some [2, 0, 1] ∧ t.lookup "e" = some [4, 5, 5] ∧
    t.lookup "detector" = some [230, 10, 120] := by
  refine ⟨[("h", [2, 0, 1]), ("e", [4, 5, 5]), ("detector", [230, 10, 120]),
           ("monitor", [3, 1, 3]), ("time", [12, 7, 11])], ?_, by decide, by decide, by decide⟩
  decide +kernel

/-- **C04** the rows of the result are a reordering of the merged rows, sorted
with the last coordinate column as primary key, and stable: rows with equal
coordinates stay in the order left rows (in their order), then appended right
rows (in their order). -/
theorem C04_sorted {a b : DataObj α} {na nb : Nat} (hc : Combinable a b na nb)
    {tols : Option (Tols α)} {ts : List α} (ht : TolsMean (ncoord a) tols ts) :
    ∃ (r : DataObj α) (n : Nat), combineInPlace a b tols = .ok r ∧ Rect n r.cols ∧
      (rowsOf a.dk n r.cols).Pairwise CoordLe ∧
      (rowsOf a.dk n r.cols).Perm
        (specMerge ts (rowsOf a.dk na a.cols) (rowsOf a.dk nb b.cols)) ∧
      ∀ c : List α, (rowsOf a.dk n r.cols).filter (fun x => decide (x.coord = c)) =
        (specMerge ts (rowsOf a.dk na a.cols) (rowsOf a.dk nb b.cols)).filter
          (fun x => decide (x.coord = c)) := by
  obtain ⟨t, R, _, h2, _, hR, hrep⟩ := combine_result hc ht
  refine ⟨_, R.length, h2, hrep.rect, ?_, ?_, ?_⟩
  · rw [hrep.rows, hR]; exact pairwise_sorted _
  · rw [hrep.rows, hR]; exact isort_perm _ _
  · intro c; rw [hrep.rows, hR]; exact stable_sort _ _

example : ∃ (r : DataObj ℚ) (n : Nat), combineInPlace exA exB = .ok r ∧ Rect n r.cols ∧
    (rowsOf exA.dk n r.cols).Pairwise CoordLe := by
  obtain ⟨r, n, h1, h2, h3, _⟩ := C04_sorted exAB exAB_tols
  exact ⟨r, n, h1, h2, h3⟩

/-- **C06** (map addition) if rows are close only when their coordinates are
equal, the combined data set measures the union of the coordinates and at each
coordinate the sum of the counts (repeated coordinates allowed).  Partial, like the
other theorems of C06: columns of one type of exact numbers; for mixed types see
`Whole.C06_types_false`. -/
theorem C06_combine_is_map_addition_partial {a b : DataObj α} {na nb : Nat} (hc : Combinable a b na nb)
    {tols : Option (Tols α)} {ts : List α} (ht : TolsMean (ncoord a) tols ts)
    (hsep : Separated ts (rowsOf a.dk na a.cols ++ rowsOf a.dk nb b.cols)) :
    ∃ (r : DataObj α) (n : Nat), combineInPlace a b tols = .ok r ∧ Rect n r.cols ∧
      coordsOf (rowsOf a.dk n r.cols) =
        coordsOf (rowsOf a.dk na a.cols) ∪ coordsOf (rowsOf a.dk nb b.cols) ∧
      ∀ c i, countsMap (rowsOf a.dk n r.cols) c i =
        countsMap (rowsOf a.dk na a.cols) c i + countsMap (rowsOf a.dk nb b.cols) c i := by
  obtain ⟨t, R, _, h2, _, hR, hrep⟩ := combine_result hc ht
  have hp : R.Perm (specMerge ts (rowsOf a.dk na a.cols) (rowsOf a.dk nb b.cols)) := by
    rw [hR]; exact isort_perm _ _
  have hex : ∀ x ∈ rowsOf a.dk na a.cols, ∀ y ∈ rowsOf a.dk nb b.cols,
      Near ts x y → x.coord = y.coord :=
    fun x hx y hy h => (hsep x (by simp [hx]) y (by simp [hy])).1 h
  refine ⟨_, R.length, h2, hrep.rect, ?_, ?_⟩
  · rw [hrep.rows, coordsOf_perm hp, coordsOf_specMerge _ _ _ hex]
  · intro c i
    rw [hrep.rows, countsMap_perm hp]
    exact countsMap_specMerge ts _ _ (fun r hr => rowsOf_counts_length hr)
      (fun r hr => by rw [rowsOf_counts_length hr, hc.keys]) hex c i

/-- Zero tolerances always separate. -/
theorem separated_zero [IsStrictOrderedRing α] {n : Nat} {R : List (Row α)}
    (hl : ∀ r ∈ R, r.coord.length = n) : Separated (List.replicate n 0) R := by
  intro a ha b hb
  exact forall₂_zero n _ _ (hl a ha) (hl b hb)

/-- **C06** (any number of files, any order) loading the same exact scans in a
different order gives the same table. -/
theorem C06_load_order_irrelevant_partial {dk : DataKeys} {keys : List String} {tol : Tols α} {ts : List α}
    (ht : TolsMean (ncoordKeys dk keys) (some tol) ts) {ds ds' : List (DataObj α)}
    (hperm : ds.Perm ds') (hne : ds ≠ [])
    (hs : ∀ d ∈ ds, Scan dk keys d ∧ DistinctCoords (rows d))
    (hsep : ∀ d ∈ ds, ∀ e ∈ ds, ∀ x ∈ rows d, ∀ y ∈ rows e, Near ts x y ↔ x.coord = y.coord) :
    ∃ r r', loadFiles tol ds = .ok r ∧ loadFiles tol ds' = .ok r' ∧ r.cols = r'.cols := by
  have hlen := hperm.length_eq
  have hne' : ds' ≠ [] := by rintro rfl; simp at hlen; exact hne hlen
  obtain ⟨r, T, h1, h2, h3⟩ := load_holds ht hne hs hsep
  obtain ⟨r', T', h1', h2', h3'⟩ := load_holds ht hne'
    (fun d hd => hs d (hperm.mem_iff.2 hd))
    (fun d hd e he => hsep d (hperm.mem_iff.2 hd) e (hperm.mem_iff.2 he))
  refine ⟨r, r', h1, h1', ?_⟩
  by_cases h : 2 ≤ ds.length
  · obtain ⟨d, hd⟩ := List.exists_mem_of_ne_nil ds hne
    exact holds_unique (hs d hd).1.nodup h2 h2' (hperm.map _) (h3 h) (h3' (hlen ▸ h))
  · match ds, ds', hne, hperm with
    | [d], ds', _, hperm =>
      have : ds' = [d] := (List.singleton_perm.1 hperm).symm
      subst this
      rw [h1] at h1'
      cases h1'
      rfl
    | d :: e :: ds, _, _, _ => simp at h

/-- **C06** (commutativity). -/
theorem C06_commutative_partial {dk : DataKeys} {keys : List String} {tols : Option (Tols α)} {ts : List α}
    (ht : TolsMean (ncoordKeys dk keys) tols ts) {a b : DataObj α}
    (ha : Scan dk keys a) (hb : Scan dk keys b)
    (da : DistinctCoords (rows a)) (db : DistinctCoords (rows b))
    (hsep : Separated ts (rows a ++ rows b)) :
    ∃ t, combineTable a b tols = .ok t ∧ combineTable b a tols = .ok t := by
  obtain ⟨t, T, h1, _, h3, h4⟩ := combine_holds ha ht (ha.holds da) (hb.holds db)
    (fun A hA B hB x hx y hy => by
      rw [List.mem_singleton] at hA hB; subst hA; subst hB
      exact hsep x (by simp [hx]) y (by simp [hy]))
  obtain ⟨t', T', h1', _, h3', h4'⟩ := combine_holds ha ht (hb.holds db) (ha.holds da)
    (fun A hA B hB x hx y hy => by
      rw [List.mem_singleton] at hA hB; subst hA; subst hB
      exact hsep x (by simp [hx]) y (by simp [hy]))
  have : t = t' := holds_unique ha.nodup h3 h3' (List.Perm.swap _ _ _) h4 h4'
  exact ⟨t, h1, this ▸ h1'⟩

/-- **C06** (associativity). -/
theorem C06_associative_partial {dk : DataKeys} {keys : List String} {tols : Option (Tols α)} {ts : List α}
    (ht : TolsMean (ncoordKeys dk keys) tols ts) {a b c : DataObj α}
    (ha : Scan dk keys a) (hb : Scan dk keys b) (hc : Scan dk keys c)
    (da : DistinctCoords (rows a)) (db : DistinctCoords (rows b)) (dc : DistinctCoords (rows c))
    (hsep : Separated ts (rows a ++ rows b ++ rows c)) :
    ∃ ab bc t, combineInPlace a b tols = .ok ab ∧ combineInPlace b c tols = .ok bc ∧
      combineTable ab c tols = .ok t ∧ combineTable a bc tols = .ok t := by
  have hs : ∀ A ∈ [rows a, rows b, rows c], ∀ x ∈ A, x ∈ rows a ++ rows b ++ rows c := by
    intro A hA x hx
    simp only [List.mem_cons, List.not_mem_nil, or_false] at hA
    rcases hA with rfl | rfl | rfl <;> simp [hx]
  have hs' : ∀ A ∈ [rows a, rows b, rows c], ∀ B ∈ [rows a, rows b, rows c],
      ∀ x ∈ A, ∀ y ∈ B, Near ts x y ↔ x.coord = y.coord :=
    fun A hA B hB x hx y hy => hsep x (hs A hA x hx) y (hs B hB y hy)
  obtain ⟨t1, T1, _, p1, h1, _⟩ := combine_holds ha ht (ha.holds da) (hb.holds db)
    (fun A hA B hB => hs' A (by simp at hA; simp [hA]) B (by simp at hB; simp [hB]))
  obtain ⟨t2, T2, _, p2, h2, _⟩ := combine_holds ha ht (hb.holds db) (hc.holds dc)
    (fun A hA B hB => hs' A (by simp at hA; simp [hA]) B (by simp at hB; simp [hB]))
  obtain ⟨t3, T3, p3, _, h3, s3⟩ := combine_holds ha ht h1 (hc.holds dc)
    (fun A hA B hB => hs' A (by simp at hA; rcases hA with h | h <;> simp [h]) B
      (by simp at hB; simp [hB]))
  obtain ⟨t4, T4, p4, _, h4, s4⟩ := combine_holds ha ht (ha.holds da) h2
    (fun A hA B hB => hs' A (by simp at hA; simp [hA]) B
      (by simp at hB; rcases hB with h | h <;> simp [h]))
  have : t3 = t4 := holds_unique ha.nodup h3 h4 (by simp) s3 s4
  exact ⟨_, _, t3, p1, p2, p3, this ▸ p4⟩

/-- The hypotheses of the C06 theorems hold for two ordinary scans. -/
example : ∃ t, combineTable exA exB none = .ok t ∧ combineTable exB exA none = .ok t := by
  refine C06_commutative_partial (dk := .default) (keys := exA.cols.map Prod.fst)
    (ts := [5 / 10000, 5 / 10000]) TolsMean.default
    ⟨rfl, rfl, by decide, by unfold Rect; decide, by decide, by decide, ⟨"h", by decide, by decide⟩⟩
    ⟨rfl, rfl, by decide, by unfold Rect; decide, by decide, by decide, ⟨"h", by decide, by decide⟩⟩
    (by unfold DistinctCoords; decide +kernel) (by unfold DistinctCoords; decide +kernel) ?_
  unfold Separated
  decide +kernel

/-- One-column scans with a single point, for the next theorem. -/
def point (h : ℚ) : DataObj ℚ where
  cols := [("h", [h]), ("detector", [1]), ("monitor", [1]), ("time", [1])]
  dk := .default
  qk := .default
  m0 := 1
  t0 := 1
  timeNorm := false
  err := none

/-- **C06** is false once points closer than the tolerance but not equal occur:
three files loaded in two orders give different numbers of points. -/
theorem C06_load_order_matters_with_tolerance :
    ∃ (tol : Tols ℚ) (ds ds' : List (DataObj ℚ)) (r r' : DataObj ℚ), ds.Perm ds' ∧
      loadFiles tol ds = .ok r ∧ loadFiles tol ds' = .ok r' ∧
      (∀ d ∈ ds, Scan .default ["h", "detector", "monitor", "time"] d ∧ DistinctCoords (rows d)) ∧
      r.cols.lookup "detector" = some [3] ∧ r'.cols.lookup "detector" = some [2, 1] := by
  refine ⟨.scalar 1, [point 1, point 0, point 2], [point 0, point 1, point 2],
    { point 1 with cols := [("h", [1]), ("detector", [3]), ("monitor", [3]), ("time", [3])] },
    { point 0 with cols := [("h", [0, 2]), ("detector", [2, 1]), ("monitor", [2, 1]),
        ("time", [2, 1])] }, List.Perm.swap _ _ _, by decide +kernel, by decide +kernel, ?_,
    by decide, by decide⟩
  intro d hd
  simp only [List.mem_cons, List.not_mem_nil, or_false] at hd
  rcases hd with rfl | rfl | rfl <;>
  exact ⟨⟨rfl, rfl, by decide, by unfold Rect; decide, by decide, by decide,
    ⟨"h", by decide, by decide⟩⟩, by unfold DistinctCoords; decide +kernel⟩

end Verif.Data
