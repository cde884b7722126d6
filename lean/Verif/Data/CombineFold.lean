import Verif.Data.CombineMap

set_option linter.unusedSectionVars false

/-! Combining many exact scans: the order does not matter. -/

namespace Verif.Data

variable {α : Type} [Field α] [LinearOrder α]

/-- Number of count columns among `keys`. -/
def ncountKeys (dk : DataKeys) (keys : List String) : Nat :=
  (keys.filter (fun k => decide (k ∈ dk.values))).length

/-- `d` holds the sum of the row lists in `P`. -/
structure Holds (dk : DataKeys) (keys : List String) (d : DataObj α) (P : List (List (Row α)))
    (R : List (Row α)) : Prop where
  dk_eq : d.dk = dk
  repr : Repr dk keys d.cols R
  distinct : DistinctCoords R
  coords : coordsOf R = {c | ∃ A ∈ P, c ∈ coordsOf A}
  counts : ∀ c i, countsMap R c i = (P.map fun A => countsMap A c i).sum

theorem nrows_eq {t : Table α} {n : Nat} (h : Rect n t) (hne : t ≠ []) : nrows t = n := by
  cases t with
  | nil => exact absurd rfl hne
  | cons c cs => simp [nrows, h c (by simp)]

theorem Scan.ne_nil {dk : DataKeys} {keys : List String} {d : DataObj α} (h : Scan dk keys d) :
    d.cols ≠ [] := by
  obtain ⟨k, hk, _⟩ := h.coord
  rintro e
  rw [← h.keys_eq, e] at hk
  simp at hk

theorem Scan.combinable {dk : DataKeys} {keys : List String} {a b : DataObj α}
    (ha : Scan dk keys a) (hb : Scan dk keys b) :
    Combinable a b (nrows a.cols) (nrows b.cols) where
  keys := by rw [ha.keys_eq, hb.keys_eq]
  nodup := by rw [ha.keys_eq]; exact ha.nodup
  rectA := ha.rect
  rectB := hb.rect
  dk := by rw [ha.dk_eq, hb.dk_eq]
  names := by rw [ha.dk_eq]; exact ha.names
  present := by rw [ha.dk_eq, ha.keys_eq]; exact ha.present
  coord := by rw [ha.dk_eq, ha.keys_eq]; exact ha.coord

theorem Scan.ncoord {dk : DataKeys} {keys : List String} {a : DataObj α} (ha : Scan dk keys a) :
    ncoord a = ncoordKeys dk keys := by
  rw [Verif.Data.ncoord, ncoordKeys, ← ha.keys_eq, ← ha.dk_eq, List.filter_map, List.length_map]; rfl

theorem Holds.scan {dk : DataKeys} {keys : List String} {d e : DataObj α} {P R}
    (h : Holds dk keys d P R) (he : Scan dk keys e) : Scan dk keys d := by
  have hne : d.cols ≠ [] := by
    intro h0
    obtain ⟨k, hk, _⟩ := he.coord
    rw [← h.repr.keys, h0] at hk
    simp at hk
  refine ⟨h.dk_eq, h.repr.keys, he.nodup, ?_, he.names, he.present, he.coord⟩
  rw [nrows_eq h.repr.rect hne]; exact h.repr.rect

theorem Holds.rows {dk : DataKeys} {keys : List String} {d e : DataObj α} {P R}
    (h : Holds dk keys d P R) (he : Scan dk keys e) : rows d = R := by
  rw [Verif.Data.rows, nrows_eq h.repr.rect (h.scan he).ne_nil, h.dk_eq, h.repr.rows]

theorem Scan.repr {dk : DataKeys} {keys : List String} {d : DataObj α} (h : Scan dk keys d) :
    Repr dk keys d.cols (Verif.Data.rows d) := by
  have := repr_init (dk := d.dk) h.rect
  rw [h.keys_eq] at this
  rw [← h.dk_eq]
  exact this

theorem Scan.holds {dk : DataKeys} {keys : List String} {d : DataObj α} (h : Scan dk keys d)
    (hd : DistinctCoords (Verif.Data.rows d)) :
    Holds dk keys d [Verif.Data.rows d] (Verif.Data.rows d) := by
  refine ⟨h.dk_eq, h.repr, hd, ?_, ?_⟩
  · ext c; simp
  · intro c i; simp

theorem Repr.counts_length {dk : DataKeys} {keys : List String} {t : Table α} {R : List (Row α)}
    (h : Repr dk keys t R) : ∀ r ∈ R, r.counts.length = ncountKeys dk keys := by
  intro r hr
  rw [← h.rows] at hr
  rw [rowsOf_counts_length hr, h.keys]; rfl

theorem combine_holds {dk : DataKeys} {keys : List String} {a b e : DataObj α} {P Q R S}
    {tols : Option (Tols α)} {ts : List α} (he : Scan dk keys e)
    (ht : TolsMean (ncoordKeys dk keys) tols ts)
    (ha : Holds dk keys a P R) (hb : Holds dk keys b Q S)
    (hsep : ∀ A ∈ P, ∀ B ∈ Q, ∀ x ∈ A, ∀ y ∈ B, Near ts x y ↔ x.coord = y.coord) :
    ∃ (t : Table α) (T : List (Row α)), combineTable a b tols = .ok t ∧
      combineInPlace a b tols = .ok { a with cols := t } ∧
      Holds dk keys { a with cols := t } (P ++ Q) T ∧ T.Pairwise CoordLe := by
  have sa := ha.scan he
  have sb := hb.scan he
  obtain ⟨t, h1, h2⟩ := combineTable_refines (sa.combinable sb) (by rw [sa.ncoord]; exact ht)
  have hRa : rowsOf a.dk (nrows a.cols) a.cols = R := ha.rows he
  have hRb : rowsOf a.dk (nrows b.cols) b.cols = S := by
    have := hb.rows he
    rw [rows, hb.dk_eq] at this
    rw [ha.dk_eq]; exact this
  rw [hRa, hRb, ha.dk_eq, sa.keys_eq] at h2
  have hmem : ∀ {d : DataObj α} {P R}, Holds dk keys d P R → ∀ x ∈ R, ∃ A ∈ P, ∃ x' ∈ A,
      x'.coord = x.coord := by
    intro d P R h x hx
    have : x.coord ∈ coordsOf R := ⟨x, hx, rfl⟩
    rw [h.coords] at this
    exact this
  have hsep' : ∀ x ∈ R, ∀ y ∈ S, Near ts x y ↔ x.coord = y.coord := by
    intro x hx y hy
    obtain ⟨A, hA, x', hx', ex⟩ := hmem ha x hx
    obtain ⟨B, hB, y', hy', ey⟩ := hmem hb y hy
    rw [← ex, ← ey, ← hsep A hA B hB x' hx' y' hy']
    exact Near.congr ex.symm ey.symm
  have hp := isort_perm rowLe (specMerge ts R S)
  have hla := ha.repr.counts_length
  have hlb := hb.repr.counts_length
  refine ⟨t, _, h1, by unfold combineInPlace; rw [h1]; rfl, ⟨ha.dk_eq, h2, ?_, ?_, ?_⟩,
    pairwise_sorted _⟩
  · unfold DistinctCoords
    rw [(hp.map _).nodup_iff]
    exact distinct_specMerge ts R S ha.distinct hb.distinct (fun x hx y hy => (hsep' x hx y hy).2)
  · rw [coordsOf_perm hp, coordsOf_specMerge ts R S (fun x hx y hy => (hsep' x hx y hy).1),
      ha.coords, hb.coords]
    ext c
    simp only [Set.mem_union, Set.mem_ofPred_eq, List.mem_append]
    constructor
    · rintro (⟨A, h, h'⟩ | ⟨A, h, h'⟩)
      · exact ⟨A, Or.inl h, h'⟩
      · exact ⟨A, Or.inr h, h'⟩
    · rintro ⟨A, h | h, h'⟩
      · exact Or.inl ⟨A, h, h'⟩
      · exact Or.inr ⟨A, h, h'⟩
  · intro c i
    rw [countsMap_perm hp, countsMap_specMerge ts R S hla hlb
      (fun x hx y hy => (hsep' x hx y hy).1), ha.counts, hb.counts]
    simp

theorem holds_unique {dk : DataKeys} {keys : List String} {a b : DataObj α} {P Q R S}
    (hn : keys.Nodup) (ha : Holds dk keys a P R) (hb : Holds dk keys b Q S) (hPQ : P.Perm Q)
    (sR : R.Pairwise CoordLe) (sS : S.Pairwise CoordLe) : a.cols = b.cols := by
  have : R = S := by
    refine canonical ha.distinct hb.distinct ha.repr.counts_length hb.repr.counts_length sR sS
      ?_ ?_
    · rw [ha.coords, hb.coords]; ext c; simp only [Set.mem_ofPred_eq, hPQ.mem_iff]
    · intro c i; rw [ha.counts, hb.counts]; exact (hPQ.map _).sum_eq
  subst this
  exact table_ext (dk := dk) (by rw [ha.repr.keys, hb.repr.keys]) (by rw [ha.repr.keys]; exact hn)
    ha.repr.rect hb.repr.rect (by rw [ha.repr.rows, hb.repr.rows])

theorem fold_holds {dk : DataKeys} {keys : List String} {tols : Option (Tols α)} {ts : List α}
    (ht : TolsMean (ncoordKeys dk keys) tols ts) (ds : List (DataObj α))
    (hs : ∀ d ∈ ds, Scan dk keys d ∧ DistinctCoords (rows d)) (acc : DataObj α) (P R)
    (hacc : Holds dk keys acc P R) (hsep : ∀ A ∈ P ++ ds.map rows, ∀ B ∈ P ++ ds.map rows,
      ∀ x ∈ A, ∀ y ∈ B, Near ts x y ↔ x.coord = y.coord) :
    ∃ r T, ds.foldlM (fun acc e => combineInPlace acc e tols) acc = .ok r ∧
      Holds dk keys r (P ++ ds.map rows) T ∧ (ds ≠ [] → T.Pairwise CoordLe) := by
  induction ds generalizing acc P R with
  | nil => exact ⟨acc, R, rfl, by simpa using hacc, fun h => absurd rfl h⟩
  | cons d ds ih =>
    obtain ⟨hd, hdd⟩ := hs d (by simp)
    obtain ⟨t, T, _, h2, h3, h4⟩ := combine_holds hd ht hacc (hd.holds hdd)
      (fun A hA B hB => hsep A (by simp [hA]) B (by
        rw [List.mem_singleton] at hB; subst hB; simp))
    obtain ⟨r, T', h5, h6, h7⟩ := ih (fun d' h => hs d' (by simp [h])) _ _ _ h3
      (by simpa using hsep)
    refine ⟨r, T', ?_, by simpa using h6, ?_⟩
    · rw [List.foldlM_cons, h2]; exact h5
    · intro _
      by_cases hds : ds = []
      · subst hds
        simp only [List.foldlM_nil] at h5
        cases h5
        have hT : T' = T := by
          have e1 := h6.rows hd
          have e2 := h3.rows hd
          rw [← e1, ← e2]
        rw [hT]; exact h4
      · exact h7 hds

theorem forall₂_zero [IsStrictOrderedRing α] (n : Nat) : ∀ xs ys : List α, xs.length = n →
    ys.length = n →
    (List.Forall₂ (fun (p : α × α) t => |p.1 - p.2| ≤ t) (xs.zip ys) (List.replicate n 0)
      ↔ xs = ys) := by
  induction n with
  | zero => intro xs ys hx hy; simp_all
  | succ n ih =>
    intro xs ys hx hy
    match xs, ys, hx, hy with
    | x :: xs, y :: ys, hx, hy =>
      simp only [List.length_cons, Nat.add_right_cancel_iff] at hx hy
      simp only [List.zip_cons_cons, List.replicate_succ, List.forall₂_cons, abs_nonpos_iff,
        sub_eq_zero, List.cons.injEq]
      rw [ih xs ys hx hy]

theorem load_holds {dk : DataKeys} {keys : List String} {tol : Tols α} {ts : List α}
    (ht : TolsMean (ncoordKeys dk keys) (some tol) ts) {ds : List (DataObj α)} (hne : ds ≠ [])
    (hs : ∀ d ∈ ds, Scan dk keys d ∧ DistinctCoords (rows d))
    (hsep : ∀ d ∈ ds, ∀ e ∈ ds, ∀ x ∈ rows d, ∀ y ∈ rows e, Near ts x y ↔ x.coord = y.coord) :
    ∃ r T, loadFiles tol ds = .ok r ∧ Holds dk keys r (ds.map rows) T ∧
      (2 ≤ ds.length → T.Pairwise CoordLe) := by
  cases ds with
  | nil => exact absurd rfl hne
  | cons d ds =>
    obtain ⟨hd, hdd⟩ := hs d (by simp)
    have hlen : d.cols.length - 3 = ncoordKeys dk keys := by
      rw [(hd.combinable hd).length, hd.ncoord]
    have ht' : TolsMean (ncoordKeys dk keys) (some (match tol with
      | .scalar t => .vec (List.replicate (d.cols.length - 3) t)
      | .vec ts => .vec ts)) ts := by
      cases tol with
      | scalar t =>
        cases ht
        rw [hlen]
        exact .vec _ (by simp)
      | vec us => exact ht
    obtain ⟨r, T, h1, h2, h3⟩ := fold_holds ht' ds (fun e he => hs e (by simp [he])) d
      [rows d] (rows d) (hd.holds hdd) (by
        intro A hA B hB x hx y hy
        have hA' : A ∈ (d :: ds).map rows := by simpa using hA
        have hB' : B ∈ (d :: ds).map rows := by simpa using hB
        obtain ⟨d1, m1, rfl⟩ := List.mem_map.1 hA'
        obtain ⟨d2, m2, rfl⟩ := List.mem_map.1 hB'
        exact hsep d1 m1 d2 m2 x hx y hy)
    refine ⟨r, T, h1, by simpa using h2, fun hl => h3 ?_⟩
    rintro rfl
    simp at hl

end Verif.Data
