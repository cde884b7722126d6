import Verif.Data.BinUnits
import Verif.Data.ErrorProps

set_option linter.unusedSectionVars false

/-!
# Property C220: scaling the counts before and after rebinning
-/

namespace Verif.Data

variable {α : Type} [Field α] [LinearOrder α] [IsStrictOrderedRing α]

/-! ## Lemmas -/

theorem mean_mul (c : α) (xs : List α) : mean (xs.map (· * c)) = mean xs * c := by
  unfold mean
  rw [List.length_map, List.sum_map_mul_right, List.map_id', div_mul_eq_mul_div]

theorem names_put {t : Table α} {k : String} (v : List α) (h : k ∈ t.map Prod.fst) : (t.put k v).map Prod.fst = t.map Prod.fst := by
  obtain ⟨c, _, _, h3⟩ := lookup_isSome_of_mem_keys h
  unfold Table.put
  rw [if_pos (by simp [h3]), List.map_map]
  apply List.map_congr_left
  intro c _
  simp only [Function.comp]
  split <;> simp_all

theorem bin_scaled {sqrt : α → α} {p q : Nat} (hp : 0 < p) (hq : 0 < q) {d : DataObj α} {n : Nat} {det mon time : List α}
    (hd : Counted d n det mon time) {toBin : List (String × BinAxis α)} {hkl : Bool} {keys : List String}
    (hkeys : keys = binKeys toBin d.qk hkl) (hnd : keys.Nodup) (h : Binnable d n keys) (hdet : d.dk.detector ∉ keys)
    (hax : ∀ s ∈ keys.map (axisOf d toBin), s.n = 1 ∨ s.lo < s.hi) (c : α) :
    ∃ ds r rs rd e es, ∃ (cells : List (List α)) (pts : List α → List Nat), mul d c = .ok ds ∧ bin sqrt p d toBin hkl = .ok r ∧
      bin sqrt q ds toBin hkl = .ok rs ∧ mul r c = .ok rd ∧ rs = { rd with err := rs.err } ∧
      e = List.zipWith (fun x y => x / y * normVal d mon time) (errCol sqrt d det) (normCol d mon time) ∧
      es = List.zipWith (fun x y => x / y * normVal d mon time) (errCol sqrt ds (det.map (· * c))) (normCol d mon time) ∧
      ds.err = d.err ∧ rd.err = r.err ∧ (∀ x ∈ cells, ∀ i ∈ pts x, i < n) ∧
      r.err = some (cells.map fun x => sqrt (mean ((pts x).map fun i => e.getD i 0 ^ 2))) ∧
      rs.err = some (cells.map fun x => sqrt (mean ((pts x).map fun i => es.getD i 0 ^ 2))) := by
  obtain ⟨d1, he, -⟩ := hd.error sqrt
  have hle : (List.zipWith (fun x y => x / y * normVal d mon time) (errCol sqrt d det) (normCol d mon time)).length = n := by
    rw [List.length_zipWith, errCol_length hd]
    unfold normCol
    split_ifs <;> simp [hd.lmon, hd.ltime]
  have hmem : d.dk.detector ∈ d.cols.map Prod.fst := by
    by_contra hno
    have : d.cols.lookup d.dk.detector = none := by
      rw [List.lookup_eq_none_iff]
      intro x hx
      have : d.dk.detector ≠ x.1 := by rintro h0; exact hno (h0 ▸ List.mem_map_of_mem hx)
      simpa using this
    rw [hd.hdet] at this
    cases this
  set ds : DataObj α := { d with cols := d.cols.put d.dk.detector (det.map (· * c)) } with hds
  have hmul : mul d c = .ok ds := by
    unfold mul
    rw [show d.detector = .ok det from get_eq_ok.2 hd.hdet]
    rfl
  obtain ⟨ds', hm', hcount, -⟩ := mul_ok hd c
  rw [hmul] at hm'
  obtain rfl := Except.ok.inj hm'
  obtain ⟨d2, he', -⟩ := hcount.error sqrt
  have hle' : (List.zipWith (fun x y => x / y * normVal ds mon time) (errCol sqrt ds (det.map (· * c))) (normCol ds mon time)).length = n := by
    rw [List.length_zipWith, errCol_length hcount]
    unfold normCol
    split_ifs <;> simp [hd.lmon, hd.ltime]
  have hfst : ds.cols.map Prod.fst = d.cols.map Prod.fst := names_put _ hmem
  have hlook : ∀ k, k ≠ d.dk.detector → ds.cols.lookup k = d.cols.lookup k := fun k hk => by simp [hds, lookup_put, hk]
  have hbin : Binnable ds n keys := by
    refine ⟨h.pos, ?_, hfst ▸ h.names, fun k hk => hfst ▸ h.present k hk, h.nonempty⟩
    intro x hx
    simp only [hds, Table.put] at hx
    rw [if_pos (by rw [hd.hdet]; rfl)] at hx
    obtain ⟨y, hy, rfl⟩ := List.mem_map.1 hx
    by_cases hk : y.1 = d.dk.detector
    · rw [if_pos hk, List.length_map, hd.ldet]
    · rw [if_neg hk]
      exact h.rect y hy
  have haxes : keys.map (axisOf ds toBin) = keys.map (axisOf d toBin) := by
    apply List.map_congr_left
    intro k hk
    unfold axisOf
    rw [hlook k fun h0 => hdet (h0 ▸ hk)]
  have hpts : pointsIn ds n keys (keys.map (axisOf ds toBin)) = pointsIn d n keys (keys.map (axisOf d toBin)) := by
    rw [haxes]
    funext x
    unfold pointsIn
    apply List.filter_congr
    intro i _
    have : keys.map (valueAt ds i) = keys.map (valueAt d i) := by
      apply List.map_congr_left
      intro k hk
      unfold valueAt
      rw [hlook k fun h0 => hdet (h0 ▸ hk)]
    rw [this]
  obtain ⟨r, Q, cells, h1, h2, _, h4, h5, h6, h7, h8, h9, h10, h11, h12, h13, h14⟩ := C09_bin_averages hp hkeys hnd h he hle
  obtain ⟨rs, Q', cells', g1, g2, _, g4, g5, g6, g7, g8, g9, g10, g11, g12, g13, g14⟩ :=
    C09_bin_averages hq (d := ds) (toBin := toBin) (b := hkl) hkeys hnd hbin he' hle'
  rw [haxes] at g4
  have hQ : Q' = Q := gridOrder_unique (g4 hax) (h4 hax) fun x => by rw [g2, h2, haxes]
  rw [hpts, hQ, ← h5] at g5
  rw [hpts, g5] at g8 g9
  rw [g5] at g7
  have hdr := h8 _ hdet _ hd.hdet
  have hmr : mul r c = .ok { r with cols := r.cols.put r.dk.detector ((cells.map fun x =>
      mean ((pointsIn d n keys (keys.map (axisOf d toBin)) x).map fun i => det.getD i 0)).map (· * c)) } := by
    unfold mul
    rw [show r.detector = .ok _ from get_eq_ok.2 (by rw [h10]; exact hdr)]
    rfl
  have hcols : rs.cols = r.cols.put r.dk.detector ((cells.map fun x =>
      mean ((pointsIn d n keys (keys.map (axisOf d toBin)) x).map fun i => det.getD i 0)).map (· * c)) := by
    rw [h10]
    have hk' : rs.cols.map Prod.fst = (r.cols.put d.dk.detector ((cells.map fun x =>
        mean ((pointsIn d n keys (keys.map (axisOf d toBin)) x).map fun i => det.getD i 0)).map (· * c))).map Prod.fst := by
      rw [names_put _ (by rw [h6]; exact hmem), g6, hfst, h6]
    apply lookup_ext hk' (by rw [g6, hfst]; exact h.names)
    intro k
    rw [lookup_put]
    by_cases hk : k ∈ keys
    · obtain ⟨j, hj⟩ := List.mem_iff_getElem?.1 hk
      rw [if_neg fun h0 : k = d.dk.detector => hdet (h0 ▸ hk), g7 j k hj, h7 j k hj]
    · by_cases hkd : k = d.dk.detector
      · subst hkd
        rw [if_pos rfl, g8 _ hk _ hcount.hdet, List.map_map]
        congr 1
        apply List.map_congr_left
        intro x _
        rw [Function.comp_apply, ← mean_mul, List.map_map]
        congr 1
        apply List.map_congr_left
        intro i hi
        have hi' : i < det.length := by rw [hd.ldet]; exact List.mem_range.1 (List.mem_filter.1 hi).1
        rw [Function.comp_apply, List.getD_eq_getElem _ _ (by simpa using hi'), List.getD_eq_getElem _ _ hi', List.getElem_map]
      · rw [if_neg hkd]
        cases hl : d.cols.lookup k with
        | some col => rw [g8 k hk col (by rw [hlook k hkd, hl]), h8 k hk col hl]
        | none =>
          have hno : ∀ t : Table α, t.map Prod.fst = d.cols.map Prod.fst → t.lookup k = none := by
            intro t ht
            rw [List.lookup_eq_none_iff] at hl ⊢
            intro x hx
            have : x.1 ∈ d.cols.map Prod.fst := ht ▸ List.mem_map_of_mem hx
            obtain ⟨y, hy, e⟩ := List.mem_map.1 this
            rw [← e]
            exact hl y hy
          rw [hno _ (g6.trans hfst), hno _ h6]
  refine ⟨ds, r, rs, _, _, _, cells, _, hmul, h1, g1, hmr, ?_, rfl, rfl, rfl, rfl, fun x _ i hi => List.mem_range.1 (List.mem_filter.1 hi).1, h9, g9⟩
  have e10 : rs.dk = r.dk := g10.trans h10.symm
  have e11 : rs.qk = r.qk := g11.trans h11.symm
  have e12 : rs.m0 = r.m0 := g12.trans h12.symm
  have e13 : rs.t0 = r.t0 := g13.trans h13.symm
  have e14 : rs.timeNorm = r.timeNorm := g14.trans h14.symm
  clear g1 g6 g7 g8 g9 g10 g11 g12 g13 g14
  cases rs
  simp only at hcols e10 e11 e12 e13 e14
  subst hcols e10 e11 e12 e13 e14
  rfl

/-! ## The theorems -/

/-- **C220** the counts of a data set can be scaled before or after rebinning: coordinates, averages and everything but the errors are the same, whatever the
numbers of processes, and so are errors that were given. -/
theorem C220_scaled_partial {sqrt : α → α} {p q : Nat} (hp : 0 < p) (hq : 0 < q) {d : DataObj α} {n : Nat} {det mon time : List α}
    (hd : Counted d n det mon time) {toBin : List (String × BinAxis α)} {hkl : Bool} {keys : List String}
    (hkeys : keys = binKeys toBin d.qk hkl) (hnd : keys.Nodup) (h : Binnable d n keys) (hdet : d.dk.detector ∉ keys)
    (hax : ∀ s ∈ keys.map (axisOf d toBin), s.n = 1 ∨ s.lo < s.hi) (c : α) :
    ∃ ds r rs rd, mul d c = .ok ds ∧ bin sqrt p d toBin hkl = .ok r ∧ bin sqrt q ds toBin hkl = .ok rs ∧ mul r c = .ok rd ∧
      rs = { rd with err := rs.err } ∧ (d.err ≠ none → rs = rd) := by
  obtain ⟨ds, r, rs, rd, e, es, cells, pts, h1, h2, h3, h4, h5, he, hes, h6, h7, -, h8, h9⟩ := bin_scaled hp hq hd hkeys hnd h hdet hax c
  refine ⟨ds, r, rs, rd, h1, h2, h3, h4, h5, fun hg => ?_⟩
  have : es = e := by
    rw [he, hes]
    unfold errCol
    rw [h6]
    cases hcase : d.err with
    | none => exact absurd hcase hg
    | some x => rfl
  rw [this, ← h8, ← h7] at h9
  rw [h5, h9]

/-- **C220** fails for errors of counting: those of the data rebinned after scaling by `c` are `√c` times those of the data scaled after rebinning. -/
theorem C220_counted_false {p q : Nat} (hp : 0 < p) (hq : 0 < q) {d : DataObj ℝ} {n : Nat} {det mon time : List ℝ}
    (hd : Counted d n det mon time) {toBin : List (String × BinAxis ℝ)} {hkl : Bool} {keys : List String}
    (hkeys : keys = binKeys toBin d.qk hkl) (hnd : keys.Nodup) (h : Binnable d n keys) (hdet : d.dk.detector ∉ keys)
    (hax : ∀ s ∈ keys.map (axisOf d toBin), s.n = 1 ∨ s.lo < s.hi) {c : ℝ} (hc : 0 ≤ c) (hno : d.err = none) :
    ∃ ds r rs rd x, mul d c = .ok ds ∧ bin Real.sqrt p d toBin hkl = .ok r ∧ bin Real.sqrt q ds toBin hkl = .ok rs ∧ mul r c = .ok rd ∧
      rd.err = some x ∧ rs.err = some (x.map (√c * ·)) ∧ (rs.err = rd.err ↔ c = 1 ∨ ∀ y ∈ x, y = 0) := by
  obtain ⟨ds, r, rs, rd, e, es, cells, pts, h1, h2, h3, h4, h5, he, hes, h6, h7, -, h8, h9⟩ := bin_scaled (sqrt := Real.sqrt) hp hq hd hkeys hnd h hdet hax c
  have hee : es = e.map (√c * ·) := by
    rw [he, hes, List.map_zipWith]
    unfold errCol
    rw [h6, hno]
    dsimp only
    rw [List.map_map, List.zipWith_map_left, List.zipWith_map_left]
    congr 1
    funext x y
    rw [Function.comp_apply, Real.sqrt_mul' _ hc]
    ring
  have hrs : rs.err = some ((cells.map fun x => √(mean ((pts x).map fun i => e.getD i 0 ^ 2))).map (√c * ·)) := by
    rw [h9, List.map_map]
    congr 1
    apply List.map_congr_left
    intro x _
    have e1 : ((pts x).map fun i => es.getD i 0 ^ 2) = ((pts x).map fun i => e.getD i 0 ^ 2).map (· * c) := by
      rw [List.map_map]
      apply List.map_congr_left
      intro i _
      have e2 : es.getD i 0 = √c * e.getD i 0 := by
        rw [hee, List.getD_eq_getElem?_getD, List.getD_eq_getElem?_getD, List.getElem?_map]
        cases e[i]? <;> simp
      rw [e2, mul_pow, Real.sq_sqrt hc, Function.comp_apply, mul_comm]
    rw [e1, mean_mul, Real.sqrt_mul' _ hc, Function.comp_apply, mul_comm]
  refine ⟨ds, r, rs, rd, _, h1, h2, h3, h4, h7.trans h8, hrs, ?_⟩
  rw [hrs, h7, h8, Option.some_inj]
  generalize (cells.map fun x => √(mean ((pts x).map fun i => e.getD i 0 ^ 2))) = x
  clear h8 h9 hrs
  induction x with
  | nil => simp
  | cons y x ih =>
    rw [List.map_cons, List.cons.injEq, ih, List.forall_mem_cons]
    have : √c * y = y ↔ c = 1 ∨ y = 0 := by
      constructor
      · intro h0
        by_cases hy : y = 0
        · exact .inr hy
        · exact .inl (Real.sqrt_eq_one.1 (mul_right_cancel₀ hy (by rw [h0, one_mul])))
      · rintro (rfl | rfl)
        · rw [Real.sqrt_one, one_mul]
        · rw [mul_zero]
    rw [this]
    tauto

/-- Three points with errors that were given. -/
def exGivenBin : DataObj ℚ := { exBin with err := some [3, 4, 5] }

example : Counted exGivenBin 3 [10, 20, 30] [1, 1, 1] [1, 1, 1] ∧ exGivenBin.dk.detector ∉ binKeys [("h", (⟨0, 1, 2⟩ : BinAxis ℚ))] exGivenBin.qk true ∧
    (∀ s ∈ (binKeys [("h", (⟨0, 1, 2⟩ : BinAxis ℚ))] exGivenBin.qk true).map (axisOf exGivenBin [("h", ⟨0, 1, 2⟩)]), s.n = 1 ∨ s.lo < s.hi) ∧
    (mul exGivenBin 2 >>= fun ds => bin id 2 ds [("h", ⟨0, 1, 2⟩)] true).map (fun r => (r.cols, r.err)) =
      .ok ([("h", [0, 1]), ("k", [0, 0]), ("l", [2, 2]), ("e", [5, 5]), ("temp", [300, 300]),
        ("detector", [20, 50]), ("monitor", [1, 1]), ("time", [1, 1])], some [9, 41 / 2]) := by
  refine ⟨⟨by decide, by decide, rfl, rfl, rfl, rfl, rfl, rfl, fun e he => by rw [← Option.some.inj he]; rfl⟩, by decide +kernel, by decide +kernel, by decide +kernel⟩

/-- Four counts at each of two points, over the reals. -/
noncomputable def exRealBin : DataObj ℝ :=
  { emptyData with cols := [("h", [0, 1]), ("detector", [4, 4]), ("monitor", [1, 1]), ("time", [1, 1])] }

example : Counted exRealBin 2 [4, 4] [1, 1] [1, 1] ∧ Binnable exRealBin 2 ["h"] ∧ exRealBin.dk.detector ∉ ["h"] ∧ exRealBin.err = none ∧
    ["h"] = binKeys [("h", (⟨0, 1, 2⟩ : BinAxis ℝ))] exRealBin.qk false ∧
    ∀ s ∈ ["h"].map (axisOf exRealBin [("h", ⟨0, 1, 2⟩)]), s.n = 1 ∨ s.lo < s.hi := by
  refine ⟨⟨by decide, by decide, rfl, rfl, rfl, rfl, rfl, rfl, fun e he => nomatch he⟩, ⟨by decide, ?_, by decide, by decide, by decide⟩, by decide, rfl, rfl, ?_⟩
  · intro c hc
    simp only [exRealBin, List.mem_cons, List.not_mem_nil, or_false] at hc
    rcases hc with rfl | rfl | rfl | rfl <;> rfl
  · intro s hs
    rw [List.map_singleton, List.mem_singleton] at hs
    subst hs
    right
    show (0 : ℝ) < 1
    norm_num

end Verif.Data
