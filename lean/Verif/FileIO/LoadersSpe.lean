import Verif.FileIO.LoadersGrid

/-!
# Theorems about the loader of SPE files
-/

namespace Verif.FileIO

variable {α : Type}

/-- Lines of numbers with a line of text between one block and the next. -/
def withMarks : List (List (List Text)) → List SpeLine
  | [] => []
  | [b] => b.map .toks
  | b :: bs => b.map .toks ++ .mark :: withMarks bs

/-- An SPE file: the two counts, the lines `ps` of the first axis, the lines `es` of
the second axis, and the blocks `bs` of intensities and errors in turn, each after
a line of text. -/
structure IsSpe (r : Reader α) (ls : List Text) (nx ny : Nat) (ps es : List (List Text))
    (bs : List (List (List Text))) : Prop where
  lines : ∃ t1 t2, ls.map speLine = .toks [t1, t2] :: .mark :: (ps.map .toks ++ .mark ::
    (es.map .toks ++ .mark :: withMarks bs)) ∧ r.int t1 = some nx ∧ r.int t2 = some ny
  count : bs.length = nx * 2
  pos : 1 ≤ nx ∧ 2 ≤ ny
  first : nx < ps.flatten.length
  second : ny < es.flatten.length
  values : ∀ b ∈ bs, b.flatten.length = ny
  numbers : ∀ t ∈ ps.flatten ++ es.flatten ++ bs.flatten.flatten, (r.float t).isSome

theorem collect_all {full : Nat → Bool} {ps : List (List Text)} {acc : List Text}
    (h : ∀ qs, qs <+: ps → qs ≠ ps → full (acc.length + qs.flatten.length) = false)
    (rest : List SpeLine) :
    collect full acc (ps.map .toks ++ .mark :: rest) = some (acc ++ ps.flatten, ps.length) := by
  induction ps generalizing acc with
  | nil => simp [collect]
  | cons p ps ih =>
    have h0 := h [] (by simp) (by simp)
    simp only [List.flatten_nil, List.length_nil, Nat.add_zero] at h0
    rw [List.map_cons, List.cons_append, collect, h0]
    simp only [Bool.false_eq_true, if_false]
    rw [ih]
    · simp
    · intro qs hq hne
      have := h (p :: qs) (by simpa using hq) (by simpa using hne)
      simpa [Nat.add_assoc] using this

theorem collect_stop {full : Nat → Bool} {l : SpeLine} {rest : List SpeLine}
    (h : full 0 = true ∨ l = .mark) : collect full [] (l :: rest) = some ([], 0) := by
  cases l with
  | mark => rfl
  | toks ts =>
    rcases h with h | h
    · simp [collect, h]
    · cases h

theorem blockGo_block (b : List (List Text)) (rest : List SpeLine) :
    blockGo (b.map .toks ++ .mark :: rest) = (b.flatten, some rest) := by
  induction b with
  | nil => rfl
  | cons t b ih => simp [blockGo, ih]

theorem blockGo_last (b : List (List Text)) : blockGo (b.map .toks) = (b.flatten, none) := by
  induction b with
  | nil => rfl
  | cons t b ih => simp [blockGo, ih]

theorem axisOf_ok (r : Reader α) {k : Nat} {ts : List Text} (h : ∀ t ∈ ts, (r.float t).isSome)
    (hl : ts.length ≠ 1) : axisOf r k ts = .ok ((ts.map r.num).take k) := by
  rw [axisOf, mapM_num r h, ok_bind]
  match ts, hl with
  | [], _ => rfl
  | _ :: _ :: _, _ => rfl

theorem blocks_ok (r : Reader α) {ny : Nat} (hy : 2 ≤ ny) {bs : List (List (List Text))}
    (hv : ∀ b ∈ bs, ny ≤ b.flatten.length)
    (hn : ∀ b ∈ bs, ∀ t ∈ b.flatten, (r.float t).isSome) {n : Nat} (hl : n ≤ bs.length) :
    blocks r ny n (withMarks bs) =
      .ok ((bs.take n).map fun b => (b.flatten.map r.num).take ny) := by
  induction bs generalizing n with
  | nil => obtain rfl : n = 0 := by simpa using hl
           rfl
  | cons b bs ih =>
    cases n with
    | zero => rfl
    | succ n =>
      have hb := hv b (by simp)
      have ha := axisOf_ok r (k := ny) (hn b (by simp)) (by omega)
      have := ih (fun x hx => hv x (by simp [hx])) (fun x hx => hn x (by simp [hx]))
        (n := n) (by simpa using hl)
      cases bs with
      | nil =>
        obtain rfl : n = 0 := by simpa using hl
        simp only [withMarks, blocks, block, blockGo_last, ha, ok_bind]
        rfl
      | cons b' bs =>
        rw [blocks, withMarks.eq_3 _ _ (by simp)]
        simp only [block, blockGo_block, ha, ok_bind, Option.getD_some, this]
        rfl

theorem evens_getElem? {β : Type} (xs : List β) (i : Nat) : (evens xs)[i]? = xs[2 * i]? := by
  induction xs using evens.induct generalizing i with
  | case1 => simp [evens]
  | case2 x =>
    cases i with
    | zero => rfl
    | succ i => simp [evens]
  | case3 x y xs ih =>
    cases i with
    | zero => rfl
    | succ i =>
      rw [evens, List.getElem?_cons_succ, ih, show 2 * (i + 1) = 2 * i + 1 + 1 by ring]
      simp

theorem evens_length {β : Type} (xs : List β) : (evens xs).length = (xs.length + 1) / 2 := by
  induction xs using evens.induct with
  | case1 => simp [evens]
  | case2 x => simp [evens]
  | case3 x y xs ih => rw [evens, List.length_cons, ih]; simp only [List.length_cons]; omega

theorem odds_getElem? {β : Type} (xs : List β) (i : Nat) : (odds xs)[i]? = xs[2 * i + 1]? := by
  rw [odds, evens_getElem?]
  simp

theorem odds_length {β : Type} (xs : List β) : (odds xs).length = xs.length / 2 := by
  rw [odds, evens_length, List.length_tail]
  omega

theorem mem_evens {β : Type} {xs : List β} {x : β} (h : x ∈ evens xs) : x ∈ xs := by
  obtain ⟨i, hi, rfl⟩ := List.getElem_of_mem h
  have := evens_getElem? xs i
  rw [List.getElem?_eq_getElem hi] at this
  exact List.mem_of_getElem? this.symm

theorem mem_odds {β : Type} {xs : List β} {x : β} (h : x ∈ odds xs) : x ∈ xs :=
  List.mem_of_mem_tail (mem_evens h)

theorem transposed_ok {rows : List (List α)} {n : Nat} (h : ∀ v ∈ rows, v.length = n)
    (hne : rows ≠ []) :
    transposed rows = .ok ((List.range n).map fun j => rows.filterMap fun v => v[j]?) := by
  cases rows with
  | nil => exact absurd rfl hne
  | cons v vs =>
    have hv := h v (by simp)
    rw [transposed, if_pos]
    · simp [hv]
    · simp only [List.headD_cons, hv, List.all_eq_true, decide_eq_true_eq]
      exact h

theorem filterMap_rows {rows : List (List α)} {n nx : Nat} (h : ∀ v ∈ rows, v.length = n)
    (hl : rows.length = nx) {j : Nat} (hj : j < n) (d : α) :
    (rows.filterMap fun v => v[j]?) = (List.range nx).map fun i => ((rows.getD i []).getD j d) := by
  subst hl
  induction rows with
  | nil => rfl
  | cons v vs ih =>
    have hv := h v (by simp)
    rw [List.filterMap_cons_some (b := v[j]) (by simp [hv, hj]), ih fun x hx => h x (by simp [hx]),
      List.length_cons, List.range_succ_eq_map, List.map_cons, List.map_map]
    simp [Function.comp_def, hv, hj]

/-- The number at position `j` of block `b`. -/
def at' (r : Reader α) (bs : List (List (List Text))) (b j : Nat) : α :=
  r.num ((bs.getD b []).flatten.getD j [])

/-- Neither loop stops early: before the last line of the first axis fewer than
`nx` values were read, and the first axis has fewer values than the second has
points. -/
structure Regular (nx ny : Nat) (ps : List (List Text)) : Prop where
  lines : ps.dropLast.flatten.length < nx
  shorter : ps.flatten.length < ny

theorem prefix_dropLast {β : Type} {qs ps : List β} (h : qs <+: ps) (hne : qs ≠ ps) :
    qs <+: ps.dropLast := by
  obtain ⟨t, rfl⟩ := h
  cases t using List.reverseRecOn with
  | nil => simp at hne
  | append_singleton t x =>
    rw [← List.append_assoc, List.dropLast_concat]
    exact ⟨t, rfl⟩

theorem flatten_prefix {β : Type} {qs ps : List (List β)} (h : qs <+: ps) :
    qs.flatten.length ≤ ps.flatten.length := by
  obtain ⟨t, rfl⟩ := h
  simp

theorem IsSpe.shape {r : Reader α} {ls : List Text} {nx ny : Nat} {ps es : List (List Text)}
    {bs : List (List (List Text))} (h : IsSpe r ls nx ny ps es bs) :
    speShape r (ls.map speLine) = .ok (nx, ny) := by
  obtain ⟨t1, t2, hl, h1, h2⟩ := h.lines
  rw [hl]
  simp [speShape, List.mapM_cons, Reader.intE, h1, h2, ok_bind, pure_ok]

theorem IsSpe.block_numbers {r : Reader α} {ls : List Text} {nx ny : Nat}
    {ps es : List (List Text)} {bs : List (List (List Text))} (h : IsSpe r ls nx ny ps es bs) :
    ∀ b ∈ bs, ∀ t ∈ b.flatten, (r.float t).isSome := by
  intro b hb t ht
  apply h.numbers
  simp only [List.mem_append]
  right
  obtain ⟨l, hl, ht⟩ := List.mem_flatten.1 ht
  exact List.mem_flatten.2 ⟨l, List.mem_flatten.2 ⟨b, hb, hl⟩, ht⟩

theorem map_getD (f : Text → α) (ts : List Text) (j : Nat) (hj : j < ts.length) (d : α) :
    (ts.map f).getD j d = f (ts.getD j []) := by
  simp [hj]

theorem getD_of_getElem? {β : Type} {xs ys : List β} {i j : Nat} (h : xs[i]? = ys[j]?) (d : β) :
    xs.getD i d = ys.getD j d := by
  simp [List.getD, h]

theorem spe_rows (r : Reader α) {nx ny : Nat} (hx : 1 ≤ nx) (hy : 2 ≤ ny)
    {bs : List (List (List Text))} (hv : ∀ b ∈ bs, ny ≤ b.flatten.length)
    (hn : ∀ b ∈ bs, ∀ t ∈ b.flatten, (r.float t).isSome) (hl : nx * 2 ≤ bs.length) :
    ∃ vs i e, blocks r ny (nx * 2) (withMarks bs) = .ok vs ∧ transposed (evens vs) = .ok i ∧
      transposed (odds vs) = .ok e ∧ i.length = ny ∧
      i.flatten = ((List.range ny).flatMap fun j => (List.range nx).map fun i =>
        at' r bs (2 * i) j) ∧
      e.flatten = ((List.range ny).flatMap fun j => (List.range nx).map fun i =>
        at' r bs (2 * i + 1) j) := by
  have hbo := blocks_ok r hy hv hn hl
  set vs := (bs.take (nx * 2)).map fun b => (b.flatten.map r.num).take ny with hvs
  have hvl : vs.length = nx * 2 := by simp [hvs, hl]
  have hvn : ∀ v ∈ vs, v.length = ny := by
    intro v hv'
    obtain ⟨b, hb, rfl⟩ := List.mem_map.1 hv'
    rw [List.length_take, List.length_map]
    exact Nat.min_eq_left (hv b (List.mem_of_mem_take hb))
  have hel : (evens vs).length = nx := by rw [evens_length, hvl]; omega
  have hol : (odds vs).length = nx := by rw [odds_length, hvl]; omega
  have hen : ∀ v ∈ evens vs, v.length = ny := fun v hv => hvn v (mem_evens hv)
  have hon : ∀ v ∈ odds vs, v.length = ny := fun v hv => hvn v (mem_odds hv)
  have hval : ∀ b j, b < nx * 2 → j < ny → (vs.getD b []).getD j r.nan = at' r bs b j := by
    intro b j hb hj
    have hbl : b < bs.length := by omega
    have e1 : vs.getD b [] = (bs[b].flatten.map r.num).take ny := by simp [hvs, hbl, hb]
    have hjl : j < bs[b].flatten.length := by
      have := hv _ (List.getElem_mem hbl)
      omega
    rw [e1, at', List.getD_eq_getElem?_getD, List.getElem?_take_of_lt hj,
      ← List.getD_eq_getElem?_getD, map_getD _ _ _ hjl]
    simp [hbl]
  refine ⟨vs, _, _, hbo, transposed_ok hen (by intro e; rw [e] at hel; simp at hel; omega),
    transposed_ok hon (by intro e; rw [e] at hol; simp at hol; omega), by simp, ?_, ?_⟩
  · rw [List.flatMap]
    congr 1
    apply List.map_congr_left
    intro j hj
    rw [List.mem_range] at hj
    rw [filterMap_rows hen hel hj r.nan]
    apply List.map_congr_left
    intro i hi
    rw [List.mem_range] at hi
    rw [getD_of_getElem? (evens_getElem? vs i), hval _ _ (by omega) hj]
  · rw [List.flatMap]
    congr 1
    apply List.map_congr_left
    intro j hj
    rw [List.mem_range] at hj
    rw [filterMap_rows hon hol hj r.nan]
    apply List.map_congr_left
    intro i hi
    rw [List.mem_range] at hi
    rw [getD_of_getElem? (odds_getElem? vs i), hval _ _ (by omega) hj]

theorem meshX_eq (x y : List α) : meshX x y = (List.range y.length).flatMap fun _ => x := by
  simp only [meshX, List.flatMap]
  congr 1
  apply List.ext_getElem <;> simp

theorem loadSpe_grid (r : Reader α) (one : α) {ls : List Text} {g : Grid α}
    (h : loadSpe r one ls = .ok g) : ∃ x y i e, g = mkGrid one x y i e := by
  rw [loadSpe] at h
  simp only [bind_eq_ok] at h
  obtain ⟨⟨nx, ny⟩, -, ⟨xs, n⟩, -, h⟩ := h
  obtain ⟨x, -, y, -, vs, -, i, -, e, -, h⟩ := h
  exact ⟨x, y, i, e, (Except.ok.inj h).symm⟩

/-- **C116**, the part that holds: from an SPE file whose axes are read to their
ends, the intensity and the error at position `j * nx + i` are value `j` of the
`i`-th pair of blocks, and `x` there is value `i` of the first axis. -/
theorem C116_values_partial (r : Reader α) (one : α) {ls : List Text} {nx ny : Nat}
    {ps es : List (List Text)} {bs : List (List (List Text))} (h : IsSpe r ls nx ny ps es bs)
    (hr : Regular nx ny ps) :
    ∃ g, loadSpe r one ls = .ok g ∧
      g.intensity = ((List.range ny).flatMap fun j => (List.range nx).map fun i =>
        at' r bs (2 * i) j) ∧
      g.error = ((List.range ny).flatMap fun j => (List.range nx).map fun i =>
        at' r bs (2 * i + 1) j) ∧
      g.x = ((List.range ny).flatMap fun _ => (ps.flatten.map r.num).take nx) ∧
      g.monitor = List.replicate ny one := by
  obtain ⟨t1, t2, hl, -, -⟩ := h.lines
  have hshape := h.shape
  obtain ⟨hx1, hy1⟩ := h.pos
  have hf := h.first
  have hs := h.second
  have hd2 : (ls.map speLine).drop 2 = ps.map .toks ++ .mark ::
      (es.map .toks ++ .mark :: withMarks bs) := by rw [hl]; rfl
  have hc1 : collect (fun k => decide (nx ≤ k)) [] ((ls.map speLine).drop 2) =
      some (ps.flatten, ps.length) := by
    rw [hd2, collect_all, List.nil_append]
    intro qs hq hne
    have h1 := flatten_prefix (prefix_dropLast hq hne)
    have h2 := hr.lines
    simp only [List.length_nil, Nat.zero_add, decide_eq_false_iff_not]
    omega
  have hd3 : (ls.map speLine).drop (3 + ps.length) = es.map .toks ++ .mark :: withMarks bs := by
    have : (3 + ps.length) = 2 + (ps.length + 1) := by omega
    rw [this, ← List.drop_drop, hd2]
    have e : ps.map SpeLine.toks ++ SpeLine.mark :: (es.map .toks ++ .mark :: withMarks bs) =
      (ps.map SpeLine.toks ++ [SpeLine.mark]) ++ (es.map .toks ++ .mark :: withMarks bs) := by simp
    rw [e, List.drop_left' (by simp)]
  have hc2 : collect (fun _ => decide (ny ≤ ps.flatten.length)) []
      ((ls.map speLine).drop (3 + ps.length)) = some (es.flatten, es.length) := by
    rw [hd3, collect_all, List.nil_append]
    intro qs hq hne
    have := hr.shorter
    simp only [decide_eq_false_iff_not]
    omega
  have hd4 : (ls.map speLine).drop (3 + ps.length + (es.length + 1)) = withMarks bs := by
    rw [← List.drop_drop, hd3]
    have e : es.map SpeLine.toks ++ SpeLine.mark :: withMarks bs =
      (es.map SpeLine.toks ++ [SpeLine.mark]) ++ withMarks bs := by simp
    rw [e, List.drop_left' (by simp)]
  have hax : axisOf r nx ps.flatten = .ok ((ps.flatten.map r.num).take nx) :=
    axisOf_ok r (fun t ht => h.numbers t (by simp only [List.mem_append]; exact .inl (.inl ht)))
      (by omega)
  have hay : axisOf r ny es.flatten = .ok ((es.flatten.map r.num).take ny) :=
    axisOf_ok r (fun t ht => h.numbers t (by simp only [List.mem_append]; exact .inl (.inr ht)))
      (by omega)
  obtain ⟨vs, i, e, hbl, hte, hto, hil, hi, he⟩ := spe_rows r hx1 hy1
    (fun b hb => (h.values b hb).ge) h.block_numbers h.count.ge
  rw [loadSpe]
  simp only [hshape, ok_bind, hc1, bound, hc2, hd4, hax, hay, hbl, hte, hto]
  refine ⟨_, rfl, hi, he, ?_, ?_⟩
  · show meshX _ _ = _
    rw [meshX_eq]
    simp only [List.length_take, List.length_map]
    rw [Nat.min_eq_left (by omega)]
  · show List.replicate i.length one = _
    rw [hil]

/-- A file for the examples below. -/
def speSmall : List Text :=
  [cs!"   2   4", cs!"### Phi", cs!" 10 20 30", cs!"### E", cs!" 1 2 3 4", cs!" 5", cs!"### S",
    cs!" 11 12 13 14", cs!"### Errors", cs!" 1 2 3 4", cs!"### S", cs!" 21 22 23", cs!" 24",
    cs!"### Errors", cs!" 5 6 7 8"]

theorem speSmall_ok : IsSpe digits speSmall 2 4 [[cs!"10", cs!"20", cs!"30"]]
    [[cs!"1", cs!"2", cs!"3", cs!"4"], [cs!"5"]]
    [[[cs!"11", cs!"12", cs!"13", cs!"14"]], [[cs!"1", cs!"2", cs!"3", cs!"4"]],
      [[cs!"21", cs!"22", cs!"23"], [cs!"24"]], [[cs!"5", cs!"6", cs!"7", cs!"8"]]] ∧
    Regular 2 4 [[cs!"10", cs!"20", cs!"30"]] :=
  ⟨{ lines := ⟨cs!"2", cs!"4", by decide⟩, count := by decide, pos := by decide,
     first := by decide, second := by decide, values := by decide, numbers := by decide },
   ⟨by decide, by decide⟩⟩

theorem grid_length (nx ny : Nat) (f : Nat → Nat → α) :
    ((List.range ny).flatMap fun j => (List.range nx).map fun i => f j i).length = ny * nx := by
  simp [List.length_flatMap]

/-- **C116**: from such a file with two or more values on the first axis, the
column `y` is a copy of `x`, and the intensity of the result cannot be read. -/
theorem C116_not_usable [Field α] [LinearOrder α] (r : Reader α) {ls : List Text} {nx ny : Nat}
    {ps es : List (List Text)} {bs : List (List (List Text))} (h : IsSpe r ls nx ny ps es bs)
    (hr : Regular nx ny ps) (hx : 2 ≤ nx) :
    ∃ g, loadSpe r 1 ls = .ok g ∧ g.y = g.x ∧
      Verif.Data.intensity g.obj = .error .valueError := by
  obtain ⟨g, hg, hi, -, -, hm⟩ := C116_values_partial r 1 h hr
  have hy := h.pos.2
  refine ⟨g, hg, ?_, ?_⟩
  · obtain ⟨x, y, i, e, rfl⟩ := loadSpe_grid r 1 hg
    rfl
  · have hil : g.intensity.length = ny * nx := by rw [hi, grid_length]
    apply intensity_grid
    · rw [hil, hm, List.length_replicate]
      intro e
      have := Nat.eq_of_mul_eq_mul_left (by omega : 0 < ny) (e.trans (Nat.mul_one ny).symm)
      omega
    · rw [hil]
      intro e
      have := Nat.eq_one_of_mul_eq_one_left e
      omega
    · rw [hm, List.length_replicate]
      exact hy

theorem collect_until {full : Nat → Bool} {ps : List (List Text)} {acc : List Text}
    (h : ∀ qs, qs <+: ps → qs ≠ ps → full (acc.length + qs.flatten.length) = false)
    (hf : full (acc.length + ps.flatten.length) = true) (l : List Text) (rest : List SpeLine) :
    collect full acc (ps.map .toks ++ .toks l :: rest) =
      some (acc ++ ps.flatten, ps.length) := by
  induction ps generalizing acc with
  | nil => simp only [List.flatten_nil, List.length_nil, Nat.add_zero] at hf; simp [collect, hf]
  | cons p ps ih =>
    have h0 := h [] (by simp) (by simp)
    simp only [List.flatten_nil, List.length_nil, Nat.add_zero] at h0
    rw [List.map_cons, List.cons_append, collect, h0]
    simp only [Bool.false_eq_true, if_false]
    rw [ih]
    · simp
    · intro qs hq hne
      have := h (p :: qs) (by simpa using hq) (by simpa using hne)
      simpa [Nat.add_assoc] using this
    · simpa [Nat.add_assoc] using hf

/-- **C116**: when the first `nx` values of the first axis fill whole lines (eight
to a line: `nx` a multiple of eight) and the extra one is alone on the last line,
the columns of coordinates are empty, and each block is taken for the one after it:
the second axis is read as the first block of intensities. -/
theorem C116_full_lines (r : Reader α) (one : α) {ls : List Text} {nx ny : Nat}
    {ps es : List (List Text)} {l : List Text} {bs : List (List (List Text))}
    (h : IsSpe r ls nx ny (ps ++ [l]) es bs) (h0 : 2 ≤ nx)
    (h1 : ps.flatten.length = nx) (h2 : ps.dropLast.flatten.length < nx) :
    ∃ g, loadSpe r one ls = .ok g ∧ g.x = [] ∧ g.y = [] ∧
      g.intensity = ((List.range ny).flatMap fun j => (List.range nx).map fun i =>
        at' r (es :: bs) (2 * i) j) ∧
      g.error = ((List.range ny).flatMap fun j => (List.range nx).map fun i =>
        at' r (es :: bs) (2 * i + 1) j) := by
  obtain ⟨t1, t2, hl, -, -⟩ := h.lines
  have hshape := h.shape
  obtain ⟨hx1, hy1⟩ := h.pos
  have hs := h.second
  have hbs : bs ≠ [] := by
    intro e
    have := h.count
    simp only [e, List.length_nil] at this
    omega
  have hd2 : (ls.map speLine).drop 2 = ps.map .toks ++ .toks l :: .mark ::
      withMarks (es :: bs) := by
    rw [hl, withMarks.eq_3 _ _ hbs]
    simp
  have hc1 : collect (fun k => decide (nx ≤ k)) [] ((ls.map speLine).drop 2) =
      some (ps.flatten, ps.length) := by
    rw [hd2, collect_until, List.nil_append]
    · intro qs hq hne
      have h1 := flatten_prefix (prefix_dropLast hq hne)
      simp only [List.length_nil, Nat.zero_add, decide_eq_false_iff_not]
      omega
    · simp only [List.length_nil, Nat.zero_add, decide_eq_true_eq]
      omega
  have hd3 : (ls.map speLine).drop (3 + ps.length) = .mark :: withMarks (es :: bs) := by
    have : (3 + ps.length) = 2 + (ps.length + 1) := by omega
    rw [this, ← List.drop_drop, hd2]
    have e : ps.map SpeLine.toks ++ SpeLine.toks l :: .mark :: withMarks (es :: bs) =
      (ps.map SpeLine.toks ++ [SpeLine.toks l]) ++ .mark :: withMarks (es :: bs) := by simp
    rw [e, List.drop_left' (by simp)]
  have hc2 : collect (fun _ => decide (ny ≤ ps.flatten.length)) []
      ((ls.map speLine).drop (3 + ps.length)) = some ([], 0) := by
    rw [hd3, collect_stop (.inr rfl)]
  have hd4 : (ls.map speLine).drop (3 + ps.length + (0 + 1)) = withMarks (es :: bs) := by
    rw [← List.drop_drop, hd3]
    rfl
  have hax : axisOf r nx ps.flatten = .ok ((ps.flatten.map r.num).take nx) :=
    axisOf_ok r (fun t ht => h.numbers t (by
      simp only [List.mem_append, List.flatten_append]; exact .inl (.inl (.inl ht)))) (by omega)
  have hay : axisOf r ny [] = .ok [] := by simpa using axisOf_ok r (k := ny) (ts := []) (by simp) (by simp)
  obtain ⟨vs, i, e, hbl, hte, hto, hil, hi, he⟩ := spe_rows r (bs := es :: bs) hx1 hy1
    (by
      intro b hb
      rcases List.mem_cons.1 hb with rfl | hb
      · omega
      · exact (h.values b hb).ge)
    (by
      intro b hb t ht
      rcases List.mem_cons.1 hb with rfl | hb
      · exact h.numbers t (by simp only [List.mem_append]; exact .inl (.inr ht))
      · exact h.block_numbers b hb t ht)
    (by rw [List.length_cons, h.count]; omega)
  rw [loadSpe]
  simp only [hshape, ok_bind, hc1, bound, hc2, hd4, hax, hay, hbl, hte, hto]
  exact ⟨_, rfl, rfl, rfl, hi, he⟩

/-- Two values fill the first line; the extra one is alone. -/
example : IsSpe digits
    [cs!"2 3", cs!"### Phi", cs!"10 20", cs!"30", cs!"### E", cs!"1 2 3 4", cs!"### S",
      cs!"11 12 13", cs!"### Errors", cs!"1 2 3", cs!"### S", cs!"21 22 23",
      cs!"### Errors", cs!"5 6 7"] 2 3 ([[cs!"10", cs!"20"]] ++ [[cs!"30"]])
    [[cs!"1", cs!"2", cs!"3", cs!"4"]]
    [[[cs!"11", cs!"12", cs!"13"]], [[cs!"1", cs!"2", cs!"3"]], [[cs!"21", cs!"22", cs!"23"]],
      [[cs!"5", cs!"6", cs!"7"]]] :=
  { lines := ⟨cs!"2", cs!"3", by decide⟩, count := by decide, pos := by decide,
    first := by decide, second := by decide, values := by decide, numbers := by decide }

/-- **C116**: when the first axis has at least as many values as the second has
points, the columns of coordinates are empty. -/
theorem C116_longer_first (r : Reader α) (one : α) {ls : List Text} {nx ny : Nat}
    {ps es : List (List Text)} {bs : List (List (List Text))} (h : IsSpe r ls nx ny ps es bs)
    (h1 : ps.dropLast.flatten.length < nx) (h2 : ny ≤ ps.flatten.length)
    {g : Grid α} (hg : loadSpe r one ls = .ok g) : g.x = [] ∧ g.y = [] := by
  obtain ⟨t1, t2, hl, -, -⟩ := h.lines
  have hshape := h.shape
  have hd2 : (ls.map speLine).drop 2 = ps.map .toks ++ .mark ::
      (es.map .toks ++ .mark :: withMarks bs) := by rw [hl]; rfl
  have hc1 : collect (fun k => decide (nx ≤ k)) [] ((ls.map speLine).drop 2) =
      some (ps.flatten, ps.length) := by
    rw [hd2, collect_all, List.nil_append]
    intro qs hq hne
    have h1 := flatten_prefix (prefix_dropLast hq hne)
    simp only [List.length_nil, Nat.zero_add, decide_eq_false_iff_not]
    omega
  have hd3 : (ls.map speLine).drop (3 + ps.length) = es.map .toks ++ .mark :: withMarks bs := by
    have : (3 + ps.length) = 2 + (ps.length + 1) := by omega
    rw [this, ← List.drop_drop, hd2]
    have e : ps.map SpeLine.toks ++ SpeLine.mark :: (es.map .toks ++ .mark :: withMarks bs) =
      (ps.map SpeLine.toks ++ [SpeLine.mark]) ++ (es.map .toks ++ .mark :: withMarks bs) := by simp
    rw [e, List.drop_left' (by simp)]
  have hc2 : collect (fun _ => decide (ny ≤ ps.flatten.length)) []
      ((ls.map speLine).drop (3 + ps.length)) = some ([], 0) := by
    rw [hd3]
    cases es with
    | nil => exact collect_stop (.inr rfl)
    | cons l es => exact collect_stop (.inl (by simpa using h2))
  have hay : axisOf r ny [] = .ok [] := by simpa using axisOf_ok r (k := ny) (ts := []) (by simp) (by simp)
  rw [loadSpe] at hg
  simp only [hshape, ok_bind, hc1, bound, hc2, hay, bind_eq_ok] at hg
  obtain ⟨x, -, vs, -, i, -, e, -, hg⟩ := hg
  obtain rfl := (Except.ok.inj hg).symm
  exact ⟨rfl, rfl⟩

/-- Three values on the first axis, two points on the second. -/
def speLong : List Text :=
  [cs!"2 3", cs!"### Phi", cs!"10 20 30", cs!"### E", cs!"1 2 3 4", cs!"5 6 7", cs!"### S",
    cs!"11 12 13", cs!"### Errors", cs!"1 2 3", cs!"### S", cs!"21 22 23",
    cs!"### Errors", cs!"5 6 7"]

/-- The hypotheses of the last theorem are met, and the file loads. -/
theorem speLong_ok : IsSpe digits speLong 2 3 [[cs!"10", cs!"20", cs!"30"]]
    [[cs!"1", cs!"2", cs!"3", cs!"4"], [cs!"5", cs!"6", cs!"7"]]
    [[[cs!"11", cs!"12", cs!"13"]], [[cs!"1", cs!"2", cs!"3"]], [[cs!"21", cs!"22", cs!"23"]],
      [[cs!"5", cs!"6", cs!"7"]]] ∧ (loadSpe digits 1 speLong).toBool = true :=
  ⟨{ lines := ⟨cs!"2", cs!"3", by decide⟩, count := by decide, pos := by decide,
     first := by decide, second := by decide, values := by decide, numbers := by decide },
   by decide⟩

/-- What C116 says of a file: it loads, and the point of value `i` of the first axis
and value `j` of the second has these coordinates and the intensity and error of
value `j` in the `i`-th pair of blocks. -/
def SpeLoads (r : Reader α) (one : α) (ls : List Text) (nx ny : Nat) (ps es : List (List Text))
    (bs : List (List (List Text))) : Prop :=
  ∃ g, loadSpe r one ls = .ok g ∧ ∀ i < nx, ∀ j < ny, ∃ k : Nat,
    g.x[k]? = (ps.flatten.map r.num)[i]? ∧ g.y[k]? = (es.flatten.map r.num)[j]? ∧
    g.intensity[k]? = some (at' r bs (2 * i) j) ∧ g.error[k]? = some (at' r bs (2 * i + 1) j)

/-- **C116** as written is false: in a small file read to the end of its axes the
column `y` does not have the values of the second axis. -/
theorem C116_false : ¬ ∀ (ls : List Text) (nx ny : Nat) (ps es : List (List Text))
    (bs : List (List (List Text))), IsSpe digits ls nx ny ps es bs →
      SpeLoads digits 1 ls nx ny ps es bs := by
  intro h
  obtain ⟨g, hg, h⟩ := h _ _ _ _ _ _ speSmall_ok.1
  obtain ⟨k, -, h, -, -⟩ := h 0 (by decide) 0 (by decide)
  obtain ⟨g', hg', -, -, hx, -⟩ := C116_values_partial digits 1 speSmall_ok.1 speSmall_ok.2
  obtain rfl : g = g' := Except.ok.inj (hg.symm.trans hg')
  have hy : g.y = g.x := by
    obtain ⟨x, y, i, e, rfl⟩ := loadSpe_grid digits 1 hg
    rfl
  rw [hy, hx] at h
  have hm := List.mem_of_getElem? h
  revert hm
  decide

end Verif.FileIO
