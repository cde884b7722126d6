import Verif.FileIO.SaveProps

/-!
# Data sets come back from their files, except … (C99)
-/

namespace Verif.FileIO

variable {α : Type}

/-- Names the loader keeps apart. -/
structure GoodNames (names : List Text) : Prop where
  words : ∀ w ∈ names, OneWord w
  nodup : names.Nodup

theorem zip_names (cols : List (Text × Col α)) :
    List.zip (cols.map Prod.fst) (cols.map Prod.snd) = cols := by
  induction cols with
  | nil => rfl
  | cons c cs ih => simp [ih]

theorem written_eq {d : Dat α} (hn : cs!"error" ∉ d.cols.map Prod.fst) :
    writtenNames d = (withErrorColumn d).cols.map Prod.fst := by
  rw [writtenNames, withErrorColumn]
  cases h : d.err with
  | absent => rfl
  | isNone => simp only [putCol]; rw [if_neg hn]; simp
  | vals e => simp only [putCol]; rw [if_neg hn]; simp

theorem written_absent {d : Dat α} (h : d.err = .absent) :
    writtenNames d = (withErrorColumn d).cols.map Prod.fst := by
  rw [writtenNames, withErrorColumn, h]

/-- What comes back from the file, for a table with at least two rows and two
columns. -/
theorem ascii_roundtrip (dt : DictText) (date : Text) (ow : Bool) (old : Option (Content α))
    {n : Nat} {d : Dat α} (ht : IsTable n (withErrorColumn d).cols) (hn : 2 ≤ n)
    (hk : 2 ≤ (withErrorColumn d).cols.length) (hr : Readable dt date d)
    (hw : writtenNames d = (withErrorColumn d).cols.map Prod.fst) (hg : GoodNames (writtenNames d)) :
    ∃ ls, saveData dt date .ascii ow old d = (withErrorColumn d, some (.lines ls), none) ∧
      loadAscii dt ls = .ok ⟨(withErrorColumn d).cols, d.dataKeys, d.qKeys,
        some (oldHeader d).dropLast, .absent⟩ := by
  obtain ⟨xss, h2, h3, h4, hs⟩ := saveAscii_table dt date ht (by
    intro e; rw [e] at hk; simp at hk)
  refine ⟨(headerLines dt date d).map .comment ++ (rowsOf n xss).map .row, ?_, ?_⟩
  · rw [saveData]; simp only [hs]
  · rw [load_saved_ascii hr (words_join hg.words) (genfromtxt_table h3 hn (by omega)), fill_eq hg.nodup, hw, ← h2,
      zip_names]

/-- C99.  A data set without error bars, with at least two points and two
columns and with column names without white space, comes back from an ASCII file
with the same columns, the same values and the same meaning of the columns.
Missing for the full claim: the header, error bars, single points and HDF5 files,
for which it is false (below). -/
theorem C99_roundtrip_partial (dt : DictText) (date : Text) (ow : Bool) (old : Option (Content α))
    {n : Nat} {d : Dat α} (he : d.err = .absent) (ht : IsTable n d.cols) (hn : 2 ≤ n)
    (hk : 2 ≤ d.cols.length) (hr : Readable dt date d) (hg : GoodNames (d.cols.map Prod.fst)) :
    ∃ ls s, saveData dt date .ascii ow old d = (d, some (.lines ls), none) ∧
      loadAscii dt ls = .ok s ∧ s.cols = d.cols ∧ s.dataKeys = d.dataKeys ∧ s.qKeys = d.qKeys ∧
      s.err = d.err := by
  have hd : withErrorColumn d = d := by rw [withErrorColumn, he]
  have hw := written_absent he
  obtain ⟨ls, h1, h2⟩ := ascii_roundtrip dt date ow old (hd.symm ▸ ht) hn (hd.symm ▸ hk) hr hw
    (by rw [hw, hd]; exact hg)
  refine ⟨ls, _, by rw [h1, hd], h2, ?_, rfl, rfl, he.symm⟩
  rw [hd]

/-- C99 is false for the header: its last line is lost and every other line has
gained a tab. -/
theorem C99_header_lost (dt : DictText) (date : Text) (ow : Bool) (old : Option (Content α))
    {n : Nat} {d : Dat α} (he : d.err = .absent) (ht : IsTable n d.cols) (hn : 2 ≤ n)
    (hk : 2 ≤ d.cols.length) (hr : Readable dt date d) (hg : GoodNames (d.cols.map Prod.fst))
    {hs : List Text} (hh : d.header = some hs) (hne : hs ≠ []) :
    ∃ ls s, saveData dt date .ascii ow old d = (d, some (.lines ls), none) ∧
      loadAscii dt ls = .ok s ∧ s.header = some (hs.dropLast.map ('\t' :: ·)) ∧
      s.header ≠ d.header := by
  have hd : withErrorColumn d = d := by rw [withErrorColumn, he]
  have hw := written_absent he
  obtain ⟨ls, h1, h2⟩ := ascii_roundtrip dt date ow old (hd.symm ▸ ht) hn (hd.symm ▸ hk) hr hw
    (by rw [hw, hd]; exact hg)
  have ho : (oldHeader d).dropLast = hs.dropLast.map ('\t' :: ·) := by
    rw [oldHeader, hh]
    match hs, hne with
    | x :: xs, _ => exact List.map_dropLast.symm
  refine ⟨ls, _, by rw [h1, hd], h2, by rw [ho], ?_⟩
  simp only
  rw [hh, ho]
  intro e
  have hl := congrArg List.length (Option.some.inj e)
  simp only [List.length_map, List.length_dropLast] at hl
  have := List.length_pos_of_ne_nil hne
  omega

/-- C99 is false for error bars: they come back as an ordinary column, and the
loaded object has no error bars of its own, so that `error` falls back to the
square root of the counts. -/
theorem C99_error_lost (dt : DictText) (date : Text) (ow : Bool) (old : Option (Content α))
    {n : Nat} {d : Dat α} {e : List α} (he : d.err = .vals e) (hel : e.length = n)
    (hx : cs!"error" ∉ d.cols.map Prod.fst) (ht : IsTable n d.cols) (hn : 2 ≤ n)
    (hk : d.cols ≠ []) (hr : Readable dt date d) (hg : GoodNames (d.cols.map Prod.fst)) :
    ∃ ls s, (saveData dt date .ascii ow old d).2 = (some (.lines ls), none) ∧
      loadAscii dt ls = .ok s ∧ s.cols = d.cols ++ [(cs!"error", .arr e)] ∧ s.err = .absent ∧
      s.err ≠ d.err := by
  have hd : (withErrorColumn d).cols = d.cols ++ [(cs!"error", .arr e)] := by
    rw [withErrorColumn, he]
    simp only [putCol]
    rw [if_neg hx]
  have hw := written_eq hx
  obtain ⟨ls, h1, h2⟩ := ascii_roundtrip dt date ow old (n := n)
    (by
      rw [hd]
      intro c hc
      rcases List.mem_append.1 hc with hc | hc
      · exact ht c hc
      · obtain rfl := List.mem_singleton.1 hc
        exact ⟨e, rfl, hel⟩) hn
    (by
      have := List.length_pos_of_ne_nil hk
      rw [hd, List.length_append, List.length_singleton]; omega) hr hw
    (by
      rw [hw, hd, List.map_append]
      refine ⟨?_, ?_⟩
      · intro w hw
        rcases List.mem_append.1 hw with hw | hw
        · exact hg.words w hw
        · obtain rfl : w = cs!"error" := List.mem_singleton.1 hw
          exact (by decide : OneWord cs!"error")
      · refine List.nodup_append.2 ⟨hg.nodup, by simp, ?_⟩
        rintro a ha b hb rfl
        obtain rfl := List.mem_singleton.1 hb
        exact hx ha)
  refine ⟨ls, _, by rw [h1], h2, hd, rfl, ?_⟩
  rw [he]
  simp

/-- C99 is false for a single point: the columns come back as numbers instead of
arrays. -/
theorem C99_one_point (dt : DictText) (date : Text) (ow : Bool) (old : Option (Content α))
    {d : Dat α} (he : d.err = .absent) (ht : IsTable 1 d.cols) (hk : 2 ≤ d.cols.length)
    (hr : Readable dt date d) (hg : GoodNames (d.cols.map Prod.fst)) :
    ∃ ls s, saveData dt date .ascii ow old d = (d, some (.lines ls), none) ∧
      loadAscii dt ls = .ok s ∧ s.cols.map Prod.fst = d.cols.map Prod.fst ∧
      (∀ c ∈ s.cols, ∃ x, c.2 = .scalar x ∧ (c.1, Col.arr [x]) ∈ d.cols) ∧ s.cols ≠ d.cols := by
  have hd : withErrorColumn d = d := by rw [withErrorColumn, he]
  have hw := written_absent he
  obtain ⟨xss, h2, h3, h4, hs⟩ := saveAscii_table dt date (hd.symm ▸ ht) (by
    intro e; rw [hd] at e; rw [e] at hk; simp at hk)
  rw [hd] at hw hs h2 h4
  have hl := load_saved_ascii hr (words_join (by rw [hw]; exact hg.words)) (genfromtxt_row h3 (by omega))
  rw [fill_eq (by rw [hw]; exact hg.nodup), hw] at hl
  have hlen : (rowAt xss 0).length = xss.length := rowAt_length fun c hc => by rw [h3 c hc]; omega
  have key : ∀ c ∈ List.zip (d.cols.map Prod.fst) ((rowAt xss 0).map Col.scalar),
      ∃ x, c.2 = .scalar x ∧ (c.1, Col.arr [x]) ∈ d.cols := by
    intro c hc
    obtain ⟨j, hj, rfl⟩ := List.mem_iff_getElem.1 hc
    have hjx : j < xss.length := by
      simp only [List.length_zip, List.length_map] at hj; omega
    refine ⟨(rowAt xss 0)[j], by simp, ?_⟩
    have hr0 := rowAt_getElem? (cols := xss) (i := 0) (fun c hc => by rw [h3 c hc]; omega) j
    rw [List.getElem?_eq_getElem (by omega), List.getElem?_eq_getElem hjx, Option.bind_some] at hr0
    have h1 := h3 xss[j] (List.getElem_mem _)
    have hx : xss[j] = [(rowAt xss 0)[j]] := by
      match hxj : xss[j], h1 with
      | [y], _ =>
        rw [hxj] at hr0
        simpa using hr0.symm
    have hc2 : (d.cols.map Prod.snd)[j]? = (xss.map Col.arr)[j]? := by rw [h2]
    rw [List.getElem?_eq_getElem (by simp; omega), List.getElem?_eq_getElem (by simpa using hjx)] at hc2
    simp only [List.getElem_map, hx, Option.some.injEq] at hc2
    simp only [List.getElem_zip, List.getElem_map]
    rw [← hc2]
    exact List.getElem_mem _
  refine ⟨_, _, ?_, hl, ?_, key, ?_⟩
  · rw [saveData]; simp only [hs]
  · simp only
    rw [List.map_fst_zip]
    simp only [List.length_map]; omega
  · simp only
    intro e
    have h0 : 0 < d.cols.length := by omega
    obtain ⟨x, hx, -⟩ := key (d.cols[0]) (by rw [e]; exact List.getElem_mem _)
    obtain ⟨xs, hxs, -⟩ := ht d.cols[0] (List.getElem_mem _)
    rw [hxs] at hx
    cases hx

/-- C99 is false for a data set with one column: only its first value comes
back. -/
theorem C99_one_column (dt : DictText) (date : Text) (ow : Bool) (old : Option (Content α))
    {d : Dat α} (he : d.err = .absent) {name : Text} {x y : α} {xs : List α}
    (hc : d.cols = [(name, .arr (x :: y :: xs))]) (hr : Readable dt date d) (hg : OneWord name) :
    ∃ ls s, saveData dt date .ascii ow old d = (d, some (.lines ls), none) ∧
      loadAscii dt ls = .ok s ∧ s.cols = [(name, .scalar x)] := by
  have hd : withErrorColumn d = d := by rw [withErrorColumn, he]
  have hw := written_absent he
  rw [hd, hc] at hw
  have hs := saveAscii_table dt date (n := (x :: y :: xs).length) (d := d)
    (by rw [hd, hc]; intro c hc; obtain rfl := List.mem_singleton.1 hc; exact ⟨_, rfl, rfl⟩)
    (by rw [hd, hc]; simp)
  obtain ⟨xss, h2, h3, h4, hs⟩ := hs
  rw [hd, hc] at h2
  obtain rfl : xss = [x :: y :: xs] := by
    match xss, h2 with
    | [a], h2 => simpa using h2.symm
  have hrows : ∃ rs, rowsOf (x :: y :: xs).length [x :: y :: xs] = [x] :: [y] :: rs ∧
      ∀ r ∈ rs, r.length = 1 := by
    refine ⟨((List.range xs.length).map (· + 2)).map (rowAt [x :: y :: xs]), ?_, ?_⟩
    · have : List.range (x :: y :: xs).length = 0 :: 1 :: (List.range xs.length).map (· + 2) := by
        simp only [List.length_cons]
        rw [List.range_succ_eq_map, List.range_succ_eq_map]
        simp [Function.comp_def]
      rw [rowsOf, this]
      rfl
    · intro r hr
      obtain ⟨i, hi, rfl⟩ := List.mem_map.1 hr
      obtain ⟨k, hk, rfl⟩ := List.mem_map.1 hi
      refine rowAt_length (cols := [x :: y :: xs]) ?_
      simp only [List.mem_singleton, forall_eq, List.length_cons]
      have := List.mem_range.1 hk
      omega
  obtain ⟨rs, hrows, hrl⟩ := hrows
  have hgen : ∃ cs, genfromtxt (rowsOf (x :: y :: xs).length [x :: y :: xs]) = .ok (Col.scalar x :: cs) := by
    rw [hrows]
    have hall : (([y] :: rs).all fun r => decide (r.length = [x].length)) = true := by
      simpa using hrl
    refine ⟨([y] :: rs).flatMap fun r => r.map .scalar, ?_⟩
    rw [genfromtxt, if_pos hall]
    · simp
    · simp
  obtain ⟨cs, hgen⟩ := hgen
  have hl := load_saved_ascii hr (words_join (by
    rw [hw]; intro w hw; obtain rfl := List.mem_singleton.1 hw; exact hg)) hgen
  refine ⟨_, _, ?_, hl, ?_⟩
  · rw [saveData]; simp only [hs, hd]
  · rw [hw]; rfl

/-- C99 is false for a column name with a space in it: it is read as two names,
and every later column is given the name of the one before it. -/
theorem C99_space (dt : DictText) (date : Text) (ow : Bool) (old : Option (Content α))
    {n : Nat} (hn : 2 ≤ n) {d : Dat α} (he : d.err = .absent) {a b c : Text} {xs ys : List α}
    (hc : d.cols = [(a ++ ' ' :: b, .arr xs), (c, .arr ys)]) (hx : xs.length = n)
    (hy : ys.length = n) (ha : OneWord a) (hb : OneWord b) (hcw : OneWord c) (hab : a ≠ b)
    (hr : Readable dt date d) :
    ∃ ls s, saveData dt date .ascii ow old d = (d, some (.lines ls), none) ∧
      loadAscii dt ls = .ok s ∧ s.cols = [(a, .arr xs), (b, .arr ys)] := by
  have hd : withErrorColumn d = d := by rw [withErrorColumn, he]
  have hw := written_absent he
  rw [hd, hc] at hw
  have hs := saveAscii_table dt date (n := n) (d := d)
    (by
      rw [hd, hc]
      intro c hc
      simp only [List.mem_cons, List.not_mem_nil, or_false] at hc
      rcases hc with rfl | rfl
      · exact ⟨_, rfl, hx⟩
      · exact ⟨_, rfl, hy⟩)
    (by rw [hd, hc]; simp)
  obtain ⟨xss, h2, h3, h4, hs⟩ := hs
  rw [hd, hc] at h2
  obtain rfl : xss = [xs, ys] := by
    match xss, h2 with
    | [a, b], h2 => simpa using h2.symm
  have hwords : words (join '\t' (writtenNames d)) = [a, b, c] := by
    rw [hw]
    have : join '\t' ([(a ++ ' ' :: b, Col.arr xs), (c, Col.arr ys)].map Prod.fst) =
        a ++ ' ' :: (b ++ '\t' :: c) := by simp [join]
    rw [this, words_append ha.1 ha.2 rfl, words_append hb.1 hb.2 rfl, words_single hcw.1 hcw.2]
  have hl := load_saved_ascii hr hwords (genfromtxt_table h3 hn (by simp))
  refine ⟨_, _, ?_, hl, ?_⟩
  · rw [saveData]; simp only [hs, hd]
  · simp [fill, putCol, hab.symm]

/-- C99 is false for HDF5 files: the names of the columns come back as
`b'detector'` with the `b` and the quotes, so none of the quantities can be found
(`KeyError`), unless a column has such a name. -/
theorem C99_hdf5_keys (dt : DictText) (date : Text) (old : Option (Content α)) {n : Nat} {d : Dat α}
    (he : d.err = .absent) (ht : IsTable n d.cols) :
    ∃ f s, saveData dt date .hdf5 true old d = (d, some f, none) ∧ loadHdf5 f = .ok s ∧
      (∀ k ∈ d.dataKeys, (k.1, cs!"b'" ++ k.2 ++ cs!"'") ∈ s.dataKeys) ∧
      s.dataKeys.length = d.dataKeys.length ∧ (d.dataKeys ≠ [] → s.dataKeys ≠ d.dataKeys) ∧
      ((∀ c ∈ d.cols, ¬ cs!"b'" <+: c.1) → ∀ k ∈ s.dataKeys, k.2 ∉ s.cols.map Prod.fst) := by
  have hall : (d.cols.all fun c => c.2.flat.isSome) = true := by
    rw [List.all_eq_true]
    intro c hc
    obtain ⟨xs, hx, -⟩ := ht c hc
    rw [hx]; rfl
  refine ⟨.hdf5 (some ⟨d.dataKeys, d.qKeys, d.cols⟩), _, ?_, rfl, ?_, ?_, ?_, ?_⟩
  · simp only [saveData, saveHdf5, if_true, hall, he]
  · intro k hk
    simp only [List.append_assoc]
    exact List.mem_map.2 ⟨k, hk, rfl⟩
  · simp
  · intro hne e
    match hk : d.dataKeys, hne with
    | k :: ks, _ =>
      simp only [hk, List.map_cons, List.cons.injEq] at e
      have := congrArg List.length (congrArg Prod.snd e.1)
      simp [bytesStr] at this
      omega
  · intro hno k hk hm
    obtain ⟨k0, -, rfl⟩ := List.mem_map.1 hk
    simp only [List.map_append, List.mem_append] at hm
    rcases hm with hm | hm
    · obtain ⟨c, hc, e⟩ := List.mem_map.1 hm
      exact hno c hc ⟨k0.2 ++ cs!"'", by rw [e]; rfl⟩
    · have h2 : bytesStr k0.2 = cs!"data_keys" ∨ bytesStr k0.2 = cs!"Q_keys" := by
        simpa using hm
      rcases h2 with h2 | h2 <;> simp [bytesStr] at h2

/-! ### A file that meets the hypotheses -/

/-- Dictionaries as Python prints them, and a reader for dictionaries of strings
without quotes: every other piece between quotes, in pairs. -/
def simpleDict : DictText where
  str d := '{' :: (join ',' (d.map fun k =>
    (cs!" '" ++ k.1 ++ cs!"': '" ++ k.2 ++ cs!"'"))).drop 1 ++ ['}']
  eval s :=
    let rec pairs : List Text → Option Dict
      | _ :: k :: _ :: v :: rest => (pairs rest).map fun d => (k, v) :: d
      | [_] => some []
      | _ => none
    pairs (split '\'' s)

/-- A small scan. -/
def someScan : Dat ℤ :=
  ⟨[(cs!"e", .arr [0, 1, 2]), (cs!"detector", .arr [5, 7, 6])],
    [(cs!"detector", cs!"detector"), (cs!"monitor", cs!"mon")], [(cs!"e", cs!"e")],
    some [cs!"scan 7", cs!"sample: none"], .absent⟩

theorem quiet_of_all {s : Text} (h : ([cs!"npy_col_headers", cs!"original_header", cs!"Q_keys",
    cs!"data_keys", cs!"# "].all fun m => !has m s) = true) : Quiet s := by
  intro m hm
  rw [List.all_eq_true] at h
  simpa [has_false_iff] using h m hm

theorem someScan_readable : Readable simpleDict cs!"2026-11-17T08:00:00" someScan where
  date := by decide
  header := by
    intro hs he h hh
    obtain rfl := Option.some.inj he
    simp only [List.mem_cons, List.not_mem_nil, or_false] at hh
    rcases hh with rfl | rfl <;> exact quiet_of_all (by decide)
  data := quiet_of_all (by decide)
  q := quiet_of_all (by decide)
  evalData := by decide
  evalQ := by decide

example : IsTable 3 someScan.cols ∧ GoodNames (someScan.cols.map Prod.fst) := by
  refine ⟨?_, ?_, ?_⟩
  · intro c hc
    simp only [someScan, List.mem_cons, List.not_mem_nil, or_false] at hc
    rcases hc with rfl | rfl
    · exact ⟨_, rfl, rfl⟩
    · exact ⟨_, rfl, rfl⟩
  · decide
  · decide

/-- With error bars. -/
example : Readable simpleDict cs!"2026" { someScan with err := .vals [1, 1, 1] } :=
  ⟨by decide, someScan_readable.header, someScan_readable.data, someScan_readable.q,
    someScan_readable.evalData, someScan_readable.evalQ⟩

end Verif.FileIO
