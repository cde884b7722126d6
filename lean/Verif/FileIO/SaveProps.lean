import Verif.FileIO.SaveLemmas

/-!
# Saving and loading data sets (C68, C99)
-/

namespace Verif.FileIO

variable {α : Type}

/-! ### C68: saving does not change the data, and does not replace files unasked -/

/-- C68.  Saving a data set whose error was never set nor read leaves the object
as it was, in every format.  Missing for the full claim: objects that have an
attribute `_err`, and the flag `overwrite` (below), for which it is false. -/
theorem C68_unchanged_partial (dt : DictText) (date : Text) (fmt : Format) (ow : Bool)
    (old : Option (Content α)) {d : Dat α} (h : d.err = .absent) :
    (saveData dt date fmt ow old d).1 = d := by
  cases fmt with
  | ascii =>
    have hd : withErrorColumn d = d := by rw [withErrorColumn, h]
    rw [saveData]
    rcases hs : saveAscii dt date d with ⟨d', r⟩
    have : d' = withErrorColumn d := by rw [saveAscii] at hs; exact (Prod.mk.inj hs).1.symm
    rw [hd] at this
    cases r <;> exact this
  | hdf5 => rfl
  | pickle => rfl

/-- C68.  HDF5 and pickle files never change the object. -/
theorem C68_binary_unchanged (dt : DictText) (date : Text) {fmt : Format} (ow : Bool)
    (old : Option (Content α)) (d : Dat α) (h : fmt ≠ .ascii) :
    (saveData dt date fmt ow old d).1 = d := by
  cases fmt with
  | ascii => exact absurd rfl h
  | hdf5 => rfl
  | pickle => rfl

/-- The object after an ASCII save, whether or not the save succeeded. -/
theorem ascii_object (dt : DictText) (date : Text) (ow : Bool) (old : Option (Content α))
    (d : Dat α) : (saveData dt date .ascii ow old d).1 = withErrorColumn d := by
  rw [saveData]
  rcases hs : saveAscii dt date d with ⟨d', r⟩
  have : d' = withErrorColumn d := by rw [saveAscii] at hs; exact (Prod.mk.inj hs).1.symm
  cases r <;> exact this

/-- C68 is false: an ASCII save of any data set with error bars adds a column
`error` to the data set itself. -/
theorem C68_error_column (dt : DictText) (date : Text) (ow : Bool) (old : Option (Content α))
    {d : Dat α} {e : List α} (h : d.err = .vals e) (hn : cs!"error" ∉ d.cols.map Prod.fst) :
    (saveData dt date .ascii ow old d).1.cols = d.cols ++ [(cs!"error", .arr e)] ∧
      (saveData dt date .ascii ow old d).1 ≠ d := by
  have hc : (saveData dt date .ascii ow old d).1.cols = d.cols ++ [(cs!"error", .arr e)] := by
    rw [ascii_object, withErrorColumn, h]
    simp only [putCol]
    rw [if_neg hn]
  refine ⟨hc, fun he => ?_⟩
  rw [he] at hc
  simpa using congrArg List.length hc

theorem mapM_flat_none {cols : List (Text × Col α)} {n : Text} (h : (n, Col.none) ∈ cols) :
    cols.mapM (fun c => c.2.flat) = none := by
  induction cols with
  | nil => simp at h
  | cons c cs ih =>
    rw [List.mapM_cons]
    rcases List.mem_cons.1 h with rfl | h
    · rfl
    · rw [ih h]
      cases c.2.flat <;> rfl

theorem putCol_mem (cols : List (Text × Col α)) (n : Text) (v : Col α) : (n, v) ∈ putCol cols n v := by
  rw [putCol]
  split
  · next h =>
    obtain ⟨c, hc, he⟩ := List.mem_map.1 h
    exact List.mem_map.2 ⟨c, hc, by rw [if_pos he, he]⟩
  · simp

/-- C68 is false: once `_err` is `None`, every ASCII save fails and leaves a
column `error` that holds `None` in the data set. -/
theorem C68_none_error (dt : DictText) (date : Text) (ow : Bool) (old : Option (Content α))
    {d : Dat α} (h : d.err = .isNone) :
    (saveData dt date .ascii ow old d).2 = (old, some .valueError) ∧
      (cs!"error", Col.none) ∈ (saveData dt date .ascii ow old d).1.cols := by
  have hw : (withErrorColumn d).cols = putCol d.cols cs!"error" .none := by rw [withErrorColumn, h]
  constructor
  · rw [saveData, saveAscii]
    simp only [hw, mapM_flat_none (putCol_mem d.cols cs!"error" Col.none)]
    rfl
  · rw [ascii_object, hw]
    exact putCol_mem _ _ _

/-- A data set all of whose columns are arrays of length `n`. -/
def IsTable (n : Nat) (cols : List (Text × Col α)) : Prop :=
  ∀ c ∈ cols, ∃ xs : List α, c.2 = .arr xs ∧ xs.length = n

theorem IsTable.arrays {n : Nat} {cols : List (Text × Col α)} (h : IsTable n cols) :
    ∃ xss : List (List α), cols.mapM (fun c => c.2.flat) = some xss ∧
      cols.map Prod.snd = xss.map .arr ∧ (∀ c ∈ xss, c.length = n) ∧ xss.length = cols.length := by
  induction cols with
  | nil => exact ⟨[], rfl, rfl, by simp, rfl⟩
  | cons c cs ih =>
    obtain ⟨xs, hc, hl⟩ := h c (by simp)
    obtain ⟨xss, h1, h2, h3, h4⟩ := ih fun x hx => h x (by simp [hx])
    refine ⟨xs :: xss, ?_, ?_, ?_, ?_⟩
    · rw [List.mapM_cons, h1, hc]; rfl
    · simp [hc, h2]
    · simp only [List.mem_cons, forall_eq_or_imp]; exact ⟨hl, h3⟩
    · simp [h4]

theorem saveAscii_table (dt : DictText) (date : Text) {n : Nat} {d : Dat α}
    (ht : IsTable n (withErrorColumn d).cols) (hne : (withErrorColumn d).cols ≠ []) :
    ∃ xss : List (List α), (withErrorColumn d).cols.map Prod.snd = xss.map .arr ∧
      (∀ c ∈ xss, c.length = n) ∧ xss.length = (withErrorColumn d).cols.length ∧
      saveAscii dt date d = (withErrorColumn d,
        .ok ((headerLines dt date d).map .comment ++ (rowsOf n xss).map .row)) := by
  obtain ⟨xss, h1, h2, h3, h4⟩ := ht.arrays
  refine ⟨xss, h2, h3, h4, ?_⟩
  rw [saveAscii]
  have hx : xss ≠ [] := by
    rintro rfl
    exact hne (List.eq_nil_of_length_eq_zero h4.symm)
  simp only [h1, bind, Except.bind, stack_eq hx h3, pure, Except.pure]

/-- C68 is false: looking at the error bars of a data set decides whether it can
be saved.  A table that can be saved cannot be saved after `d.error` was read. -/
theorem C68_after_reading (dt : DictText) (date : Text) (ow : Bool) (old : Option (Content α))
    {n : Nat} {d : Dat α} (h : d.err = .absent) (ht : IsTable n d.cols) (hne : d.cols ≠ []) :
    (saveData dt date .ascii ow old d).2.2 = none ∧
      (saveData dt date .ascii ow old (readError d)).2.2 = some .valueError ∧
      (saveData dt date .hdf5 true old d).2.2 = none ∧
      (saveData dt date .hdf5 true old (readError d)).2.2 = some .typeError := by
  have hw : withErrorColumn d = d := by rw [withErrorColumn, h]
  have hr : (readError d).err = .isNone := by rw [readError, h]
  have hrc : (readError d).cols = d.cols := by rw [readError, h]
  obtain ⟨xss, -, -, -, hs⟩ := saveAscii_table dt date (hw.symm ▸ ht) (hw.symm ▸ hne)
  have hall : (d.cols.all fun c => c.2.flat.isSome) = true := by
    rw [List.all_eq_true]
    intro c hc
    obtain ⟨xs, hx, -⟩ := ht c hc
    rw [hx]; rfl
  refine ⟨?_, ?_, ?_, ?_⟩
  · rw [saveData]; simp only [hs]
  · rw [(C68_none_error dt date ow old hr).1]
  · simp only [saveData, saveHdf5, if_true, hall, h]
  · simp only [saveData, saveHdf5, if_true, hrc, hall, hr]

/-- C68 is false: an ASCII or pickle save replaces whatever file is there, also
when `overwrite=False`. -/
theorem C68_replaced (dt : DictText) (date : Text) (old : Content α) {n : Nat} {d : Dat α}
    (h : d.err = .absent) (ht : IsTable n d.cols) (hne : d.cols ≠ []) :
    (∃ ls, (saveData dt date .ascii false (some old) d).2 = (some (.lines ls), none)) ∧
      (saveData dt date .pickle false (some old) d).2 = (some (.pickle d), none) := by
  have hw : withErrorColumn d = d := by rw [withErrorColumn, h]
  obtain ⟨xss, -, -, -, hs⟩ := saveAscii_table dt date (hw.symm ▸ ht) (hw.symm ▸ hne)
  refine ⟨⟨(headerLines dt date d).map .comment ++ (rowsOf n xss).map .row, ?_⟩, rfl⟩
  rw [saveData]
  simp only [hs]

/-- C68.  For HDF5 the flag is respected: without `overwrite` a file that exists
and holds data is left as it is, and the caller is told. -/
theorem C68_hdf5_kept (dt : DictText) (date : Text) (g : H5Data α) (d : Dat α) :
    (saveData dt date .hdf5 false (some (.hdf5 (some g))) d).2 =
      (some (.hdf5 (some g)), some .valueError) := rfl

/-! ### C99: a data set comes back from its file -/

/-- A line of text that mentions none of the words the loader looks for. -/
def Quiet (s : Text) : Prop :=
  ∀ m ∈ [cs!"npy_col_headers", cs!"original_header", cs!"Q_keys", cs!"data_keys", cs!"# "],
    ¬ m <:+: s

/-- What a file must meet to be read back: the header of the data set and the
printed dictionaries do not contain the words the loader looks for, the
dictionaries evaluate to themselves, and the date has no underscore. -/
structure Readable (dt : DictText) (date : Text) (d : Dat α) : Prop where
  date : '_' ∉ date
  header : ∀ hs, d.header = some hs → ∀ h ∈ hs, Quiet h
  data : Quiet (dt.str d.dataKeys)
  q : Quiet (dt.str d.qKeys)
  evalData : dt.eval (dt.str d.dataKeys) = some d.dataKeys
  evalQ : dt.eval (' ' :: dt.str d.qKeys) = some d.qKeys

theorem Quiet.tab {s : Text} (h : Quiet s) : Quiet ('\t' :: s) := by
  intro m hm hi
  have hc : '\t' ∉ m := by
    simp only [List.mem_cons, List.not_mem_nil, or_false] at hm
    rcases hm with rfl | rfl | rfl | rfl | rfl <;> decide
  rcases infix_append_cons (a := []) hc hi with h0 | h0
  · have : m = [] := by simpa using h0
    rw [this] at hm
    simp at hm
  · exact h m hm h0

theorem quiet_nil : Quiet [] := by
  intro m hm hi
  have : m = [] := by simpa using hi
  rw [this] at hm
  simp at hm

theorem oldHeader_quiet {dt : DictText} {date : Text} {d : Dat α} (h : Readable dt date d) :
    ∀ l ∈ oldHeader d, Quiet l := by
  have h0 : Quiet cs!"\t" := quiet_nil.tab
  intro l hl
  rw [oldHeader] at hl
  split at hl
  · obtain rfl := List.mem_singleton.1 hl; exact h0
  · obtain rfl := List.mem_singleton.1 hl; exact h0
  · next hs _ he =>
    obtain ⟨x, hx, rfl⟩ := List.mem_map.1 hl
    exact (h.header hs he x hx).tab

theorem oldHeader_ne_nil (d : Dat α) : oldHeader d ≠ [] := by
  rw [oldHeader]
  split
  · simp
  · simp
  · next hs hne _ => simpa using hne

/-- The header as it is read back, before the original header is cut out. -/
def readHeader (dt : DictText) (date : Text) (d : Dat α) : List Text :=
  [erase cs!"# " (cs!"### NeutronPy ::: " ++ (date ++ cs!" ###")), [],
    cs!"data_keys = " ++ dt.str d.dataKeys, cs!"Q_keys = " ++ dt.str d.qKeys, [], [],
    cs!"original_header = "] ++ oldHeader d ++ [[], []]

theorem firstLine_plain {date : Text} (h : '_' ∉ date) :
    '_' ∉ cs!"### NeutronPy ::: " ++ (date ++ cs!" ###") := by
  simp only [List.mem_append, not_or]
  exact ⟨by decide, h, by decide⟩

theorem not_infix_key {k s m : Text} (hk : ' ' ∉ m) (h1 : ¬ m <:+: k) (h2 : ¬ m <:+: s) :
    ¬ m <:+: k ++ ' ' :: s := by
  intro hi
  rcases infix_append_cons hk hi with h | h
  · exact h1 h
  · exact h2 h

theorem scan_saved {dt : DictText} {date : Text} {d : Dat α} (h : Readable dt date d)
    {ns : List Text} (hw : words (join '\t' (writtenNames d)) = ns) (rows : List (List α)) :
    scan ((headerLines dt date d).map Line.comment ++ rows.map Line.row) =
      .ok (readHeader dt date d, some ns) := by
  have split : (headerLines dt date d).map Line.comment ++ rows.map Line.row =
      ([cs!"### NeutronPy ::: " ++ (date ++ cs!" ###"), [], cs!"data_keys = " ++ dt.str d.dataKeys,
        cs!"Q_keys = " ++ dt.str d.qKeys, [], [], cs!"original_header = "] ++ oldHeader d ++
        [[], []]).map Line.comment ++ (Line.comment cs!"npy_col_headers =" ::
        Line.comment (join '\t' (writtenNames d)) :: rows.map Line.row) := by
    simp only [headerLines, List.map_append, List.map_cons, List.map_nil, List.append_assoc,
      List.cons_append, List.nil_append]
  have hend := scan_end (join '\t' (writtenNames d)) rows
  rw [hw] at hend
  rw [split, scan_comments _ hend, List.append_nil]
  · have hold : (oldHeader d).map (erase cs!"# ") = oldHeader d := by
      conv_rhs => rw [← List.map_id (oldHeader d)]
      apply List.map_congr_left
      intro l hl
      exact erase_of_not_infix (oldHeader_quiet h l hl _ (by simp))
    have hd : erase cs!"# " (cs!"data_keys = " ++ dt.str d.dataKeys) =
        cs!"data_keys = " ++ dt.str d.dataKeys :=
      erase_of_not_infix fun hi => h.data _ (by simp) (infix_of_head (by decide) hi)
    have hq : erase cs!"# " (cs!"Q_keys = " ++ dt.str d.qKeys) =
        cs!"Q_keys = " ++ dt.str d.qKeys :=
      erase_of_not_infix fun hi => h.q _ (by simp) (infix_of_head (by decide) hi)
    have ho : erase cs!"# " cs!"original_header = " = cs!"original_header = " := by decide
    have h0 : erase cs!"# " [] = [] := rfl
    simp only [readHeader, List.map_append, List.map_cons, List.map_nil, hold, hd, hq, ho, h0]
  · intro l hl
    simp only [List.mem_append, List.mem_cons, List.not_mem_nil, or_false] at hl
    rcases hl with (((rfl | rfl | rfl | rfl | rfl | rfl | rfl) | hl) | (rfl | rfl))
    · exact has_false_of_notMem (c := '_') (by decide) (firstLine_plain h.date)
    · rfl
    · exact has_false_iff.2 (not_infix_key (k := cs!"data_keys =") (by decide)
        (has_false_iff.1 (by decide)) (h.data _ (by simp)))
    · exact has_false_iff.2 (not_infix_key (k := cs!"Q_keys =") (by decide)
        (has_false_iff.1 (by decide)) (h.q _ (by simp)))
    · rfl
    · rfl
    · decide
    · exact has_false_iff.2 (oldHeader_quiet h l hl _ (by simp))
    · rfl
    · rfl

theorem load_saved_ascii {dt : DictText} {date : Text} {d : Dat α} (h : Readable dt date d)
    {ns : List Text} (hw : words (join '\t' (writtenNames d)) = ns) {rows : List (List α)}
    {cols : List (Col α)} (hg : genfromtxt rows = .ok cols) :
    loadAscii dt ((headerLines dt date d).map Line.comment ++ rows.map Line.row) =
      .ok { cols := fill ns cols, dataKeys := d.dataKeys, qKeys := d.qKeys,
            header := some (oldHeader d).dropLast, err := .absent } := by
  have hX : '_' ∉ erase cs!"# " (cs!"### NeutronPy ::: " ++ (date ++ cs!" ###")) := fun hm =>
    firstLine_plain h.date (eraseFrom_subset _ _ _ _ hm)
  have hscan := scan_saved h hw rows
  have hfilter : ((headerLines dt date d).map Line.comment ++ rows.map Line.row).filterMap
      Line.row? = rows := rows_filter _ _
  have hfirst : ∃ rest, (headerLines dt date d).map Line.comment ++ rows.map Line.row =
      Line.comment (cs!"### NeutronPy ::: " ++ (date ++ cs!" ###")) :: rest := ⟨_, rfl⟩
  have hold : ∀ m ∈ [cs!"original_header", cs!"Q_keys", cs!"data_keys"],
      ∀ l ∈ oldHeader d ++ [[], []], has m l = false := by
    intro m hm l hl
    simp only [List.mem_append, List.mem_cons, List.not_mem_nil, or_false, or_self] at hl
    rcases hl with hl | rfl
    · refine has_false_iff.2 (oldHeader_quiet h l hl m ?_)
      simp only [List.mem_cons, List.not_mem_nil, or_false] at hm ⊢
      tauto
    · simp only [List.mem_cons, List.not_mem_nil, or_false] at hm
      rcases hm with rfl | rfl | rfl <;> rfl
  have hstart : startOf (readHeader dt date d) = some 7 := by
    have : readHeader dt date d = [erase cs!"# " (cs!"### NeutronPy ::: " ++ (date ++ cs!" ###")), [],
        cs!"data_keys = " ++ dt.str d.dataKeys, cs!"Q_keys = " ++ dt.str d.qKeys, [], []] ++
        cs!"original_header = " :: (oldHeader d ++ [[], []]) := by
      simp only [readHeader, List.cons_append, List.nil_append]
    rw [this, startOf_append _ (by decide) (hold _ (by simp))]
    rfl
  have hq : keysOf dt cs!"Q_keys" cs!"Q_keys =" (readHeader dt date d) = .ok (some d.qKeys) := by
    have : readHeader dt date d = [erase cs!"# " (cs!"### NeutronPy ::: " ++ (date ++ cs!" ###")), [],
        cs!"data_keys = " ++ dt.str d.dataKeys] ++ (cs!"Q_keys =" ++ (' ' :: dt.str d.qKeys)) ::
        ([[], [], cs!"original_header = "] ++ (oldHeader d ++ [[], []])) := by
      simp only [readHeader, List.cons_append, List.nil_append]
    rw [this]
    refine keysOf_append dt ?_ ?_ ?_ ?_
    · intro l hl
      simp only [List.mem_cons, List.not_mem_nil, or_false] at hl
      rcases hl with rfl | rfl | rfl
      · exact has_false_of_notMem (c := '_') (by decide) hX
      · rfl
      · exact has_false_iff.2 (not_infix_key (k := cs!"data_keys =") (by decide)
          (has_false_iff.1 (by decide)) (h.data _ (by simp)))
    · exact has_iff.2 ⟨[], cs!" =" ++ (' ' :: dt.str d.qKeys), by simp⟩
    · rw [erase_append (by simp), erase_of_not_infix, h.evalQ]
      intro hi
      refine not_infix_key (k := []) (m := cs!"Q_keys") (s := dt.str d.qKeys) (by decide) (by simp)
        (h.q _ (by simp)) (List.IsInfix.trans ⟨[], cs!" =", rfl⟩ hi)
    · intro l hl
      rcases List.mem_append.1 hl with hl | hl
      · simp only [List.mem_cons, List.not_mem_nil, or_false] at hl
        rcases hl with rfl | rfl | rfl
        · rfl
        · rfl
        · decide
      · exact hold _ (by simp) l hl
  have hd : keysOf dt cs!"data_keys" cs!"data_keys = " (readHeader dt date d) =
      .ok (some d.dataKeys) := by
    have : readHeader dt date d = [erase cs!"# " (cs!"### NeutronPy ::: " ++ (date ++ cs!" ###")), []] ++
        (cs!"data_keys = " ++ dt.str d.dataKeys) ::
        ([cs!"Q_keys = " ++ dt.str d.qKeys, [], [], cs!"original_header = "] ++
          (oldHeader d ++ [[], []])) := by
      simp only [readHeader, List.cons_append, List.nil_append]
    rw [this]
    refine keysOf_append dt ?_ ?_ ?_ ?_
    · intro l hl
      simp only [List.mem_cons, List.not_mem_nil, or_false] at hl
      rcases hl with rfl | rfl
      · exact has_false_of_notMem (c := '_') (by decide) hX
      · rfl
    · exact has_iff.2 ⟨[], cs!" = " ++ dt.str d.dataKeys, by simp⟩
    · rw [erase_append (by simp), erase_of_not_infix, h.evalData]
      intro hi
      exact h.data cs!"data_keys" (by simp) (List.IsInfix.trans ⟨[], cs!" = ", rfl⟩ hi)
    · intro l hl
      rcases List.mem_append.1 hl with hl | hl
      · simp only [List.mem_cons, List.not_mem_nil, or_false] at hl
        rcases hl with rfl | rfl | rfl | rfl
        · exact has_false_iff.2 (not_infix_key (k := cs!"Q_keys =") (by decide)
            (has_false_iff.1 (by decide)) (h.q _ (by simp)))
        · rfl
        · rfl
        · decide
      · exact hold _ (by simp) l hl
  have hcut : ((readHeader dt date d).take ((readHeader dt date d).length - 3)).drop 7 =
      (oldHeader d).dropLast := by
    have hm : 0 < (oldHeader d).length := List.length_pos_of_ne_nil (oldHeader_ne_nil d)
    have cut : ∀ pre old : List Text, pre.length = 7 → 0 < old.length →
        ((pre ++ (old ++ [[], []])).take ((pre ++ (old ++ [[], []])).length - 3)).drop 7 =
          old.dropLast := by
      intro pre old hp ho
      have hl : (pre ++ (old ++ [[], []])).length - 3 = pre.length + (old.length - 1) := by
        simp only [List.length_append, List.length_cons, List.length_nil]
        omega
      rw [hl, List.take_length_add_append, ← hp, List.drop_left,
        List.take_append_of_le_length (by omega), List.dropLast_eq_take]
    rw [readHeader, List.append_assoc]
    exact cut _ _ rfl hm
  obtain ⟨rest, hrest⟩ := hfirst
  have hhas : has cs!"NeutronPy" (cs!"### NeutronPy ::: " ++ (date ++ cs!" ###")) = true :=
    has_iff.2 ⟨cs!"### ", cs!" ::: " ++ (date ++ cs!" ###"), by simp⟩
  rw [hrest] at hscan hfilter ⊢
  rw [loadAscii]
  simp only [hhas, if_true, hscan, hfilter, hg, hq, hd, hstart, bind, Except.bind, pure,
    Except.pure, hcut, Option.getD_some]

end Verif.FileIO
