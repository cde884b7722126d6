import Verif.FileIO.LoadersLemmas
import Verif.Common.Exc
import Mathlib.Data.List.Nodup

/-!
# Theorems about the loaders of column files: SPICE, MAD, ICE, ICP and GRASP
-/

namespace Verif.FileIO

variable {α : Type}

/-! ### SPICE -/

/-- A SPICE file: the header `hs`, a line that announces the names, the line of
names, the lines of numbers `ds`, and more comments `fs`. -/
structure IsSpice (ls hs names ds fs : List Text) : Prop where
  lines : ∃ cl nl, ls = hs ++ cl :: nl :: (ds ++ fs) ∧ has cs!"col_headers" cl = true ∧
    cl.head? = some '#' ∧ nl.head? = some '#' ∧ words nl = cs!"#" :: names
  header : ∀ l ∈ hs, l.head? = some '#' ∧ has cs!"col_headers" l = false
  footer : ∀ l ∈ fs, l.head? = some '#' ∧ has cs!"col_headers" l = false
  data : ∀ l ∈ ds, DataLine l ∧ has cs!"col_headers" l = false
  width : ∀ l ∈ ds, (words l).length = names.length
  nodup : names.Nodup
  point : cs!"Pt." ∈ names

theorem mem_of_head {l : Text} {c : Char} (h : l.head? = some c) : c ∈ l := by
  cases l with
  | nil => simp at h
  | cons x xs => simp at h; simp [h]

theorem IsSpice.scan {ls hs names ds fs : List Text} (h : IsSpice ls hs names ds fs) :
    spiceScan ls = .ok ((hs ++ fs).map (erase cs!"# "), some names) := by
  obtain ⟨cl, nl, rfl, hc, -, -, hw⟩ := h.lines
  have h1 : spiceScan (ds ++ fs) = .ok (fs.map (erase cs!"# "), none) := by
    rw [spiceScan_data (fun l hl => (h.data l hl).1.1) (fun l hl => (h.data l hl).2)]
    have := spiceScan_comments (hs := fs) (rest := []) (h' := []) (names := none)
      (fun l hl => mem_of_head (h.footer l hl).1) (fun l hl => (h.footer l hl).2) rfl
    simpa using this
  rw [spiceScan_comments (fun l hl => mem_of_head (h.header l hl).1)
    (fun l hl => (h.header l hl).2) (spiceScan_names hc h1), hw]
  simp

theorem IsSpice.tokens {ls hs names ds fs : List Text} (h : IsSpice ls hs names ds fs) :
    tableTokens ls = ds.map words := by
  obtain ⟨cl, nl, rfl, -, h1, h2, -⟩ := h.lines
  have e : hs ++ cl :: nl :: (ds ++ fs) = hs ++ [cl, nl] ++ ds ++ fs := by simp
  rw [e, tableTokens_append, tableTokens_append, tableTokens_append,
    tableTokens_comments (fun l hl => (h.header l hl).1),
    tableTokens_comments (fun l hl => (h.footer l hl).1),
    tableTokens_comments (ls := [cl, nl]) (by simp [h1, h2]),
    tableTokens_data fun l hl => (h.data l hl).1]
  simp

/-- What is loaded, given the names and the rows. -/
theorem loadSpice_of (r : Reader α) (build : Bool) {ls h names ds : List Text} (hs : spiceScan ls = .ok (h, some names))
    (htok : tableTokens ls = ds.map words) (hw : ∀ l ∈ ds, (words l).length = names.length) (hnd : names.Nodup)
    (hpt : cs!"Pt." ∈ names) (hn : 2 ≤ ds.length) (hk : 2 ≤ names.length) :
    ∃ d, loadSpice r build ls = .ok d ∧
      (∀ (j : Nat) (hj : j < names.length), names[j] ≠ cs!"Pt." →
        d.dat.cols.lookup names[j] = some (.arr (ds.map fun l => r.num ((words l).getD j [])))) ∧
      d.dat.cols.map Prod.fst = names.filter (· ≠ cs!"Pt.") ∧ d.dat.header = some h := by
  have ht : readTable r 0 ls =
      .ok ((List.range names.length).map fun j => .arr (colVals r.num (ds.map words) j)) := by
    rw [readTable, List.drop_zero, htok]
    apply genfromtxt_rows _ (by simpa using hn) hk
    intro x hx
    obtain ⟨l, hl, rfl⟩ := List.mem_map.1 hx
    exact hw l hl
  have hdel : delCol cs!"Pt." (fill names ((List.range names.length).map fun j =>
      Col.arr (colVals r.num (ds.map words) j))) = .ok _ := if_pos (by
    rw [fill_eq hnd, map_fst_zip (by simp)]
    exact hpt)
  rw [loadSpice, hs]
  simp only [ok_bind, ht, bound, hdel]
  refine ⟨_, rfl, ?_, ?_, rfl⟩
  · intro j hj hne
    show List.lookup _ (List.filter _ _) = _
    rw [lookup_filter hne, lookup_fill hnd hj (by simpa using hj)]
    simp [colVals, Function.comp_def]
  · show List.map _ (List.filter _ _) = _
    rw [fill_eq hnd]
    have : ∀ (ns : List Text) (cs : List (Col α)), ns.length = cs.length →
        ((List.zip ns cs).filter fun c => c.1 ≠ cs!"Pt.").map Prod.fst =
          ns.filter (· ≠ cs!"Pt.") := by
      intro ns
      induction ns with
      | nil => simp
      | cons n ns ih =>
        intro cs hcs
        cases cs with
        | nil => simp at hcs
        | cons c cs =>
          have := ih cs (by simpa using hcs)
          rw [List.zip_cons_cons]
          by_cases e : n = cs!"Pt."
          · rw [List.filter_cons_of_neg (by simpa using e), List.filter_cons_of_neg (by simpa using e),
              this]
          · rw [List.filter_cons_of_pos (by simpa using e), List.filter_cons_of_pos (by simpa using e),
              List.map_cons, this]
    exact this _ _ (by simp)

/-- **C108**, the part that holds: from a SPICE file with at least two points every
column but `Pt.` is loaded under its name, as the array of its values in the
order of the lines, and nothing else is loaded.  The header is every comment
line without its mark. -/
theorem C108_columns_partial (r : Reader α) (build : Bool) {ls hs names ds fs : List Text}
    (h : IsSpice ls hs names ds fs) (hn : 2 ≤ ds.length) (hk : 2 ≤ names.length) :
    ∃ d, loadSpice r build ls = .ok d ∧
      (∀ (j : Nat) (hj : j < names.length), names[j] ≠ cs!"Pt." →
        d.dat.cols.lookup names[j] = some (.arr (ds.map fun l => r.num ((words l).getD j [])))) ∧
      d.dat.cols.map Prod.fst = names.filter (· ≠ cs!"Pt.") ∧
      d.dat.header = some ((hs ++ fs).map (erase cs!"# ")) :=
  loadSpice_of r build h.scan h.tokens h.width h.nodup h.point hn hk

/-- In a SPICE file that is followed by more lines, the names found there replace those of the file. -/
theorem IsSpice.scan_append {ls hs names ds fs : List Text} (h : IsSpice ls hs names ds fs) {ls' h' names' : List Text}
    (h2 : spiceScan ls' = .ok (h', some names')) :
    spiceScan (ls ++ ls') = .ok ((hs ++ fs).map (erase cs!"# ") ++ h', some names') := by
  obtain ⟨cl, nl, rfl, hc, -, -, -⟩ := h.lines
  have h1 : spiceScan (ds ++ (fs ++ ls')) = .ok (fs.map (erase cs!"# ") ++ h', some names') := by
    rw [spiceScan_data (fun l hl => (h.data l hl).1.1) (fun l hl => (h.data l hl).2)]
    exact spiceScan_comments (fun l hl => mem_of_head (h.footer l hl).1) (fun l hl => (h.footer l hl).2) h2
  have h3 : spiceScan (cl :: nl :: (ds ++ (fs ++ ls'))) = .ok (fs.map (erase cs!"# ") ++ h', some names') := by
    conv_lhs => unfold spiceScan
    rw [if_pos hc]
    simp only [h1]
    rfl
  have e : hs ++ cl :: nl :: (ds ++ fs) ++ ls' = hs ++ (cl :: nl :: (ds ++ (fs ++ ls'))) := by simp
  rw [e, spiceScan_comments (fun l hl => mem_of_head (h.header l hl).1) (fun l hl => (h.header l hl).2) h3]
  simp

/-- **C108** fails for a file with two scans one after the other, of as many columns each: the points of both are loaded
under the names of the second, whatever those of the first are. -/
theorem C108_appended_false (r : Reader α) (build : Bool) {ls hs names ds fs ls' hs' names' ds' fs' : List Text}
    (h : IsSpice ls hs names ds fs) (h' : IsSpice ls' hs' names' ds' fs') (hl : names.length = names'.length)
    (hn : 2 ≤ ds.length + ds'.length) (hk : 2 ≤ names.length) :
    ∃ d, loadSpice r build (ls ++ ls') = .ok d ∧
      (∀ (j : Nat) (hj : j < names'.length), names'[j] ≠ cs!"Pt." →
        d.dat.cols.lookup names'[j] = some (.arr ((ds ++ ds').map fun l => r.num ((words l).getD j [])))) ∧
      d.dat.cols.map Prod.fst = names'.filter (· ≠ cs!"Pt.") := by
  obtain ⟨d, h1, h2, h3, -⟩ := loadSpice_of r build (ds := ds ++ ds') (h.scan_append h'.scan)
    (by rw [tableTokens_append, h.tokens, h'.tokens, List.map_append])
    (fun l hm => (List.mem_append.1 hm).elim (fun hm => (h.width l hm).trans hl) (h'.width l)) h'.nodup h'.point
    (by simpa using hn) (hl ▸ hk)
  exact ⟨d, h1, h2, h3⟩

/-- A reader of numbers for the examples: one or more digits. -/
def digits : Reader Nat where
  float t := if t ≠ [] ∧ t.all Char.isDigit then
    some (t.foldl (fun n c => 10 * n + (c.toNat - '0'.toNat)) 0) else none
  int t := if strip t ≠ [] ∧ (strip t).all Char.isDigit then
    some ((strip t).foldl (fun n c => 10 * n + (c.toNat - '0'.toNat)) 0) else none
  nan := 0

/-- A SPICE file with two points. -/
def spiceTwo : List Text :=
  [cs!"# scan = 2", cs!"# def_x = h", cs!"# def_y = detector", cs!"# col_headers = ",
    cs!"#   Pt.   h   detector", cs!"      1   5    93", cs!"      2   6    94",
    cs!"# scan completed."]

theorem spiceTwo_ok : IsSpice spiceTwo
    [cs!"# scan = 2", cs!"# def_x = h", cs!"# def_y = detector"]
    [cs!"Pt.", cs!"h", cs!"detector"] [cs!"      1   5    93", cs!"      2   6    94"]
    [cs!"# scan completed."] where
  lines := ⟨cs!"# col_headers = ", cs!"#   Pt.   h   detector", by decide⟩
  header := by decide
  footer := by decide
  data := by decide
  width := by decide
  nodup := by decide
  point := by decide

/-- A SPICE file with a scan of another index. -/
def spiceOther : List Text :=
  [cs!"# scan = 3", cs!"# col_headers = ", cs!"#   Pt.   k   detector", cs!"      1   7    95"]

theorem spiceOther_ok : IsSpice spiceOther [cs!"# scan = 3"] [cs!"Pt.", cs!"k", cs!"detector"] [cs!"      1   7    95"] [] where
  lines := ⟨cs!"# col_headers = ", cs!"#   Pt.   k   detector", by decide⟩
  header := by decide
  footer := by decide
  data := by decide
  width := by decide
  nodup := by decide
  point := by decide

example : ∃ d, loadSpice digits true (spiceTwo ++ spiceOther) = .ok d ∧
    d.dat.cols.lookup cs!"k" = some (.arr [5, 6, 7]) ∧ d.dat.cols.map Prod.fst = [cs!"k", cs!"detector"] := by
  obtain ⟨d, h1, h2, h3⟩ := C108_appended_false digits true spiceTwo_ok spiceOther_ok (by decide) (by decide) (by decide)
  exact ⟨d, h1, (h2 1 (by decide) (by decide)).trans (by decide), h3.trans (by decide)⟩

example : ∃ d, loadSpice digits true spiceTwo = .ok d ∧ d.dat.cols =
    [(cs!"h", .arr [5, 6]), (cs!"detector", .arr [93, 94])] ∧ d.plotX = some cs!"h" := by
  refine ⟨_, rfl, ?_, ?_⟩ <;> decide

/-- **C108**: from a SPICE file with one point, single numbers are loaded instead
of arrays. -/
theorem C108_single (r : Reader α) (build : Bool) {ls hs names fs : List Text} {l : Text}
    (h : IsSpice ls hs names [l] fs) (hk : 2 ≤ names.length) :
    ∃ d, loadSpice r build ls = .ok d ∧
      ∀ (j : Nat) (hj : j < names.length), names[j] ≠ cs!"Pt." →
        d.dat.cols.lookup names[j] = some (.scalar (r.num ((words l).getD j []))) := by
  have hw := h.width l (by simp)
  have ht : readTable r 0 ls = .ok ((words l).map fun t => .scalar (r.num t)) := by
    rw [readTable, List.drop_zero, h.tokens]
    exact genfromtxt_single _ (by omega)
  have hdel : delCol cs!"Pt." (fill names ((words l).map fun t => Col.scalar (r.num t))) = .ok _ :=
    if_pos (by
      rw [fill_eq h.nodup, map_fst_zip (by simp [hw])]
      exact h.point)
  rw [loadSpice, h.scan]
  simp only [ok_bind, ht, bound, hdel]
  refine ⟨_, rfl, ?_⟩
  intro j hj hne
  show List.lookup _ (List.filter _ _) = _
  rw [lookup_filter hne, lookup_fill h.nodup hj (by simpa [hw] using hj)]
  simp [hw, hj]

/-- A SPICE file with one point. -/
def spiceOne : List Text :=
  [cs!"# scan = 2", cs!"# col_headers = ", cs!"#   Pt.   h   detector", cs!"      1   5    93"]

theorem spiceOne_ok : IsSpice spiceOne [cs!"# scan = 2"] [cs!"Pt.", cs!"h", cs!"detector"]
    [cs!"      1   5    93"] [] where
  lines := ⟨cs!"# col_headers = ", cs!"#   Pt.   h   detector", by decide⟩
  header := by decide
  footer := by decide
  data := by decide
  width := by decide
  nodup := by decide
  point := by decide

/-- **C108** does not hold in full: not every SPICE file gives arrays. -/
theorem C108_false : ¬ ∀ (ls hs names ds fs : List Text), IsSpice ls hs names ds fs →
    2 ≤ names.length → ds ≠ [] →
    ∃ d, loadSpice digits true ls = .ok d ∧
      ∀ (j : Nat) (hj : j < names.length), names[j] ≠ cs!"Pt." →
        d.dat.cols.lookup names[j] =
          some (.arr (ds.map fun l => digits.num ((words l).getD j []))) := by
  intro h
  obtain ⟨d, h1, h2⟩ := h _ _ _ _ _ spiceOne_ok (by decide) (by decide)
  obtain ⟨d', h1', h2'⟩ := C108_single digits true spiceOne_ok (by decide)
  obtain rfl := Except.ok.inj (h1.symm.trans h1')
  have := (h2 1 (by decide) (by decide)).symm.trans (h2' 1 (by decide) (by decide))
  simp at this

/-- **C108**: a file without a line that announces the names is not loaded. -/
theorem C108_no_names (r : Reader α) (build : Bool) {ls : List Text}
    (h : ∀ l ∈ ls, has cs!"col_headers" l = false) :
    ∃ e, loadSpice r build ls = .error e := by
  have hs : ∀ ls : List Text, (∀ l ∈ ls, has cs!"col_headers" l = false) →
      ∃ h', spiceScan ls = .ok (h', none) := by
    intro ls
    induction ls with
    | nil => intro _; exact ⟨_, rfl⟩
    | cons l ls ih =>
      intro h
      obtain ⟨h', e⟩ := ih fun x hx => h x (by simp [hx])
      unfold spiceScan
      rw [if_neg (by rw [h l (by simp)]; simp), e]
      by_cases hm : '#' ∈ l
      · rw [if_pos hm]; exact ⟨_, rfl⟩
      · rw [if_neg hm]; exact ⟨_, rfl⟩
  obtain ⟨h', e⟩ := hs ls h
  rw [loadSpice, e]
  simp only [ok_bind, bound]
  cases readTable r 0 ls with
  | error e => exact ⟨_, rfl⟩
  | ok a => exact ⟨_, rfl⟩

example : loadSpice digits true [cs!"# scan = 2", cs!"# def_x = h", cs!" 1 2"] =
    .error .nameError := by decide

theorem lastSetting_append {word : Text} (a : List Text) {l : Text} {b : List Text}
    (hl : has word l = true) (hb : ∀ x ∈ b, has word x = false) :
    lastSetting word (a ++ l :: b) = some (afterEq l) := by
  have : b.filter (has word) = [] := by
    rw [List.filter_eq_nil_iff]
    intro x hx
    simp [hb x hx]
  simp [lastSetting, hl, this]

theorem afterEq_setting {key v : Text} (hk : '=' ∉ key) (hv : OneWord v) (hq : '=' ∉ v) :
    afterEq (key ++ cs!" = " ++ v) = v := by
  have e : key ++ cs!" = " ++ v = (key ++ [' ']) ++ '=' :: (' ' :: v) := by simp
  have h1 : '=' ∉ key ++ [' '] := by simp [hk]
  have h2 : '=' ∉ ' ' :: v := by simp [hq]
  rw [afterEq, e, split_append h1, split_of_notMem h2]
  simp only [List.getLastD_cons, List.getLastD_nil, strip_cons_space]
  apply strip_of_ends
  · intro x hx; exact hv.2 x (List.mem_of_mem_head? hx)
  · intro x hx; exact hv.2 x (List.mem_of_mem_getLast? hx)

/-- **C108**: the default axis of plots is what the last line that mentions
`def_x` says. -/
theorem C108_plot_default (r : Reader α) (build : Bool) {a b names ds fs ls : List Text} {v : Text}
    (h : IsSpice ls (a ++ (cs!"# def_x = " ++ v) :: b) names ds fs)
    (hv : OneWord v) (hq : '=' ∉ v ∧ '#' ∉ v)
    (hb : ∀ l ∈ b ++ fs, has cs!"def_x" (erase cs!"# " l) = false)
    {d : Loaded α} (hd : loadSpice r build ls = .ok d) : d.plotX = some v := by
  rw [loadSpice, h.scan] at hd
  simp only [ok_bind, bound, bind_eq_ok] at hd
  obtain ⟨args, -, cols, -, hd⟩ := hd
  obtain rfl := Except.ok.inj hd
  show lastSetting _ _ = _
  have he : erase cs!"# " (cs!"# def_x = " ++ v) = cs!"def_x = " ++ v := by
    have : cs!"# def_x = " ++ v = cs!"# " ++ (cs!"def_x = " ++ v) := rfl
    rw [this, erase_append (by simp)]
    apply erase_of_not_infix
    intro hi
    have : '#' ∈ cs!"def_x = " ++ v := hi.subset (by simp)
    simp [hq.2] at this
  have e : (a ++ (cs!"# def_x = " ++ v) :: b ++ fs).map (erase cs!"# ") =
      a.map (erase cs!"# ") ++ (cs!"def_x = " ++ v) :: (b ++ fs).map (erase cs!"# ") := by
    rw [List.map_append, List.map_append, List.map_cons, he, List.map_append, List.append_assoc,
      List.cons_append]
  rw [e, lastSetting_append]
  · have : cs!"def_x = " ++ v = cs!"def_x" ++ cs!" = " ++ v := rfl
    rw [this, afterEq_setting (by decide) hv hq.1]
  · rw [has_iff]; exact ⟨[], cs!" = " ++ v, rfl⟩
  · intro x hx
    obtain ⟨l, hl, rfl⟩ := List.mem_map.1 hx
    exact hb l hl

example : IsSpice spiceTwo ([cs!"# scan = 2"] ++ (cs!"# def_x = " ++ cs!"h") ::
    [cs!"# def_y = detector"]) [cs!"Pt.", cs!"h", cs!"detector"]
    [cs!"      1   5    93", cs!"      2   6    94"] [cs!"# scan completed."] ∧
    ∀ l ∈ [cs!"# def_y = detector"] ++ [cs!"# scan completed."],
      has cs!"def_x" (erase cs!"# " l) = false :=
  ⟨spiceTwo_ok, by decide⟩

theorem mapM_floatE (r : Reader α) {ts : List Text} {vs : List α}
    (h : List.Forall₂ (fun t v => r.float t = some v) ts vs) : ts.mapM r.floatE = .ok vs := by
  induction h with
  | nil => rfl
  | cons h _ ih => simp [List.mapM_cons, Reader.floatE, h, ih, ok_bind, pure_ok]

/-- Header lines that say nothing about the instrument. -/
def Silent (l : Text) : Prop :=
  beforeEq l ∉ [cs!"monochromator", cs!"analyzer", cs!"collimation", cs!"samplemosaic",
    cs!"latticeconstants"]

instance (l : Text) : Decidable (Silent l) := inferInstanceAs (Decidable (¬ _))

theorem spiceInstr_silent (r : Reader α) {hs : List Text} (h : ∀ l ∈ hs, Silent l)
    (s : SpiceInstr α) : hs.foldlM (spiceSetting r) s = .ok s := by
  induction hs with
  | nil => rfl
  | cons l ls ih =>
    have hl := h l (by simp)
    simp only [Silent, List.mem_cons, List.not_mem_nil, or_false, not_or] at hl
    rw [List.foldlM_cons, spiceSetting, if_neg hl.1, if_neg hl.2.1, if_neg hl.2.2.1,
      if_neg hl.2.2.2.1, if_neg hl.2.2.2.2, ok_bind, ih fun x hx => h x (by simp [hx])]

theorem join_ne_nil_notMem {c x : Char} {ws : List Text} (h : ∀ w ∈ ws, x ∉ w) (hx : x ≠ c) :
    x ∉ join c ws := fun hm => by
  rcases mem_join hm with e | ⟨w, hw, hm⟩
  · exact hx e
  · exact h w hw hm

theorem beforeEq_setting {key : Text} (hk : OneWord key) (hq : '=' ∉ key) (v : Text) :
    beforeEq (key ++ cs!" = " ++ v) = key := by
  have e : key ++ cs!" = " ++ v = (key ++ [' ']) ++ '=' :: (' ' :: v) := by simp
  rw [beforeEq, e, split_append (by simp [hq])]
  simp only [List.headD_cons]
  apply strip_append_space
  · intro x hx; exact hk.2 x (List.mem_of_mem_head? hx)
  · intro x hx; exact hk.2 x (List.mem_of_mem_getLast? hx)

theorem strip_word {w : Text} (hw : OneWord w) : strip w = w := by
  apply strip_of_ends
  · intro x hx; exact hw.2 x (List.mem_of_mem_head? hx)
  · intro x hx; exact hw.2 x (List.mem_of_mem_getLast? hx)

theorem mapM_cells (r : Reader α) {c : Char} {ts : List Text} {vs : List α}
    (hv : List.Forall₂ (fun t v => r.float t = some v) ts vs)
    (hw : ∀ t ∈ ts, OneWord t ∧ c ∉ t) (hne : ts ≠ []) (hc : c ≠ ' ') :
    (split c (' ' :: join c ts)).mapM (fun t => r.floatE (strip t)) = .ok vs := by
  cases ts with
  | nil => exact absurd rfl hne
  | cons t ts =>
    have e : ' ' :: join c (t :: ts) = join c ((' ' :: t) :: ts) := by
      cases ts <;> simp [join]
    rw [e, split_join]
    · have : ((' ' :: t) :: ts).mapM (fun t => r.floatE (strip t)) = (t :: ts).mapM r.floatE := by
        rw [List.mapM_cons, List.mapM_cons, strip_cons_space, strip_word (hw t (by simp)).1]
        have h2 : ∀ us : List Text, (∀ u ∈ us, OneWord u) →
            us.mapM (fun t => r.floatE (strip t)) = us.mapM r.floatE := by
          intro us
          induction us with
          | nil => intro _; rfl
          | cons u us ih =>
            intro h
            rw [List.mapM_cons, List.mapM_cons, strip_word (h u (by simp)),
              ih fun x hx => h x (by simp [hx])]
        rw [h2 ts fun u hu => (hw u (by simp [hu])).1]
      rw [this, mapM_floatE r hv]
    · intro w hm
      rcases List.mem_cons.1 hm with rfl | hm
      · simp [hc, (hw t (by simp)).2]
      · exact (hw w (by simp [hm])).2
    · simp

theorem setting_collimation (r : Reader α) (s : SpiceInstr α) {ts : List Text} {vs : List α} (hne : ts ≠ [])
    (hw : ∀ t ∈ ts, OneWord t ∧ '-' ∉ t ∧ '=' ∉ t)
    (hv : List.Forall₂ (fun t v => r.float t = some v) ts vs) :
    spiceSetting r s (cs!"collimation = " ++ join '-' ts) = .ok { s with hcol := some vs } := by
  have hq : '=' ∉ join '-' ts := join_ne_nil_notMem (fun w h => (hw w h).2.2) (by decide)
  have e : cs!"collimation = " ++ join '-' ts = cs!"collimation" ++ cs!" = " ++ join '-' ts := rfl
  have hk := beforeEq_setting (key := cs!"collimation") (by decide) (by decide) (join '-' ts)
  have hl : (split '=' (cs!"collimation" ++ cs!" = " ++ join '-' ts)).getLastD [] =
      ' ' :: join '-' ts := by
    have : cs!"collimation" ++ cs!" = " ++ join '-' ts =
        cs!"collimation " ++ '=' :: (' ' :: join '-' ts) := rfl
    rw [this, split_append (by decide), split_of_notMem (by simp [hq])]
    simp
  rw [e, spiceSetting, hk, if_neg (by decide), if_neg (by decide), if_pos rfl, hl,
    mapM_cells r hv (fun t ht => ⟨(hw t ht).1, (hw t ht).2.1⟩) hne (by decide)]
  rfl

theorem mapM_strip (r : Reader α) {us : List Text} {vs : List α}
    (h : List.Forall₂ (fun t v => r.float (strip t) = some v) us vs) :
    us.mapM (fun t => r.floatE (strip t)) = .ok vs := by
  induction h with
  | nil => rfl
  | cons h _ ih => rw [List.mapM_cons, ih, Reader.floatE, h]; rfl

theorem setting_lattice (r : Reader α) (s : SpiceInstr α) {ta tb tc t1 t2 t3 : Text}
    {va vb vc v1 v2 v3 : α}
    (hw : ∀ t ∈ [ta, tb, tc, t1, t2, t3], OneWord t ∧ ',' ∉ t ∧ '=' ∉ t)
    (h1 : r.float ta = some va) (h2 : r.float tb = some vb) (h3 : r.float tc = some vc)
    (h4 : r.float t1 = some v1) (h5 : r.float t2 = some v2) (h6 : r.float t3 = some v3) :
    spiceSetting r s (cs!"latticeconstants = " ++ join ',' [ta, tb, tc, t1, t2, t3]) =
      .ok { s with abc := some [va, vb, vc], abg := some [v1, v2, v3] } := by
  set ts := [ta, tb, tc, t1, t2, t3] with hts
  have hq : '=' ∉ join ',' ts := join_ne_nil_notMem (fun w h => (hw w h).2.2) (by decide)
  have hk := beforeEq_setting (key := cs!"latticeconstants") (by decide) (by decide) (join ',' ts)
  have e : cs!"latticeconstants = " ++ join ',' ts =
    cs!"latticeconstants" ++ cs!" = " ++ join ',' ts := rfl
  have hl : (split '=' (cs!"latticeconstants" ++ cs!" = " ++ join ',' ts)).getLastD [] =
      ' ' :: join ',' ts := by
    have : cs!"latticeconstants" ++ cs!" = " ++ join ',' ts =
        cs!"latticeconstants " ++ '=' :: (' ' :: join ',' ts) := rfl
    rw [this, split_append (by decide), split_of_notMem (by simp [hq])]
    simp
  have hsp : split ',' (' ' :: join ',' ts) = [' ' :: ta, tb, tc, t1, t2, t3] := by
    have : ' ' :: join ',' ts = join ',' [' ' :: ta, tb, tc, t1, t2, t3] := by
      simp [hts, join]
    rw [this, split_join _ (by simp)]
    intro w hm
    simp only [List.mem_cons, List.not_mem_nil, or_false] at hm
    rcases hm with rfl | rfl | rfl | rfl | rfl | rfl
    · have := (hw ta (by simp [hts])).2.1; simp [this]
    all_goals exact (hw _ (by simp [hts])).2.1
  have sw := fun t (ht : t ∈ ts) => strip_word (hw t ht).1
  rw [e, spiceSetting, hk, if_neg (by decide), if_neg (by decide), if_neg (by decide),
    if_neg (by decide), if_pos rfl, hl, hsp]
  have m1 : ([' ' :: ta, tb, tc].mapM fun t => r.floatE (strip t)) = .ok [va, vb, vc] :=
    mapM_strip r <| .cons (by rw [strip_cons_space, sw ta (by simp [hts]), h1]) <|
      .cons (by rw [sw tb (by simp [hts]), h2]) <| .cons (by rw [sw tc (by simp [hts]), h3]) .nil
  have m2 : ([t1, t2, t3].mapM fun t => r.floatE (strip t)) = .ok [v1, v2, v3] :=
    mapM_strip r <| .cons (by rw [sw t1 (by simp [hts]), h4]) <|
      .cons (by rw [sw t2 (by simp [hts]), h5]) <| .cons (by rw [sw t3 (by simp [hts]), h6]) .nil
  simp only [List.take_succ_cons, List.take_zero, List.drop_succ_cons, List.drop_zero, m1, m2,
    ok_bind]
  rfl

/-- Lines of a header that can be read: any line that says nothing about the instrument, the names of the
crystals, and lines with numbers that are numbers. -/
inductive ReadableLine (r : Reader α) : Text → Prop
  | silent {l : Text} (h : Silent l) : ReadableLine r l
  | mono {l : Text} (h : beforeEq l = cs!"monochromator") : ReadableLine r l
  | ana {l : Text} (h : beforeEq l = cs!"analyzer") : ReadableLine r l
  | mosaic {l : Text} {v : α} (h : beforeEq l = cs!"samplemosaic") (hv : r.float (afterEq l) = some v) : ReadableLine r l
  | collimation {ts : List Text} {vs : List α} (hne : ts ≠ []) (hw : ∀ t ∈ ts, OneWord t ∧ '-' ∉ t ∧ '=' ∉ t)
      (hv : List.Forall₂ (fun t v => r.float t = some v) ts vs) : ReadableLine r (cs!"collimation = " ++ join '-' ts)
  | lattice {ta tb tc t1 t2 t3 : Text} {va vb vc v1 v2 v3 : α}
      (hw : ∀ t ∈ [ta, tb, tc, t1, t2, t3], OneWord t ∧ ',' ∉ t ∧ '=' ∉ t)
      (h1 : r.float ta = some va) (h2 : r.float tb = some vb) (h3 : r.float tc = some vc)
      (h4 : r.float t1 = some v1) (h5 : r.float t2 = some v2) (h6 : r.float t3 = some v3) :
      ReadableLine r (cs!"latticeconstants = " ++ join ',' [ta, tb, tc, t1, t2, t3])

/-- What a readable line leaves as it is. -/
theorem spiceSetting_readable (r : Reader α) {l : Text} (h : ReadableLine r l) (s : SpiceInstr α) :
    ∃ s', spiceSetting r s l = .ok s' ∧ (beforeEq l ≠ cs!"collimation" → s'.hcol = s.hcol) ∧
      (beforeEq l ≠ cs!"latticeconstants" → s'.abc = s.abc ∧ s'.abg = s.abg) := by
  cases h with
  | silent h => exact ⟨s, by simpa using spiceInstr_silent r (hs := [l]) (by simpa using h) s, fun _ => rfl, fun _ => ⟨rfl, rfl⟩⟩
  | @mono l h => exact ⟨{ s with monoTau := some (afterEq l) }, by rw [spiceSetting, if_pos h], fun _ => rfl, fun _ => ⟨rfl, rfl⟩⟩
  | @ana l h => exact ⟨{ s with anaTau := some (afterEq l) }, by rw [spiceSetting, h, if_neg (by decide), if_pos rfl], fun _ => rfl, fun _ => ⟨rfl, rfl⟩⟩
  | @mosaic l v h hv =>
    refine ⟨{ s with mosaic := some v }, by
      rw [spiceSetting, h, if_neg (by decide), if_neg (by decide), if_neg (by decide), if_pos rfl, Reader.floatE, hv]
      rfl, fun _ => rfl, fun _ => ⟨rfl, rfl⟩⟩
  | @collimation ts vs hne hw hv =>
    refine ⟨_, setting_collimation r s hne hw hv, fun hc => (hc ?_).elim, fun _ => ⟨rfl, rfl⟩⟩
    exact beforeEq_setting (key := cs!"collimation") (by decide) (by decide) (join '-' ts)
  | @lattice ta tb tc t1 t2 t3 va vb vc v1 v2 v3 hw h1 h2 h3 h4 h5 h6 =>
    refine ⟨_, setting_lattice r s hw h1 h2 h3 h4 h5 h6, fun _ => rfl, fun hc => (hc ?_).elim⟩
    exact beforeEq_setting (key := cs!"latticeconstants") (by decide) (by decide) (join ',' _)

theorem spiceInstr_readable (r : Reader α) {hs : List Text} (h : ∀ l ∈ hs, ReadableLine r l) (s : SpiceInstr α) :
    ∃ s', hs.foldlM (spiceSetting r) s = .ok s' ∧ ((∀ l ∈ hs, beforeEq l ≠ cs!"collimation") → s'.hcol = s.hcol) ∧
      ((∀ l ∈ hs, beforeEq l ≠ cs!"latticeconstants") → s'.abc = s.abc ∧ s'.abg = s.abg) := by
  induction hs generalizing s with
  | nil => exact ⟨s, rfl, fun _ => rfl, fun _ => ⟨rfl, rfl⟩⟩
  | cons l ls ih =>
    obtain ⟨s1, e1, c1, d1⟩ := spiceSetting_readable r (h l (by simp)) s
    obtain ⟨s2, e2, c2, d2⟩ := ih (fun x hx => h x (by simp [hx])) s1
    refine ⟨s2, by rw [List.foldlM_cons, e1, ok_bind, e2], fun hc => ?_, fun hc => ?_⟩
    · rw [c2 fun x hx => hc x (by simp [hx]), c1 (hc l (by simp))]
    · rw [(d2 fun x hx => hc x (by simp [hx])).1, (d2 fun x hx => hc x (by simp [hx])).2, (d1 (hc l (by simp))).1,
        (d1 (hc l (by simp))).2]
      exact ⟨rfl, rfl⟩

/-- **C117**: with `load_instrument` the collimations are the numbers between the
minus signs of the (last) line `collimation`, for any number of them and whatever the other lines say. -/
theorem C117_collimation (r : Reader α) {a b : List Text} {ts : List Text} {vs : List α}
    (ha : ∀ l ∈ a, ReadableLine r l) (hb : ∀ l ∈ b, ReadableLine r l ∧ beforeEq l ≠ cs!"collimation") (hne : ts ≠ [])
    (hw : ∀ t ∈ ts, OneWord t ∧ '-' ∉ t ∧ '=' ∉ t)
    (hv : List.Forall₂ (fun t v => r.float t = some v) ts vs) :
    ∃ s, spiceInstr r (a ++ (cs!"collimation = " ++ join '-' ts) :: b) = .ok s ∧ s.hcol = some vs := by
  obtain ⟨s1, e1, -⟩ := spiceInstr_readable r ha {}
  obtain ⟨s2, e2, c2, -⟩ := spiceInstr_readable r (fun l hl => (hb l hl).1) { s1 with hcol := some vs }
  refine ⟨s2, ?_, c2 fun l hl => (hb l hl).2⟩
  rw [spiceInstr, List.foldlM_append, e1, ok_bind, List.foldlM_cons, setting_collimation r s1 hne hw hv, ok_bind, e2]

/-- **C117**: the first three numbers of the (last) line `latticeconstants` become the
lengths of the axes and the rest the angles, in this order, whatever the other lines say. -/
theorem C117_lattice (r : Reader α) {a' b' : List Text} {ta tb tc t1 t2 t3 : Text}
    {va vb vc v1 v2 v3 : α} (ha : ∀ l ∈ a', ReadableLine r l)
    (hb : ∀ l ∈ b', ReadableLine r l ∧ beforeEq l ≠ cs!"latticeconstants")
    (hw : ∀ t ∈ [ta, tb, tc, t1, t2, t3], OneWord t ∧ ',' ∉ t ∧ '=' ∉ t)
    (h1 : r.float ta = some va) (h2 : r.float tb = some vb) (h3 : r.float tc = some vc)
    (h4 : r.float t1 = some v1) (h5 : r.float t2 = some v2) (h6 : r.float t3 = some v3) :
    ∃ s, spiceInstr r (a' ++ (cs!"latticeconstants = " ++ join ',' [ta, tb, tc, t1, t2, t3]) :: b') = .ok s ∧
      s.abc = some [va, vb, vc] ∧ s.abg = some [v1, v2, v3] := by
  obtain ⟨s1, e1, -⟩ := spiceInstr_readable r ha {}
  obtain ⟨s2, e2, -, d2⟩ := spiceInstr_readable r (fun l hl => (hb l hl).1)
    { s1 with abc := some [va, vb, vc], abg := some [v1, v2, v3] }
  refine ⟨s2, ?_, d2 fun l hl => (hb l hl).2⟩
  rw [spiceInstr, List.foldlM_append, e1, ok_bind, List.foldlM_cons, setting_lattice r s1 hw h1 h2 h3 h4 h5 h6, ok_bind, e2]

/-- A header with both lines and others. -/
example : ∃ s, spiceInstr digits ([cs!"scan = 2", cs!"monochromator = PG002", cs!"latticeconstants = 3,4,6,90,91,92"] ++
    cs!"collimation = 48-80-80-240" :: [cs!"sense = +-+", cs!"samplemosaic = 30"]) = .ok s ∧ s.hcol = some [48, 80, 80, 240] :=
  C117_collimation digits (ts := [cs!"48", cs!"80", cs!"80", cs!"240"])
    (fun l hl => by
      simp only [List.mem_cons, List.not_mem_nil, or_false] at hl
      rcases hl with rfl | rfl | rfl
      · exact .silent (by decide)
      · exact .mono (by decide)
      · exact .lattice (ta := cs!"3") (tb := cs!"4") (tc := cs!"6") (t1 := cs!"90") (t2 := cs!"91") (t3 := cs!"92")
          (by decide) rfl rfl rfl rfl rfl rfl)
    (fun l hl => by
      simp only [List.mem_cons, List.not_mem_nil, or_false] at hl
      rcases hl with rfl | rfl
      · exact ⟨.silent (by decide), by decide⟩
      · exact ⟨.mosaic (v := 30) (by decide) (by decide), by decide⟩)
    (by simp) (by decide) (.cons rfl (.cons rfl (.cons rfl (.cons rfl .nil))))

example : spiceInstr digits [cs!"mode = 0", cs!"latticeconstants = 3,4,6,90,91,92", cs!"collimation = 48-80-80-240"] =
    .ok { abc := some [3, 4, 6], abg := some [90, 91, 92], hcol := some [48, 80, 80, 240] } := by decide

/-! ### MAD -/

theorem madScan_found {hs : List Text} (h : ∀ l ∈ hs, has cs!"DATA_:" l = false) {dl nl : Text}
    (hd : has cs!"DATA_:" dl = true) (rest : List Text) (i : Nat) :
    madScan i (hs ++ dl :: nl :: rest) = .ok (some (words nl, i + hs.length + 2)) := by
  induction hs generalizing i with
  | nil => simp [madScan, hd]
  | cons l ls ih =>
    rw [List.cons_append]
    conv_lhs => unfold madScan
    rw [if_neg (by rw [h l (by simp)]; simp), ih (fun x hx => h x (by simp [hx]))]
    simp only [List.length_cons]
    congr 3
    omega

/-- A MAD file: the header `hs`, the line that announces the numbers, the line of
names, the lines of numbers `ds` and what follows them. -/
structure IsMad (ls hs names ds fs : List Text) : Prop where
  lines : ∃ dl nl, ls = hs ++ dl :: nl :: (ds ++ fs) ∧ has cs!"DATA_:" dl = true ∧ words nl = names
  header : ∀ l ∈ hs, has cs!"DATA_:" l = false
  data : ∀ l ∈ ds, DataLine l
  width : ∀ l ∈ ds, (words l).length = names.length
  nodup : names.Nodup

theorem IsMad.load (r : Reader α) (build : Bool) {ls hs names ds fs : List Text}
    (h : IsMad ls hs names ds fs) :
    loadMad r build ls = (do
      let args ← genfromtxt (((ds.map words) ++ tableTokens fs).map (·.map r.num)).dropLast
      return { cols := fill names args, dataKeys := madDataKeys,
               qKeys := if build then madQKeys else defaultQKeys, header := none,
               err := .absent }) := by
  obtain ⟨dl, nl, rfl, hd, hw⟩ := h.lines
  rw [loadMad, madScan_found h.header hd]
  have e : (hs ++ dl :: nl :: (ds ++ fs)).drop (0 + hs.length + 2) = ds ++ fs := by
    have : hs ++ dl :: nl :: (ds ++ fs) = (hs ++ [dl, nl]) ++ (ds ++ fs) := by simp
    rw [this, List.drop_left' (by simp)]
  simp only [ok_bind, bound, readTableButLast, e, tableTokens_append, tableTokens_data h.data, hw]

/-- **C109**, the part that holds: from a MAD file whose numbers are followed by
one line of other text every point is loaded, each column under its name. -/
theorem C109_points_partial (r : Reader α) (build : Bool) {ls hs names ds : List Text} {f : Text}
    (h : IsMad ls hs names ds [f]) (hf : DataLine f) (hn : 2 ≤ ds.length) (hk : 2 ≤ names.length) :
    ∃ d, loadMad r build ls = .ok d ∧ d.cols.map Prod.fst = names ∧
      ∀ (j : Nat) (hj : j < names.length), d.cols.lookup names[j] =
        some (.arr (ds.map fun l => r.num ((words l).getD j []))) := by
  have ht : genfromtxt (((ds.map words) ++ tableTokens [f]).map (·.map r.num)).dropLast =
      .ok ((List.range names.length).map fun j => .arr (colVals r.num (ds.map words) j)) := by
    rw [tableTokens_data (by simpa using hf)]
    rw [List.map_append, List.map_singleton, List.map_singleton, List.dropLast_concat]
    apply genfromtxt_rows _ (by simpa using hn) hk
    intro x hx
    obtain ⟨l, hl, rfl⟩ := List.mem_map.1 hx
    exact h.width l hl
  rw [h.load, ht]
  refine ⟨_, rfl, ?_, ?_⟩
  · show (fill _ _).map _ = _
    rw [fill_eq h.nodup, map_fst_zip (by simp)]
  · intro j hj
    show (fill _ _).lookup _ = _
    rw [lookup_fill h.nodup hj (by simpa using hj)]
    simp [colVals, Function.comp_def]

/-- **C109**: when the numbers are the last lines of the file, the last point is
left out. -/
theorem C109_last_lost (r : Reader α) (build : Bool) {ls hs names ds : List Text} {l : Text}
    (h : IsMad ls hs names (ds ++ [l]) []) (hn : 2 ≤ ds.length) (hk : 2 ≤ names.length) :
    ∃ d, loadMad r build ls = .ok d ∧ d.cols.map Prod.fst = names ∧
      ∀ (j : Nat) (hj : j < names.length), d.cols.lookup names[j] =
        some (.arr (ds.map fun l => r.num ((words l).getD j []))) := by
  have ht : genfromtxt (((ds ++ [l]).map words ++ tableTokens []).map (·.map r.num)).dropLast =
      .ok ((List.range names.length).map fun j => .arr (colVals r.num (ds.map words) j)) := by
    have e : (((ds ++ [l]).map words ++ tableTokens []).map (·.map r.num)).dropLast =
        (ds.map words).map (·.map r.num) := by
      simp only [tableTokens, List.map_nil, List.filter_nil, List.append_nil, List.map_append,
        List.map_cons, List.dropLast_concat]
    rw [e]
    apply genfromtxt_rows _ (by simpa using hn) hk
    intro x hx
    obtain ⟨l, hl, rfl⟩ := List.mem_map.1 hx
    exact h.width l (by simp [hl])
  rw [h.load, ht]
  refine ⟨_, rfl, ?_, ?_⟩
  · show (fill _ _).map _ = _
    rw [fill_eq h.nodup, map_fst_zip (by simp)]
  · intro j hj
    show (fill _ _).lookup _ = _
    rw [lookup_fill h.nodup hj (by simpa using hj)]
    simp [colVals, Function.comp_def]

/-- A MAD file without a last line of other text. -/
def madThree : List Text :=
  [cs!"RRRR", cs!"DATA_:", cs!" PNT QH CNTS", cs!"   1   5  10", cs!"   2   6  11",
    cs!"   3   7  12"]

theorem madThree_ok : IsMad madThree [cs!"RRRR"] [cs!"PNT", cs!"QH", cs!"CNTS"]
    [cs!"   1   5  10", cs!"   2   6  11", cs!"   3   7  12"] [] where
  lines := ⟨cs!"DATA_:", cs!" PNT QH CNTS", by decide⟩
  header := by decide
  data := by decide
  width := by decide
  nodup := by decide

example : IsMad (madThree ++ [cs!"Finished at 02:12"]) [cs!"RRRR"] [cs!"PNT", cs!"QH", cs!"CNTS"]
    [cs!"   1   5  10", cs!"   2   6  11", cs!"   3   7  12"] [cs!"Finished at 02:12"] ∧
    DataLine cs!"Finished at 02:12" :=
  ⟨{ lines := ⟨cs!"DATA_:", cs!" PNT QH CNTS", by decide⟩, header := by decide,
     data := by decide, width := by decide, nodup := by decide }, by decide⟩

/-- **C109** does not hold in full: not every point of every MAD file is loaded. -/
theorem C109_false : ¬ ∀ (ls hs names ds : List Text) (fs : List Text), IsMad ls hs names ds fs →
    (∀ f ∈ fs, DataLine f) → fs.length ≤ 1 → 3 ≤ ds.length → 2 ≤ names.length →
    ∃ d, loadMad digits true ls = .ok d ∧ ∀ (j : Nat) (hj : j < names.length),
      d.cols.lookup names[j] = some (.arr (ds.map fun l => digits.num ((words l).getD j []))) := by
  intro h
  obtain ⟨d, h1, h2⟩ := h _ _ _ _ _ madThree_ok (by simp) (by simp) (by decide) (by decide)
  obtain ⟨d', h1', -, h2'⟩ := C109_last_lost digits true (ds := [cs!"   1   5  10", cs!"   2   6  11"])
    (l := cs!"   3   7  12") madThree_ok (by decide) (by decide)
  obtain rfl := Except.ok.inj (h1.symm.trans h1')
  have := (h2 0 (by decide)).symm.trans (h2' 0 (by decide))
  revert this
  decide

/-! ### ICE -/

/-- An ICE file: comments `hs`, one of which begins with the word `#Columns` and
gives the names, and lines of numbers. -/
structure IsIce (ls hs names ds : List Text) : Prop where
  lines : ls = hs ++ ds
  header : ∀ l ∈ hs, l.head? = some '#'
  named : ∃ a cl b, hs = a ++ cl :: b ∧ (∀ l ∈ a, has cs!"Columns" l = false) ∧
    words cl = cs!"#Columns" :: names ∧ has cs!"Columns" cl = true
  data : ∀ l ∈ ds, DataLine l
  width : ∀ l ∈ ds, (words l).length = names.length
  nodup : names.Nodup

theorem IsIce.load (r : Reader α) (build : Bool) {ls hs names ds : List Text}
    (h : IsIce ls hs names ds) :
    loadIce r build ls = (do
      let args ← (if ((ds.map words).map (·.map r.num)).all fun x => 9 ≤ x.length then
        genfromtxt (((ds.map words).map (·.map r.num)).map (·.take 9)) else .error .valueError)
      return { cols := fill names args, dataKeys := iceDataKeys,
               qKeys := if build then iceQKeys else defaultQKeys, header := none,
               err := .absent }) := by
  obtain ⟨a, cl, b, rfl, ha, hw, hc⟩ := h.named
  have ht : tableTokens ls = ds.map words := by
    rw [h.lines, tableTokens_append, tableTokens_comments h.header, tableTokens_data h.data,
      List.nil_append]
  have hf : firstWith cs!"Columns" ls = some cl := by
    rw [firstWith, h.lines, List.append_assoc, List.find?_append]
    have : a.find? (has cs!"Columns") = none := by
      rw [List.find?_eq_none]
      intro x hx
      simp [ha x hx]
    rw [this]
    simp [hc]
  rw [loadIce, readTableCols, ht, hf]
  simp only [bound, ok_bind, hw, List.tail_cons]

theorem take_rows (num : Text → α) (ds : List Text) (k : Nat) :
    ((ds.map words).map (·.map num)).map (·.take k) =
      (ds.map fun l => (words l).take k).map (·.map num) := by
  simp [List.map_take]

/-- **C110**, the part that holds: from an ICE file with two or more points the
first nine columns are loaded, each under its name. -/
theorem C110_first_nine_partial (r : Reader α) (build : Bool) {ls hs names ds : List Text}
    (h : IsIce ls hs names ds) (hn : 2 ≤ ds.length) (hk : 9 ≤ names.length) :
    ∃ d, loadIce r build ls = .ok d ∧ d.cols.map Prod.fst = names.take 9 ∧
      ∀ (j : Nat) (hj : j < 9), d.cols.lookup (names[j]'(by omega)) =
        some (.arr (ds.map fun l => r.num ((words l).getD j []))) := by
  have h9 : (((ds.map words).map (·.map r.num)).all fun x => 9 ≤ x.length) = true := by
    simp only [List.map_map, List.all_map, List.all_eq_true, Function.comp_apply, List.length_map,
      decide_eq_true_eq]
    intro l hl
    rw [h.width l hl]; exact hk
  have ht : genfromtxt (((ds.map words).map (·.map r.num)).map (·.take 9)) =
      .ok ((List.range 9).map fun j =>
        .arr (colVals r.num (ds.map fun l => (words l).take 9) j)) := by
    rw [take_rows]
    apply genfromtxt_rows _ (by simpa using hn) (by omega)
    intro x hx
    obtain ⟨l, hl, rfl⟩ := List.mem_map.1 hx
    rw [List.length_take, h.width l hl]; omega
  rw [h.load, if_pos h9, ht]
  refine ⟨_, rfl, ?_, ?_⟩
  · show (fill _ _).map _ = _
    rw [fill_eq h.nodup]
    have : ∀ (ns : List Text) (cs : List (Col α)),
        (List.zip ns cs).map Prod.fst = ns.take cs.length := by
      intro ns
      induction ns with
      | nil => simp
      | cons n ns ih =>
        intro cs
        cases cs with
        | nil => simp
        | cons c cs => simp [ih]
    rw [this]
    simp
  · intro j hj
    show (fill _ _).lookup _ = _
    rw [lookup_fill h.nodup (by omega) (by simpa using hj)]
    simp only [List.getElem_map, List.getElem_range, colVals, List.map_map, Function.comp_def]
    congr 2
    apply List.map_congr_left
    intro l hl
    simp [List.getD, hj]

/-- **C110**: a column after the ninth is not loaded. -/
theorem C110_rest_lost (r : Reader α) (build : Bool) {ls hs names ds : List Text}
    (h : IsIce ls hs names ds) (hn : 2 ≤ ds.length) {j : Nat} (h9 : 9 ≤ j) (hj : j < names.length) :
    ∃ d, loadIce r build ls = .ok d ∧ d.cols.lookup names[j] = none := by
  obtain ⟨d, h1, h2, -⟩ := C110_first_nine_partial r build h hn (by omega)
  refine ⟨d, h1, ?_⟩
  rw [List.lookup_eq_none_iff]
  intro p hp
  have hm : p.1 ∈ names.take 9 := by rw [← h2]; exact List.mem_map_of_mem hp
  rw [bne_iff_ne]
  intro e
  rw [← e] at hm
  obtain ⟨i, hi, e⟩ := List.mem_take_iff_getElem.1 hm
  have := (List.Nodup.getElem_inj_iff h.nodup).1 e
  omega

/-- **C110**: a file with fewer than nine columns is not loaded. -/
theorem C110_few (r : Reader α) (build : Bool) {ls hs names ds : List Text}
    (h : IsIce ls hs names ds) (hn : ds ≠ []) (hk : names.length < 9) :
    loadIce r build ls = .error .valueError := by
  rw [h.load, if_neg]
  · rfl
  · obtain ⟨l, ls', rfl⟩ := List.exists_cons_of_ne_nil hn
    have := h.width l (by simp)
    simp [this, hk]

/-- An ICE file with ten columns. -/
def iceTen : List Text :=
  [cs!"#ICE 0.4.0", cs!"#Columns QX QY QZ E Temp T2 Time Monitor Detector A1",
    cs!" 1 2 3 4 5 6 7 8 9 10", cs!" 2 3 4 5 6 7 8 9 10 11"]

theorem iceTen_ok : IsIce iceTen
    [cs!"#ICE 0.4.0", cs!"#Columns QX QY QZ E Temp T2 Time Monitor Detector A1"]
    [cs!"QX", cs!"QY", cs!"QZ", cs!"E", cs!"Temp", cs!"T2", cs!"Time", cs!"Monitor", cs!"Detector",
      cs!"A1"] [cs!" 1 2 3 4 5 6 7 8 9 10", cs!" 2 3 4 5 6 7 8 9 10 11"] where
  lines := rfl
  header := by decide
  named := ⟨[cs!"#ICE 0.4.0"], cs!"#Columns QX QY QZ E Temp T2 Time Monitor Detector A1", [],
    by decide⟩
  data := by decide
  width := by decide
  nodup := by decide

example : IsIce [cs!"#Columns QX E", cs!"1 2"] [cs!"#Columns QX E"] [cs!"QX", cs!"E"] [cs!"1 2"] where
  lines := rfl
  header := by decide
  named := ⟨[], cs!"#Columns QX E", [], by decide⟩
  data := by decide
  width := by decide
  nodup := by decide

/-- **C110** does not hold in full: not every column of every ICE file is loaded. -/
theorem C110_false : ¬ ∀ (ls hs names ds : List Text), IsIce ls hs names ds → 2 ≤ ds.length →
    9 ≤ names.length → ∃ d, loadIce digits true ls = .ok d ∧
      ∀ name ∈ names, d.cols.lookup name ≠ none := by
  intro h
  obtain ⟨d, h1, h2⟩ := h _ _ _ _ iceTen_ok (by decide) (by decide)
  obtain ⟨d', h1', h2'⟩ := C110_rest_lost digits true iceTen_ok (by decide) (j := 9) (by decide)
    (by decide)
  obtain rfl := Except.ok.inj (h1.symm.trans h1')
  exact h2 _ (List.getElem_mem (by decide)) h2'

/-! ### ICP -/

theorem split_length (c : Char) (l : Text) : (split c l).length = l.count c + 1 := by
  induction l with
  | nil => rfl
  | cons x xs ih =>
    rw [split]
    split
    · rename_i h; subst h; simp [ih]
    · rename_i h
      cases hs : split c xs with
      | nil => exact absurd hs (split_ne_nil _ _)
      | cons w ws =>
        rw [hs] at ih
        simp only [List.length_cons] at ih ⊢
        rw [ih, List.count_cons_of_ne h]

/-- An ICP file: `k` lines, the line of names, and lines of numbers.  The first
line ends with the monitor, the prefactor, a quoted word, the number of points and
a quoted word. -/
structure IsIcp (r : Reader α) (k : Nat) (ls names ds : List Text) (m p : α) : Prop where
  lines : ∃ hs nl, ls = hs ++ nl :: ds ∧ hs.length = k ∧ words nl = names ∧
    has cs!"Q(x)" nl = true ∧ (∀ l ∈ hs, has cs!"Q(x)" l = false)
  first : ∃ a nums b n c e tm tp i, ls.head? = some (join '\'' (a ++ [nums, b, n, c, e])) ∧
    (∀ w ∈ a ++ [nums, b, n, c, e], '\'' ∉ w) ∧ a ≠ [] ∧ words nums = [tm, tp] ∧
    r.float tm = some m ∧ r.float tp = some p ∧ r.int n = some i
  data : ∀ l ∈ ds, DataLine l
  width : ∀ l ∈ ds, (words l).length = names.length
  nodup : names.Nodup
  new : cs!"monitor" ∉ names
  pos : k ≠ 0

theorem icpMonitor_first (r : Reader α) {a : List Text} {nums b n c e tm tp : Text} {k : Nat}
    {m p : α} (hq : ∀ w ∈ a ++ [nums, b, n, c, e], '\'' ∉ w) (ha : a ≠ [])
    (hw : words nums = [tm, tp]) (hm : r.float tm = some m) (hp : r.float tp = some p)
    (hk : r.int n = some k) : icpMonitor r (join '\'' (a ++ [nums, b, n, c, e])) = .ok (m, p) := by
  obtain ⟨x, xs, rfl⟩ := List.exists_cons_of_ne_nil ha
  have hs : quoted (join '\'' (x :: xs ++ [nums, b, n, c, e])) = xs ++ [nums, b, n, c] := by
    rw [quoted, split_join hq (by simp), List.cons_append, List.tail_cons]
    have : xs ++ [nums, b, n, c, e] = (xs ++ [nums, b, n, c]) ++ [e] := by simp
    rw [this, List.dropLast_concat]
  have h2 : fromEnd 2 (xs ++ [nums, b, n, c]) = .ok n := by
    have : (xs ++ [nums, b, n, c]).length - 2 = xs.length + 2 := by simp
    rw [fromEnd, if_pos (by simp), this, List.getElem?_append_right (by omega)]
    simp
  have h4 : fromEnd 4 (xs ++ [nums, b, n, c]) = .ok nums := by
    have : (xs ++ [nums, b, n, c]).length - 4 = xs.length := by simp
    rw [fromEnd, if_pos (by simp), this, List.getElem?_append_right (by omega)]
    simp
  rw [icpMonitor, hs, h2, h4]
  simp only [ok_bind, hw, Reader.intE, hk, List.mapM_cons, Reader.floatE, hm, hp, List.mapM_nil,
    pure_ok]

theorem IsIcp.load (r : Reader α) (mul : α → α → α) (build : Bool) {k : Nat}
    {ls names ds : List Text} {m p : α} (h : IsIcp r k ls names ds m p) :
    loadIcp r mul build ls = (do
      let args ← genfromtxt ((tableTokens (ls.drop 12)).map (·.map r.num))
      let v ← constLike (mul m p) args
      return { cols := putCol (fill names args) cs!"monitor" v, dataKeys := icpDataKeys,
               qKeys := if build then icpQKeys else defaultQKeys, header := none,
               err := .absent }) := by
  obtain ⟨hs, nl, rfl, hl, hw, hq, hno⟩ := h.lines
  obtain ⟨a, nums, b, n, c, e, tm, tp, k, h1, h2, h3, h4, h5, h6, h7⟩ := h.first
  obtain ⟨f, hs', rfl⟩ := List.exists_cons_of_ne_nil (l := hs) 
    (by rintro rfl; exact h.pos (by simpa using hl.symm))
  simp only [List.cons_append, List.head?_cons, Option.some.injEq] at h1
  have hf : firstWith cs!"Q(x)" (f :: hs' ++ nl :: ds) = some nl := by
    rw [firstWith, List.find?_append]
    have : (f :: hs').find? (has cs!"Q(x)") = none := by
      rw [List.find?_eq_none]
      intro x hx
      simp [hno x hx]
    rw [this]
    simp [hq]
  rw [loadIcp.eq_def, readTable, hf, List.cons_append]
  simp only [h1, icpMonitor_first r h2 h3 h4 h5 h6 h7, ok_bind, bound, hw]

/-- **C111**, the part that holds: from an ICP file with the usual twelve lines
before the numbers and two or more points every column is loaded under its name,
and the column `monitor` has the product of monitor and prefactor at every point. -/
theorem C111_columns_partial (r : Reader α) (mul : α → α → α) (build : Bool)
    {ls names ds : List Text} {m p : α} (h : IsIcp r 11 ls names ds m p) (hn : 2 ≤ ds.length)
    (hk : 2 ≤ names.length) :
    ∃ d, loadIcp r mul build ls = .ok d ∧
      (∀ (j : Nat) (hj : j < names.length), d.cols.lookup names[j] =
        some (.arr (ds.map fun l => r.num ((words l).getD j [])))) ∧
      d.cols.lookup cs!"monitor" = some (.arr (List.replicate ds.length (mul m p))) := by
  have ht : genfromtxt ((tableTokens (ls.drop 12)).map (·.map r.num)) =
      .ok ((List.range names.length).map fun j => .arr (colVals r.num (ds.map words) j)) := by
    have ed : ls.drop 12 = ds := by
      obtain ⟨hs, nl, rfl, hl, -⟩ := h.lines
      have : hs ++ nl :: ds = (hs ++ [nl]) ++ ds := by simp
      rw [this, List.drop_left' (by simp [hl])]
    rw [ed, tableTokens_data h.data]
    apply genfromtxt_rows _ (by simpa using hn) hk
    intro x hx
    obtain ⟨l, hl, rfl⟩ := List.mem_map.1 hx
    exact h.width l hl
  have hc : constLike (mul m p)
      ((List.range names.length).map fun j => Col.arr (colVals r.num (ds.map words) j)) =
      .ok (.arr (List.replicate ds.length (mul m p))) := by
    obtain ⟨k, hk'⟩ : ∃ k, names.length = k + 1 := ⟨names.length - 1, by omega⟩
    rw [hk', List.range_succ_eq_map, List.map_cons]
    simp [constLike, colVals]
  rw [h.load, ht]
  simp only [ok_bind, hc]
  refine ⟨_, rfl, ?_, lookup_putCol_self _ _ _⟩
  intro j hj
  show (putCol _ _ _).lookup _ = _
  rw [lookup_putCol_old h.new hj,
    lookup_fill h.nodup hj (by simpa using hj)]
  simp [colVals, Function.comp_def]

/-- An ICP file with two points. -/
def icpTwo : List Text :=
  [cs!"'s.ng5' 'Jan  1 2000 00:00' 'Q'   250  3  'NEUT'   2  'RAW'", cs!"  Filename  Date", cs!"scan",
    cs!"  99  80", cs!" Collimation", cs!" 3 3 6", cs!"Lattice", cs!" 4 0", cs!" E center", cs!"0 1 0",
    cs!"   Q (hkl scan center)", cs!"  Q(x)  E  Counts", cs!"  1  4  10", cs!"  2  4  3"]

theorem icpTwo_ok : IsIcp digits 11 icpTwo [cs!"Q(x)", cs!"E", cs!"Counts"]
    [cs!"  1  4  10", cs!"  2  4  3"] 250 3 where
  lines := ⟨icpTwo.take 11, cs!"  Q(x)  E  Counts", by decide⟩
  first := ⟨[[], cs!"s.ng5", cs!" ", cs!"Jan  1 2000 00:00", cs!" ", cs!"Q"], cs!"   250  3  ",
    cs!"NEUT", cs!"   2  ", cs!"RAW", [], cs!"250", cs!"3", 2, by decide⟩
  data := by decide
  width := by decide
  nodup := by decide
  new := by decide
  pos := by decide

/-- **C111**: in a file with one more line before the names, the names themselves
become the first point: what is not a number counts as `nan`. -/
theorem C111_extra_line (r : Reader α) (mul : α → α → α) (build : Bool)
    {ls names ds : List Text} {m p : α} (h : IsIcp r 12 ls names ds m p) (hn : ds ≠ [])
    (hk : 2 ≤ names.length) (hh : ∀ l ∈ ls, '#' ∉ l) :
    ∃ d, loadIcp r mul build ls = .ok d ∧
      ∀ (j : Nat) (hj : j < names.length), d.cols.lookup names[j] =
        some (.arr (r.num names[j] :: ds.map fun l => r.num ((words l).getD j []))) := by
  obtain ⟨hs, nl, hls, hlen, hw, -⟩ := h.lines
  have ed : tableTokens (ls.drop 12) = (nl :: ds).map words := by
    rw [hls, List.drop_left' hlen, tableTokens_data]
    intro l hl
    rcases List.mem_cons.1 hl with rfl | hl
    · refine ⟨hh _ (by simp [hls]), ?_⟩
      rw [hw]
      rintro rfl
      simp at hk
    · exact h.data l hl
  have ht : genfromtxt ((tableTokens (ls.drop 12)).map (·.map r.num)) =
      .ok ((List.range names.length).map fun j => .arr (colVals r.num ((nl :: ds).map words) j)) := by
    rw [ed]
    have := List.length_pos_iff.2 hn
    apply genfromtxt_rows _ (by simp; omega) hk
    intro x hx
    obtain ⟨l, hl, rfl⟩ := List.mem_map.1 hx
    rcases List.mem_cons.1 hl with rfl | hl
    · rw [hw]
    · exact h.width l hl
  have hc : ∃ v, constLike (mul m p)
      ((List.range names.length).map fun j => Col.arr (colVals r.num ((nl :: ds).map words) j)) =
      .ok v := by
    obtain ⟨k, hk'⟩ : ∃ k, names.length = k + 1 := ⟨names.length - 1, by omega⟩
    rw [hk', List.range_succ_eq_map, List.map_cons]
    exact ⟨_, rfl⟩
  obtain ⟨v, hc⟩ := hc
  rw [h.load, ht]
  simp only [ok_bind, hc]
  refine ⟨_, rfl, ?_⟩
  intro j hj
  show (putCol _ _ _).lookup _ = _
  rw [lookup_putCol_old h.new hj,
    lookup_fill h.nodup hj (by simpa using hj)]
  simp [colVals, Function.comp_def, hw, hj]

/-- The same file with one more line before the names. -/
def icpExtra : List Text := icpTwo.take 11 ++ cs!"Mot:  1  2" :: icpTwo.drop 11

theorem icpExtra_ok : IsIcp digits 12 icpExtra [cs!"Q(x)", cs!"E", cs!"Counts"]
    [cs!"  1  4  10", cs!"  2  4  3"] 250 3 where
  lines := ⟨icpExtra.take 12, cs!"  Q(x)  E  Counts", by decide⟩
  first := ⟨[[], cs!"s.ng5", cs!" ", cs!"Jan  1 2000 00:00", cs!" ", cs!"Q"], cs!"   250  3  ",
    cs!"NEUT", cs!"   2  ", cs!"RAW", [], cs!"250", cs!"3", 2, by decide⟩
  data := by decide
  width := by decide
  nodup := by decide
  new := by decide
  pos := by decide

example : ∀ l ∈ icpExtra, '#' ∉ l := by decide

/-- **C111** does not hold for every number of lines before the numbers. -/
theorem C111_false : ¬ ∀ (k : Nat) (ls names ds : List Text) (m p : Nat),
    IsIcp digits k ls names ds m p → 2 ≤ ds.length → 2 ≤ names.length →
    ∃ d, loadIcp digits (· * ·) true ls = .ok d ∧
      ∀ (j : Nat) (hj : j < names.length), d.cols.lookup names[j] =
        some (.arr (ds.map fun l => digits.num ((words l).getD j []))) := by
  intro h
  obtain ⟨d, h1, h2⟩ := h _ _ _ _ _ _ icpExtra_ok (by decide) (by decide)
  obtain ⟨d', h1', h2'⟩ := C111_extra_line digits (· * ·) true icpExtra_ok (by decide) (by decide)
    (by decide)
  obtain rfl := Except.ok.inj (h1.symm.trans h1')
  have := (h2 0 (by decide)).symm.trans (h2' 0 (by decide))
  revert this
  decide

/-! ### GRASP -/

theorem graspScan_found {hs : List Text} (h : ∀ l ∈ hs, has cs!"Err_I" l = false) {nl : Text}
    (hd : has cs!"Err_I" nl = true) (rest : List Text) (i : Nat) :
    graspScan i (hs ++ nl :: rest) = some (words nl, i + hs.length + 1) := by
  induction hs generalizing i with
  | nil =>
    have : has cs!"I" nl = true := by
      rw [has_iff] at hd ⊢
      exact (show cs!"I" <:+: cs!"Err_I" from ⟨cs!"Err_", [], rfl⟩).trans hd
    simp [graspScan, hd, this]
  | cons l ls ih =>
    rw [List.cons_append]
    conv_lhs => unfold graspScan
    rw [if_neg (by rw [h l (by simp)]; simp), ih (fun x hx => h x (by simp [hx]))]
    simp only [List.length_cons]
    congr 2
    omega

/-- A GRASP text file: lines that do not mention `Err_I`, the line of names, blank
lines and lines of numbers. -/
structure IsGrasp (r : Reader α) (ls hs names ds : List Text) : Prop where
  lines : ∃ nl gap, ls = hs ++ nl :: (gap ++ ds) ∧ words nl = names ∧ has cs!"Err_I" nl = true ∧
    ∀ l ∈ gap, words l = []
  header : ∀ l ∈ hs, has cs!"Err_I" l = false
  data : ∀ l ∈ ds, DataLine l
  numbers : ∀ l ∈ ds, ∀ t ∈ words l, (r.float t).isSome
  width : ∀ l ∈ ds, (words l).length = names.length
  nodup : names.Nodup
  named : cs!"I" ∈ names ∧ cs!"Err_I" ∈ names
  new : cs!"monitor" ∉ names ∧ cs!"time" ∉ names

theorem words_takeWhile {l : Text} (h : words l = []) : words (l.takeWhile (· ≠ '#')) = [] := by
  have hs : ∀ l : Text, words l = [] → ∀ x ∈ l, isSpace x = true := by
    intro l
    induction l with
    | nil => simp
    | cons c cs ih =>
      intro h
      rw [words.eq_def] at h
      simp only at h
      split at h
      · rename_i hc
        intro x hx
        rcases List.mem_cons.1 hx with rfl | hx
        · exact hc
        · exact ih h x hx
      · exfalso
        split at h
        · simp at h
        · split at h
          · simp at h
          · split at h <;> simp at h
  have : ∀ l : Text, (∀ x ∈ l, isSpace x = true) → words l = [] := by
    intro l
    induction l with
    | nil => intro _; rfl
    | cons c cs ih =>
      intro h
      rw [words.eq_def]
      simp only [h c (by simp), if_true]
      exact ih fun x hx => h x (by simp [hx])
  exact this _ fun x hx => hs l h x (List.takeWhile_subset _ hx)

theorem tableTokens_blank {ls : List Text} (h : ∀ l ∈ ls, words l = []) : tableTokens ls = [] := by
  rw [tableTokens, List.filter_eq_nil_iff]
  intro x hx
  obtain ⟨l, hl, rfl⟩ := List.mem_map.1 hx
  rw [words_takeWhile (h l hl)]
  simp

theorem mapM_num (r : Reader α) {ts : List Text} (h : ∀ t ∈ ts, (r.float t).isSome) :
    ts.mapM r.floatE = .ok (ts.map r.num) := by
  induction ts with
  | nil => rfl
  | cons t ts ih =>
    obtain ⟨v, hv⟩ := Option.isSome_iff_exists.1 (h t (by simp))
    rw [List.mapM_cons, ih fun x hx => h x (by simp [hx])]
    simp [Reader.floatE, Reader.num, hv, ok_bind, pure_ok]

theorem mapM_rows (r : Reader α) {rows : List (List Text)}
    (h : ∀ row ∈ rows, ∀ t ∈ row, (r.float t).isSome) :
    (rows.mapM fun row => row.mapM r.floatE) = .ok (rows.map (·.map r.num)) := by
  induction rows with
  | nil => rfl
  | cons t ts ih =>
    rw [List.mapM_cons, mapM_num r (h t (by simp)), ih fun x hx => h x (by simp [hx])]
    rfl

theorem IsGrasp.table (r : Reader α) {ls hs names ds : List Text} (h : IsGrasp r ls hs names ds) :
    ∃ skip, graspScan 0 ls = some (names, skip) ∧
      loadtxt r skip ls = genfromtxt ((ds.map words).map (·.map r.num)) := by
  obtain ⟨nl, gap, rfl, hw, he, hg⟩ := h.lines
  refine ⟨0 + hs.length + 1, ?_, ?_⟩
  · rw [graspScan_found h.header he, hw]
  · have e : (hs ++ nl :: (gap ++ ds)).drop (0 + hs.length + 1) = gap ++ ds := by
      have : hs ++ nl :: (gap ++ ds) = (hs ++ [nl]) ++ (gap ++ ds) := by simp
      rw [this, List.drop_left' (by simp)]
    rw [loadtxt, e, tableTokens_append, tableTokens_blank hg, tableTokens_data h.data,
      List.nil_append, mapM_rows]
    · rfl
    · intro row hrow
      obtain ⟨l, hl, rfl⟩ := List.mem_map.1 hrow
      exact h.numbers l hl

/-- **C112**, the part that holds: from a GRASP text file with two or more points
every column is loaded under its name, monitor and time are one at every point,
and the error is the column `Err_I`. -/
theorem C112_columns_partial (r : Reader α) (one : α) {ls hs names ds : List Text}
    (h : IsGrasp r ls hs names ds) (hn : 2 ≤ ds.length) :
    ∃ d, loadGraspDat r one ls = .ok d ∧
      (∀ (j : Nat) (hj : j < names.length), d.cols.lookup names[j] =
        some (.arr (ds.map fun l => r.num ((words l).getD j [])))) ∧
      d.cols.lookup cs!"monitor" = some (.arr (List.replicate ds.length one)) ∧
      d.cols.lookup cs!"time" = some (.arr (List.replicate ds.length one)) ∧
      ∃ e, d.err = .vals e ∧ d.cols.lookup cs!"Err_I" = some (.arr e) := by
  obtain ⟨skip, h1, h2⟩ := h.table
  have hk : 2 ≤ names.length := by
    obtain ⟨i, hi, ei⟩ := List.getElem_of_mem h.named.1
    obtain ⟨j, hj, ej⟩ := List.getElem_of_mem h.named.2
    have : i ≠ j := by
      rintro rfl
      rw [ei] at ej
      exact absurd ej (by decide)
    omega
  have ht : genfromtxt ((ds.map words).map (·.map r.num)) =
      .ok ((List.range names.length).map fun j => .arr (colVals r.num (ds.map words) j)) := by
    apply genfromtxt_rows _ (by simpa using hn) hk
    intro x hx
    obtain ⟨l, hl, rfl⟩ := List.mem_map.1 hx
    exact h.width l hl
  have hlook : ∀ (j : Nat) (hj : j < names.length), (fill names ((List.range names.length).map
      fun j => Col.arr (colVals r.num (ds.map words) j))).lookup names[j] =
      some (.arr (ds.map fun l => r.num ((words l).getD j []))) := by
    intro j hj
    rw [lookup_fill h.nodup hj (by simpa using hj)]
    simp [colVals, Function.comp_def]
  obtain ⟨i, hi, ei⟩ := List.getElem_of_mem h.named.1
  obtain ⟨j, hj, ej⟩ := List.getElem_of_mem h.named.2
  have hI := hlook i hi
  have hE := hlook j hj
  rw [ei] at hI
  rw [ej] at hE
  have hones : onesLike one cs!"I" (fill names ((List.range names.length).map
      fun j => Col.arr (colVals r.num (ds.map words) j))) =
      .ok (.arr (List.replicate ds.length one)) := by
    rw [onesLike, hI]
    simp
  have hE' : ∀ v w : Col α, (putCol (putCol (fill names ((List.range names.length).map
      fun j => Col.arr (colVals r.num (ds.map words) j))) cs!"monitor" v) cs!"time" w).lookup
      cs!"Err_I" = some (.arr (ds.map fun l => r.num ((words l).getD j []))) := by
    intro v w
    rw [lookup_putCol_ne (by decide), lookup_putCol_ne (by decide), hE]
  rw [loadGraspDat, h1]
  simp only [bound, ok_bind, h2, ht, hones, hE']
  refine ⟨_, rfl, ?_, ?_, ?_, _, rfl, hE' _ _⟩
  · intro j hj
    show (putCol _ _ _).lookup _ = _
    rw [lookup_putCol_old h.new.2 hj, lookup_putCol_old h.new.1 hj, hlook j hj]
  · show (putCol _ _ _).lookup _ = _
    rw [lookup_putCol_ne (by decide), lookup_putCol_self]
  · exact lookup_putCol_self _ _ _

/-- A GRASP file. -/
def graspTwo : List Text :=
  [cs!"GRASP V.7.04", cs!"Intensity units are:  Counts", cs!"Mod_Q   \tI  \tErr_I ", cs!" ",
    cs!"1\t20\t3", cs!"2\t30\t4"]

theorem graspTwo_ok : IsGrasp digits graspTwo [cs!"GRASP V.7.04", cs!"Intensity units are:  Counts"]
    [cs!"Mod_Q", cs!"I", cs!"Err_I"] [cs!"1\t20\t3", cs!"2\t30\t4"] where
  lines := ⟨cs!"Mod_Q   \tI  \tErr_I ", [cs!" "], by decide⟩
  header := by decide
  data := by decide
  numbers := by decide
  width := by decide
  nodup := by decide
  named := by decide
  new := by decide

/-- A GRASP file with one point. -/
def graspOne : List Text := [cs!"GRASP", cs!"Mod_Q I Err_I", cs!"1 20 3"]

/-- **C112** does not hold in full: from a file with one point, single numbers are
loaded instead of arrays. -/
theorem C112_false : ∃ (ls hs names ds : List Text) (d : Dat Nat), IsGrasp digits ls hs names ds ∧
    ds.length = 1 ∧ loadGraspDat digits 1 ls = .ok d ∧ d.cols.lookup cs!"I" = some (.scalar 20) :=
  ⟨graspOne, [cs!"GRASP"], [cs!"Mod_Q", cs!"I", cs!"Err_I"], [cs!"1 20 3"], _,
    { lines := ⟨cs!"Mod_Q I Err_I", [], by decide⟩, header := by decide, data := by decide,
      numbers := by decide, width := by decide, nodup := by decide, named := by decide,
      new := by decide }, rfl, rfl, by decide⟩

end Verif.FileIO
