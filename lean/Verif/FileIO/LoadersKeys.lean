import Verif.FileIO.LoadersProps

/-!
# Property C127: the quantities of a loaded file

`Data.h`, `Data.e`, `Data.detector` and the like look up a column by the names the loader of the format has set.
-/

namespace Verif.FileIO

variable {α : Type}

/-- `self.data[keys[name]]`. -/
def named (keys : Dict) (cols : List (Text × Col α)) (name : Text) : Except Err (Col α) :=
  match keys.lookup name with
  | none => .error .keyError
  | some c => match cols.lookup c with
    | none => .error .keyError
    | some col => .ok col

/-- The properties `h`, `k`, `l`, `e` and `temp` of a data object (data/data.py 249-343). -/
def Dat.q (d : Dat α) (name : Text) : Except Err (Col α) := named d.qKeys d.cols name

/-- The properties `detector`, `monitor` and `time` of a data object (data/data.py 219-243). -/
def Dat.counted (d : Dat α) (name : Text) : Except Err (Col α) := named d.dataKeys d.cols name

theorem named_ok {keys : Dict} {cols : List (Text × Col α)} {name c : Text} {col : Col α} (h1 : keys.lookup name = some c)
    (h2 : cols.lookup c = some col) : named keys cols name = .ok col := by
  rw [named, h1]
  simp only [h2]

theorem named_missing {keys : Dict} {cols : List (Text × Col α)} {name c : Text} (h1 : keys.lookup name = some c)
    (h2 : cols.lookup c = none) : named keys cols name = .error .keyError := by
  rw [named, h1]
  simp only [h2]

/-- The values in the column `j` of the lines `ds`. -/
def colOf (r : Reader α) (ds : List Text) (j : Nat) : Col α := .arr (ds.map fun l => r.num ((words l).getD j []))

theorem spice_keys {r : Reader α} {ls : List Text} {d : Loaded α} (h : loadSpice r true ls = .ok d) :
    d.dat.qKeys = spiceQKeys ∧ d.dat.dataKeys = spiceDataKeys := by
  rw [loadSpice, bind_eq_ok] at h
  obtain ⟨⟨a, b⟩, -, h⟩ := h
  simp only [bind_eq_ok] at h
  obtain ⟨_, -, _, -, _, -, h⟩ := h
  obtain rfl := Except.ok.inj h
  exact ⟨rfl, rfl⟩

theorem mad_keys {r : Reader α} {ls : List Text} {d : Dat α} (h : loadMad r true ls = .ok d) :
    d.qKeys = madQKeys ∧ d.dataKeys = madDataKeys := by
  rw [loadMad] at h
  simp only [bind_eq_ok] at h
  obtain ⟨_, -, ⟨_, _⟩, -, _, -, h⟩ := h
  obtain rfl := Except.ok.inj h
  exact ⟨rfl, rfl⟩

theorem ice_keys {r : Reader α} {ls : List Text} {d : Dat α} (h : loadIce r true ls = .ok d) :
    d.qKeys = iceQKeys ∧ d.dataKeys = iceDataKeys := by
  rw [loadIce] at h
  simp only [bind_eq_ok] at h
  obtain ⟨_, -, _, -, h⟩ := h
  obtain rfl := Except.ok.inj h
  exact ⟨rfl, rfl⟩

theorem icp_keys {r : Reader α} {mul : α → α → α} {ls : List Text} {d : Dat α} (h : loadIcp r mul true ls = .ok d) :
    d.qKeys = icpQKeys ∧ d.dataKeys = icpDataKeys := by
  rw [loadIcp.eq_def] at h
  cases ls with
  | nil => exact nomatch h
  | cons l ls =>
    simp only [bind_eq_ok] at h
    obtain ⟨⟨_, _⟩, -, _, -, _, -, _, -, h⟩ := h
    obtain rfl := Except.ok.inj h
    exact ⟨rfl, rfl⟩

/-- C127 for SPICE files (partial).  The Miller indexes, the energy, the temperature and the counts of the object are those of
the columns with these names in the file.  Missing: files in which the temperature has another name
(`C127_spice_temperature`) and files with one point (C108). -/
theorem C127_spice_partial (r : Reader α) {ls hs names ds fs : List Text} (h : IsSpice ls hs names ds fs) (hn : 2 ≤ ds.length)
    (hk : 2 ≤ names.length) : ∃ d, loadSpice r true ls = .ok d ∧ ∀ (j : Nat) (hj : j < names.length),
      (∀ p ∈ [(cs!"h", cs!"h"), (cs!"k", cs!"k"), (cs!"l", cs!"l"), (cs!"e", cs!"e"), (cs!"temp", cs!"tvti")],
        names[j] = p.2 → d.dat.q p.1 = .ok (colOf r ds j)) ∧
      ∀ p ∈ [(cs!"detector", cs!"detector"), (cs!"monitor", cs!"monitor"), (cs!"time", cs!"time")],
        names[j] = p.2 → d.dat.counted p.1 = .ok (colOf r ds j) := by
  obtain ⟨d, h1, h2, -⟩ := C108_columns_partial r true h hn hk
  obtain ⟨k1, k2⟩ := spice_keys h1
  refine ⟨d, h1, fun j hj => ⟨fun p hp e => ?_, fun p hp e => ?_⟩⟩
  · have hne : names[j] ≠ cs!"Pt." := by
      rw [e]
      clear e
      revert hp
      revert p
      decide
    refine named_ok (c := p.2) ?_ (by rw [← e]; exact h2 j hj hne)
    rw [k1]
    clear e
    revert hp
    revert p
    decide
  · have hne : names[j] ≠ cs!"Pt." := by
      rw [e]
      clear e
      revert hp
      revert p
      decide
    refine named_ok (c := p.2) ?_ (by rw [← e]; exact h2 j hj hne)
    rw [k2]
    clear e
    revert hp
    revert p
    decide

/-- C127 fails for SPICE files without a column `tvti`: the temperature cannot be read, even if there is a column
`temp`. -/
theorem C127_spice_temperature (r : Reader α) {ls hs names ds fs : List Text} (h : IsSpice ls hs names ds fs) (hn : 2 ≤ ds.length)
    (hk : 2 ≤ names.length) (ht : cs!"tvti" ∉ names) :
    ∃ d, loadSpice r true ls = .ok d ∧ d.dat.q cs!"temp" = .error .keyError := by
  obtain ⟨d, h1, -, h3, -⟩ := C108_columns_partial r true h hn hk
  refine ⟨d, h1, named_missing (c := cs!"tvti") ?_ ?_⟩
  · rw [(spice_keys h1).1]
    decide
  · rw [List.lookup_eq_none_iff]
    intro p hp
    rw [bne_iff_ne]
    intro e
    apply ht
    have : p.1 ∈ d.dat.cols.map Prod.fst := List.mem_map_of_mem hp
    rw [h3, List.mem_filter] at this
    rw [e]
    exact this.1

/-- C127 for MAD files (partial).  Missing: see C109. -/
theorem C127_mad_partial (r : Reader α) {ls hs names ds : List Text} {f : Text} (h : IsMad ls hs names ds [f]) (hf : DataLine f)
    (hn : 2 ≤ ds.length) (hk : 2 ≤ names.length) : ∃ d, loadMad r true ls = .ok d ∧ ∀ (j : Nat) (hj : j < names.length),
      (∀ p ∈ [(cs!"h", cs!"QH"), (cs!"k", cs!"QK"), (cs!"l", cs!"QL"), (cs!"e", cs!"EN"), (cs!"temp", cs!"TT")],
        names[j] = p.2 → d.q p.1 = .ok (colOf r ds j)) ∧
      ∀ p ∈ [(cs!"detector", cs!"CNTS"), (cs!"monitor", cs!"M1"), (cs!"time", cs!"TIME")],
        names[j] = p.2 → d.counted p.1 = .ok (colOf r ds j) := by
  obtain ⟨d, h1, -, h2⟩ := C109_points_partial r true h hf hn hk
  obtain ⟨k1, k2⟩ := mad_keys h1
  refine ⟨d, h1, fun j hj => ⟨fun p hp e => named_ok (c := p.2) ?_ (by rw [← e]; exact h2 j hj),
    fun p hp e => named_ok (c := p.2) ?_ (by rw [← e]; exact h2 j hj)⟩⟩
  · rw [k1]
    clear e
    revert hp
    revert p
    decide
  · rw [k2]
    clear e
    revert hp
    revert p
    decide

/-- C127 for ICE files (partial), for the nine columns that are read.  Missing: the others (C110). -/
theorem C127_ice_partial (r : Reader α) {ls hs names ds : List Text} (h : IsIce ls hs names ds) (hn : 2 ≤ ds.length)
    (hk : 9 ≤ names.length) : ∃ d, loadIce r true ls = .ok d ∧ ∀ (j : Nat) (hj : j < 9),
      (∀ p ∈ [(cs!"h", cs!"QX"), (cs!"k", cs!"QY"), (cs!"l", cs!"QZ"), (cs!"e", cs!"E"), (cs!"temp", cs!"Temp")],
        names[j] = p.2 → d.q p.1 = .ok (colOf r ds j)) ∧
      ∀ p ∈ [(cs!"detector", cs!"Detector"), (cs!"monitor", cs!"Monitor"), (cs!"time", cs!"Time")],
        names[j] = p.2 → d.counted p.1 = .ok (colOf r ds j) := by
  obtain ⟨d, h1, -, h2⟩ := C110_first_nine_partial r true h hn hk
  obtain ⟨k1, k2⟩ := ice_keys h1
  refine ⟨d, h1, fun j hj => ⟨fun p hp e => named_ok (c := p.2) ?_ (by rw [← e]; exact h2 j hj),
    fun p hp e => named_ok (c := p.2) ?_ (by rw [← e]; exact h2 j hj)⟩⟩
  · rw [k1]
    clear e
    revert hp
    revert p
    decide
  · rw [k2]
    clear e
    revert hp
    revert p
    decide

/-- C127 for ICP files (partial).  The monitor is the product of monitor and prefactor in the first line.  Missing:
see C111. -/
theorem C127_icp_partial (r : Reader α) (mul : α → α → α) {ls names ds : List Text} {m p : α} (h : IsIcp r 11 ls names ds m p)
    (hn : 2 ≤ ds.length) (hk : 2 ≤ names.length) : ∃ d, loadIcp r mul true ls = .ok d ∧
      d.counted cs!"monitor" = .ok (.arr (List.replicate ds.length (mul m p))) ∧ ∀ (j : Nat) (hj : j < names.length),
      (∀ p ∈ [(cs!"h", cs!"Q(x)"), (cs!"k", cs!"Q(y)"), (cs!"l", cs!"Q(z)"), (cs!"e", cs!"E"), (cs!"temp", cs!"T-act")],
        names[j] = p.2 → d.q p.1 = .ok (colOf r ds j)) ∧
      ∀ p ∈ [(cs!"detector", cs!"Counts"), (cs!"time", cs!"min")],
        names[j] = p.2 → d.counted p.1 = .ok (colOf r ds j) := by
  obtain ⟨d, h1, h2, h3⟩ := C111_columns_partial r mul true h hn hk
  obtain ⟨k1, k2⟩ := icp_keys h1
  refine ⟨d, h1, named_ok (c := cs!"monitor") ?_ h3, fun j hj => ⟨fun p hp e => named_ok (c := p.2) ?_ (by rw [← e]; exact h2 j hj),
    fun p hp e => named_ok (c := p.2) ?_ (by rw [← e]; exact h2 j hj)⟩⟩
  · rw [k2]
    decide
  · rw [k1]
    clear e
    revert hp
    revert p
    decide
  · rw [k2]
    clear e
    revert hp
    revert p
    decide

/-- The file of two points: `h` and the counts are read, the temperature is not. -/
example : ∃ d, loadSpice digits true spiceTwo = .ok d ∧ d.dat.q cs!"h" = .ok (.arr [5, 6]) ∧
    d.dat.counted cs!"detector" = .ok (.arr [93, 94]) ∧ d.dat.q cs!"temp" = .error .keyError := by
  obtain ⟨d, h1, h2⟩ := C127_spice_partial digits spiceTwo_ok (by decide) (by decide)
  obtain ⟨d', h3, h4⟩ := C127_spice_temperature digits spiceTwo_ok (by decide) (by decide) (by decide)
  obtain rfl := Except.ok.inj (h1.symm.trans h3)
  refine ⟨d, h1, ?_, ?_, h4⟩
  · exact (h2 1 (by decide)).1 (cs!"h", cs!"h") (by decide) rfl
  · exact (h2 2 (by decide)).2 (cs!"detector", cs!"detector") (by decide) rfl

/-- The ICP file of two points. -/
example : ∃ d, loadIcp digits (· * ·) true icpTwo = .ok d ∧ d.counted cs!"monitor" = .ok (.arr [750, 750]) ∧
    d.q cs!"e" = .ok (.arr [4, 4]) := by
  obtain ⟨d, h1, h2, h3⟩ := C127_icp_partial digits (· * ·) icpTwo_ok (by decide) (by decide)
  exact ⟨d, h1, h2, (h3 1 (by decide)).1 (cs!"e", cs!"E") (by decide) rfl⟩

/-- A MAD file with a last line of other text. -/
example : ∃ d, loadMad digits true (madThree ++ [cs!"Finished at 02:12"]) = .ok d ∧ d.q cs!"h" = .ok (.arr [5, 6, 7]) := by
  obtain ⟨d, h1, h2⟩ := C127_mad_partial digits (ls := madThree ++ [cs!"Finished at 02:12"]) (hs := [cs!"RRRR"])
    (names := [cs!"PNT", cs!"QH", cs!"CNTS"]) (ds := [cs!"   1   5  10", cs!"   2   6  11", cs!"   3   7  12"]) (f := cs!"Finished at 02:12")
    ⟨⟨cs!"DATA_:", cs!" PNT QH CNTS", by decide⟩, by decide, by decide, by decide, by decide⟩ (by decide) (by decide) (by decide)
  exact ⟨d, h1, (h2 1 (by decide)).1 (cs!"h", cs!"QH") (by decide) rfl⟩

theorem grasp_keys {r : Reader α} {one : α} {ls : List Text} {d : Dat α} (h : loadGraspDat r one ls = .ok d) :
    d.dataKeys = graspDataKeys := by
  rw [loadGraspDat] at h
  simp only [bind_eq_ok] at h
  obtain ⟨⟨_, _⟩, -, _, -, _, -, h⟩ := h
  split at h
  · obtain rfl := Except.ok.inj h
    rfl
  · exact nomatch h

/-- **C112**, the counts of the object (partial): the detector is the column of intensities, monitor and time are one at every
point.  Missing: files with one point (`C112_false`). -/
theorem C112_counts_partial (r : Reader α) (one : α) {ls hs names ds : List Text} (h : IsGrasp r ls hs names ds)
    (hn : 2 ≤ ds.length) : ∃ d, loadGraspDat r one ls = .ok d ∧
      (∀ (j : Nat) (hj : j < names.length), names[j] = cs!"I" → d.counted cs!"detector" = .ok (colOf r ds j)) ∧
      d.counted cs!"monitor" = .ok (.arr (List.replicate ds.length one)) ∧
      d.counted cs!"time" = .ok (.arr (List.replicate ds.length one)) := by
  obtain ⟨d, hd, hc, hm, ht, -⟩ := C112_columns_partial r one h hn
  have hk := grasp_keys hd
  refine ⟨d, hd, fun j hj e => ?_, ?_, ?_⟩
  · have := hc j hj
    rw [e] at this
    exact named_ok (by rw [hk]; decide) this
  · exact named_ok (by rw [hk]; decide) hm
  · exact named_ok (by rw [hk]; decide) ht

theorem keysOf_absent {dt : DictText} {word cut : Text} {h : List Text} (hw : ∀ l ∈ h, has word l = false) :
    keysOf dt word cut h = .ok none := by
  induction h with
  | nil => rfl
  | cons l h ih =>
    rw [keysOf, hw l (by simp)]
    exact ih fun x hx => hw x (by simp [hx])

/-- **C66**, files without the lines of names: the counts and the Miller indexes are the columns of the same names. -/
theorem C66_default_names {dt : DictText} {file : List (Line α)} {d : Dat α} {h : List Text} {names : Option (List Text)}
    (hl : loadAscii dt file = .ok d) (hs : scan file = .ok (h, names)) (h1 : ∀ l ∈ h, has cs!"data_keys" l = false)
    (h2 : ∀ l ∈ h, has cs!"Q_keys" l = false) :
    (∀ n ∈ [cs!"detector", cs!"monitor", cs!"time"], ∀ c, d.cols.lookup n = some c → d.counted n = .ok c) ∧
      ∀ n ∈ [cs!"h", cs!"k", cs!"l", cs!"e", cs!"temp"], ∀ c, d.cols.lookup n = some c → d.q n = .ok c := by
  have hk : d.dataKeys = defaultDataKeys ∧ d.qKeys = defaultQKeys := by
    have tail : ∀ e : Except Err (Dat α), loadAscii dt file = e → (∃ x, e = .error x) ∨
        ∃ c hd, e = .ok { cols := c, dataKeys := defaultDataKeys, qKeys := defaultQKeys, header := hd, err := .absent } := by
      intro e he
      subst he
      unfold loadAscii
      dsimp only
      rw [hs]
      simp only [ok_bind, keysOf_absent h1, keysOf_absent h2]
      cases genfromtxt (file.filterMap Line.row?) with
      | error x => split <;> first | (split_ifs <;> exact .inl ⟨_, rfl⟩) | exact .inl ⟨_, rfl⟩
      | ok cols =>
        cases names with
        | none => split <;> first | (split_ifs <;> exact .inl ⟨_, rfl⟩) | exact .inl ⟨_, rfl⟩
        | some ns =>
          cases startOf h with
          | none => split <;> first | (split_ifs <;> exact .inl ⟨_, rfl⟩) | exact .inl ⟨_, rfl⟩
          | some n =>
            split
            · split_ifs
              · exact .inr ⟨_, _, rfl⟩
              · exact .inl ⟨_, rfl⟩
            · exact .inl ⟨_, rfl⟩
    rcases tail _ hl with ⟨x, e⟩ | ⟨c, hd, e⟩
    · exact nomatch e
    · rw [Except.ok.inj e]
      exact ⟨rfl, rfl⟩
  constructor
  · intro n hn c hc
    refine named_ok (c := n) ?_ hc
    rw [hk.1]
    clear hc
    revert n
    decide
  · intro n hn c hc
    refine named_ok (c := n) ?_ hc
    rw [hk.2]
    clear hc
    revert n
    decide

example : ∃ d, loadGraspDat digits 1 graspTwo = .ok d ∧ d.counted cs!"monitor" = .ok (.arr [1, 1]) := by
  obtain ⟨d, hd, -, h, -⟩ := C112_counts_partial digits 1 graspTwo_ok (by decide)
  exact ⟨d, hd, h⟩

/-- A file written by hand, without lines of names. -/
example (dt : DictText) : ∃ d : Dat Nat, loadAscii dt [.comment cs!"NeutronPy", .comment cs!"npy_col_headers", .comment cs!"h detector",
      .comment cs!"original_header", .row [1, 10], .row [2, 20]] = .ok d ∧
    d.counted cs!"detector" = .ok (.arr [10, 20]) ∧ d.q cs!"h" = .ok (.arr [1, 2]) := by
  refine ⟨_, rfl, ?_⟩
  have := C66_default_names (dt := dt) (h := [cs!"NeutronPy", cs!"original_header"]) (names := some [cs!"h", cs!"detector"])
    (file := [.comment cs!"NeutronPy", .comment cs!"npy_col_headers", .comment cs!"h detector",
      .comment cs!"original_header", .row [1, 10], .row [2, 20]]) rfl rfl (by decide) (by decide)
  exact ⟨this.1 _ (by decide) _ rfl, this.2 _ (by decide) _ rfl⟩

end Verif.FileIO
