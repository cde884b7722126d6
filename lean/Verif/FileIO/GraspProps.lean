import Verif.FileIO.Grasp
import Verif.FileIO.DetectProps
import Mathlib.Tactic.Common

/-! # Property theorems: recognised files are read (C182) -/

namespace Verif.FileIO

/-! ### Specification -/

/-- The beginning of a file is as its format has it: the number of columns or, in a grid, the two sizes. -/
def Begins (s : Subtype) (ls : List Text) : Prop :=
  match s with
  | .iexy => (words (ls.headD [])).length = 4
  | .xye => (words (ls.headD [])).length = 3
  | .xyie => (words (ls.headD [])).length = 2
  | .spe => (words (ls.headD [])).length = 2 ∧ ∃ l, ls[1]? = some l ∧ cs!"###" <:+: l

/-- The endings of the four formats, as far as they are recognised: three of them in any case. -/
def DcsName (s : Subtype) (n : Text) : Prop :=
  match s with
  | .iexy => Ends cs!"iexy" n
  | .xye => Ends cs!"xye" n
  | .xyie => cs!"xyie" <:+ n
  | .spe => Ends cs!"spe" n

/-- The reader is the one for the name or the lines. -/
def Suits (t : Filetype) (n c : Text) (r : Reading) : Prop :=
  match t with
  | .grasp => (Ends cs!"nxs" n ∧ r = .nxs) ∨ (¬ Ends cs!"nxs" n ∧ r = .dat)
  | .neutronpy => (Ends cs!"h5" n ∧ r = .hdf5) ∨ (¬ Ends cs!"h5" n ∧ r = .ascii)
  | .dcsMslice => ∃ s, DcsName s n ∧ r = .dcs s
  | t => r = .only t

/-! ### Lemmas -/

theorem ends3 (suf n : Text) (hs : suf.length = 3) : lower (lastChars 3 n) = suf ↔ Ends suf n := ends_lastChars hs

theorem endOf_ends {suf n : Text} {k : Nat} (h : endOf k n = suf) (hk : suf.length = k := by rfl)
    (hl : lower suf = suf := by decide) : Ends suf n := by
  refine (ends_lastChars hk).1 ?_
  have h : lastChars k n = suf := h
  rw [h, hl]

theorem dcsSubtype_of {s : Subtype} {n : Text} {ls : List Text} (hn : DcsName s n) (hb : Begins s ls) :
    dcsSubtype n ls = .ok s := by
  have no : ∀ {s u : Text}, Ends s n → Ends u n → ¬ (s <:+ u ∨ u <:+ s) → False := fun hs hu hc => hc (two_ends hs hu)
  unfold dcsSubtype
  cases s with
  | iexy => rw [if_pos (.inr hb)]
  | xyie =>
    have e := xyie_ends hn
    have hb : (words (ls.headD [])).length = 2 := hb
    rw [if_neg (by
      rintro (h | h)
      · exact no (endOf_ends h) e (by decide)
      · omega), if_pos (.inl ((suffix_lastChars rfl).2 hn))]
  | spe =>
    obtain ⟨hb, l, hl, hm⟩ := hb
    have hn : Ends cs!"spe" n := hn
    rw [if_neg (by
      rintro (h | h)
      · exact no (endOf_ends h) hn (by decide)
      · omega), if_neg (by
      rintro (h | ⟨-, h⟩)
      · exact no (endOf_ends h) hn (by decide)
      · rw [hl] at h; cases h), if_pos (.inr ⟨hb, by rw [hl]; exact has_iff.2 hm⟩)]
  | xye =>
    have hb : (words (ls.headD [])).length = 3 := hb
    have hn : Ends cs!"xye" n := hn
    rw [if_neg (by
      rintro (h | h)
      · exact no (endOf_ends h) hn (by decide)
      · omega), if_neg (by
      rintro (h | ⟨h, -⟩)
      · exact no (endOf_ends h) hn (by decide)
      · omega), if_neg (by
      rintro (h | ⟨h, -⟩)
      · exact no (endOf_ends h) hn (by decide)
      · omega), if_pos (.inr hb)]

/-! ### C182 -/

/-- C182, GRASP: a file is read as NeXus file exactly if its name ends so, and otherwise as text exactly if its name ends
with `dat` or its first line has `GRASP` in capitals; everything else is refused. -/
theorem C182_grasp (n c : Text) :
    (reading .grasp n c = .ok .nxs ↔ Ends cs!"nxs" n) ∧
    (reading .grasp n c = .ok .dat ↔ ¬ Ends cs!"nxs" n ∧ (Ends cs!"dat" n ∨ Heads cs!"GRASP" c)) ∧
    (reading .grasp n c = .error .ioError ↔
      ¬ Ends cs!"nxs" n ∧ ¬ Ends cs!"dat" n ∧ ¬ Heads cs!"GRASP" c) := by
  simp only [reading, graspReading, ← ends3 cs!"nxs" n rfl, ← ends3 cs!"dat" n rfl, heads_iff, ← has_iff]
  by_cases h1 : lower (lastChars 3 n) = cs!"nxs"
  · simp only [if_pos h1]
    simp [h1]
  · by_cases h2 : lower (lastChars 3 n) = cs!"dat" ∨ has cs!"GRASP" (firstLines c).1
    · simp only [if_neg h1, if_pos h2]
      simp [h1, h2]
      tauto
    · simp only [if_neg h1, if_neg h2]
      simp only [not_or] at h2
      simp [h1, h2]

/-- C182 (part): every file that is recognised, by its name or by its lines, is read, by the reader for what its name or
its lines say, if the GRASP mark in the first line is in capitals, a `npy` file has the mark of the package, and a DCS file
begins as its ending says.  Missing for the full claim: the files of the theorems below. -/
theorem C182_read_partial {disk : Text → Option Text} {n c : Text} {t : Filetype} (hc : disk n = some c)
    (h : detect disk n = .ok t)
    (hg : ∀ w, upper w = cs!"GRASP" → Heads w c → Ends cs!"dat" n ∨ Heads cs!"GRASP" c)
    (hn : Ends cs!"npy" n → Heads cs!"NeutronPy" c)
    (hd : ∀ s, DcsName s n → Begins s (fileLines c)) :
    ∃ r, reading t n c = .ok r ∧ Suits t n c r := by
  cases t with
  | grasp =>
    by_cases h1 : Ends cs!"nxs" n
    · exact ⟨_, (C182_grasp n c).1.2 h1, .inl ⟨h1, rfl⟩⟩
    · exact ⟨_, (C182_grasp n c).2.1.2 ⟨h1, by
        rcases C66_sound h with h | ⟨-, c', hc', l, m, hl, w, hw, hu⟩
        · exact absurd h h1
        · obtain rfl := Option.some.inj (hc.symm.trans hc')
          exact hg w hu ⟨l, m, hl, hw⟩⟩, .inr ⟨h1, rfl⟩⟩
  | neutronpy =>
    by_cases h1 : Ends cs!"h5" n
    · exact ⟨.hdf5, if_pos ((ends_lastChars (k := 2) rfl).2 h1), .inl ⟨h1, rfl⟩⟩
    · refine ⟨.ascii, ?_, .inr ⟨h1, rfl⟩⟩
      exact (if_neg fun h => h1 ((ends_lastChars (k := 2) rfl).1 h)).trans (if_pos (has_iff.2 (heads_iff.1 (by
        rcases C66_sound h with (h | h) | ⟨-, c', hc', hw⟩
        · exact absurd h h1
        · exact hn h
        · obtain rfl := Option.some.inj (hc.symm.trans hc')
          exact hw))))
  | dcsMslice =>
    obtain ⟨s, h1⟩ : ∃ s, DcsName s n := by
      rcases C66_sound h with (h | h | h | h) | ⟨-, c', -, hw⟩
      · exact ⟨.iexy, h⟩
      · exact ⟨.spe, h⟩
      · exact ⟨.xye, h⟩
      · exact ⟨.xyie, h⟩
      · obtain ⟨_, _, _, hw⟩ := hw
        exact hw.elim
    have h2 := hd s h1
    refine ⟨.dcs s, ?_, s, h1, rfl⟩
    simp only [reading, dcsSubtype_of h1 h2]
    rfl
  | ice => exact ⟨_, rfl, rfl⟩
  | icp => exact ⟨_, rfl, rfl⟩
  | mad => exact ⟨_, rfl, rfl⟩
  | spice => exact ⟨_, rfl, rfl⟩

/-- C182 fails: a GRASP file that is recognised by its first line, where capitals do not matter, is refused unless the line
has the name in capitals or the file name ends with `dat`. -/
theorem C182_case_false {disk : Text → Option Text} {n c : Text} (hn : ∀ t, ¬ NameMark t n) (hc : disk n = some c)
    (h : Marked .grasp c)
    (hu : ∀ t, Marked t c → t = .grasp) (h2 : ¬ Ends cs!"dat" n)
    (h3 : ¬ Heads cs!"GRASP" c) :
    detect disk n = .ok .grasp ∧ reading .grasp n c = .error .ioError :=
  ⟨C66_lines_partial hn hc h hu, (C182_grasp n c).2.2.2 ⟨hn .grasp, h2, h3⟩⟩

/-- C182 fails: a file with the ending `npy` is recognised whatever it holds, and refused without the mark of the
package. -/
theorem C182_npy_false {disk : Text → Option Text} {n c : Text} (h : Ends cs!"npy" n)
    (h3 : ¬ Heads cs!"NeutronPy" c) :
    detect disk n = .ok .neutronpy ∧ reading .neutronpy n c = .error .ioError := by
  refine ⟨C66_name (.inr h), ?_⟩
  refine (if_neg fun h' => ?_).trans (if_neg fun h' => h3 (heads_iff.2 (has_iff.1 h')))
  have := two_ends h ((ends_lastChars (k := 2) rfl).1 h')
  revert this
  decide

/-- C182 fails: a text file of three columns whose first line is a comment of four words is recognised by its name and read
as a file of four columns. -/
theorem C182_comment_false {disk : Text → Option Text} {n c : Text} (h : Ends cs!"xye" n)
    (h4 : (words ((fileLines c).headD [])).length = 4) :
    detect disk n = .ok .dcsMslice ∧ reading .dcsMslice n c = .ok (.dcs .iexy) := by
  refine ⟨C66_name (.inr (.inr (.inl h))), ?_⟩
  simp only [reading, dcsSubtype]
  rw [if_pos (.inr h4)]
  rfl

/-! ### NeXus files -/

/-- The data sets of a GRASP file and the columns that they become. -/
def nxsNames : List (Text × Text) :=
  [(cs!"intensity", cs!"intensity1"), (cs!"qx", cs!"qx1"), (cs!"qy", cs!"qy1"), (cs!"qangles", cs!"qangle1"),
   (cs!"mod_q", cs!"mod_q1"), (cs!"err_intensity", cs!"err_intensity1")]

variable {α : Type}

/-- C182, NeXus files: with all data sets, each column has the values of its data set in their order, and as many as before
along every axis that is longer than one; detector, monitor, time and errors are the intensity, ones at every point, and
the errors of the file. -/
theorem C182_nxs (one : α) {file : Text → Option (NdArr α)} {a : Text → NdArr α}
    (h : ∀ p ∈ nxsNames, file (cs!"entry0/data1/" ++ p.2) = some (a p.2))
    (hs : (a cs!"intensity1").vals.length = (a cs!"intensity1").shape.prod) :
    ∃ d, loadNxs one file = .ok d ∧
      (∀ p ∈ nxsNames, ∃ b, d.cols.lookup p.1 = some b ∧ b.vals = (a p.2).vals ∧ b.shape = (a p.2).shape.filter fun k => decide (k ≠ 1)) ∧
      d.dataKeys.lookup cs!"detector" = some cs!"intensity" ∧
      (∀ k ∈ [cs!"monitor", cs!"time"], ∃ b n, d.dataKeys.lookup k = some n ∧ d.cols.lookup n = some b ∧
        b.vals = (a cs!"intensity1").vals.map fun _ => one) ∧
      d.err.vals = (a cs!"err_intensity1").vals := by
  have key : ∀ p ∈ nxsNames, dataset file p.2 = .ok (a p.2).squeeze := fun p hp => by
    unfold dataset; rw [h p hp]
  have hf : ∀ l : List Nat, (l.filter (· ≠ 1)).prod = l.prod := by
    intro l
    induction l with
    | nil => rfl
    | cons k l ih =>
      by_cases hk : k = 1
      · simpa [hk] using ih
      · simp [hk] at ih ⊢
        exact .inl ih
  unfold loadNxs
  rw [key (cs!"intensity", cs!"intensity1") (by decide), key (cs!"qx", cs!"qx1") (by decide),
    key (cs!"qy", cs!"qy1") (by decide), key (cs!"qangles", cs!"qangle1") (by decide),
    key (cs!"mod_q", cs!"mod_q1") (by decide), key (cs!"err_intensity", cs!"err_intensity1") (by decide)]
  refine ⟨_, rfl, ?_, rfl, ?_, rfl⟩
  · intro p hp
    simp only [nxsNames, List.mem_cons, List.not_mem_nil, or_false] at hp
    rcases hp with rfl | rfl | rfl | rfl | rfl | rfl <;> exact ⟨_, rfl, rfl, rfl⟩
  · intro k hk
    simp only [List.mem_cons, List.not_mem_nil, or_false] at hk
    have e : List.replicate ((a cs!"intensity1").shape.filter (· ≠ 1)).prod one = (a cs!"intensity1").vals.map fun _ => one := by
      rw [hf, ← hs, List.map_const']
    rcases hk with rfl | rfl <;> exact ⟨_, _, rfl, rfl, e⟩

/-- C182, NeXus files: without one of the data sets nothing is loaded. -/
theorem C182_nxs_missing (one : α) {file : Text → Option (NdArr α)} {p : Text × Text} (hp : p ∈ nxsNames)
    (h : file (cs!"entry0/data1/" ++ p.2) = none) : loadNxs one file = .error .keyError := by
  have key : ∀ q ∈ nxsNames, dataset file q.2 = .error .keyError ∨ ∃ b, dataset file q.2 = .ok b := fun q _ => by
    unfold dataset
    split
    · exact .inr ⟨_, rfl⟩
    · exact .inl rfl
  have hm : dataset file p.2 = .error .keyError := by unfold dataset; rw [h]
  unfold loadNxs
  simp only [nxsNames, List.mem_cons, List.not_mem_nil, or_false] at hp
  rcases key (cs!"intensity", cs!"intensity1") (by decide) with e | ⟨b, e⟩ <;> simp only [e, bind, Except.bind]
  rcases key (cs!"qx", cs!"qx1") (by decide) with e | ⟨b, e⟩ <;> simp only [e]
  rcases key (cs!"qy", cs!"qy1") (by decide) with e | ⟨b, e⟩ <;> simp only [e]
  rcases key (cs!"qangles", cs!"qangle1") (by decide) with e | ⟨b, e⟩ <;> simp only [e]
  rcases key (cs!"mod_q", cs!"mod_q1") (by decide) with e | ⟨b, e⟩ <;> simp only [e]
  rcases key (cs!"err_intensity", cs!"err_intensity1") (by decide) with e | ⟨b, e⟩ <;> simp only [e]
  rcases hp with rfl | rfl | rfl | rfl | rfl | rfl <;> simp_all

/-! ### The hypotheses are met -/

/-- A file as GRASP could be made to write it: recognised, and refused. -/
example : detect (fun _ => some cs!"Grasp export\nMod_Q I Err_I\n1 2 3") cs!"a.txt" = .ok .grasp ∧
    reading .grasp cs!"a.txt" cs!"Grasp export\nMod_Q I Err_I\n1 2 3" = .error .ioError := by
  decide +kernel

example : ∃ r, reading .grasp cs!"a.txt" cs!"GRASP\nMod_Q I Err_I\n1 2 3" = .ok r ∧
    Suits .grasp cs!"a.txt" cs!"GRASP\nMod_Q I Err_I\n1 2 3" r := by
  have no : ∀ t, ¬ NameMark t cs!"a.txt" := detectName_none (by decide)
  exact C182_read_partial (disk := fun _ => some cs!"GRASP\nMod_Q I Err_I\n1 2 3") rfl (by decide +kernel)
    (fun _ _ _ => .inr (heads_iff.2 (has_iff.1 (by decide +kernel)))) (fun h => absurd (.inr h) (no .neutronpy))
    (fun s h => by
      refine absurd ?_ (no .dcsMslice)
      cases s
      · exact .inl h
      · exact .inr (.inr (.inr h))
      · exact .inr (.inl h)
      · exact .inr (.inr (.inl h)))

example : detect (fun _ => some cs!"GRASP\nMod_Q I Err_I\n1 2 3") cs!"a.txt" = .ok .grasp ∧
    reading .grasp cs!"a.txt" cs!"GRASP\nMod_Q I Err_I\n1 2 3" = .ok .dat := by
  decide +kernel

example : DcsName .spe cs!"a.SPE" ∧ Begins .spe (fileLines cs!"3 4\n### Phi Grid\n1 2 3") :=
  ⟨⟨cs!"a.", cs!"SPE", rfl, by decide⟩, by decide +kernel, cs!"### Phi Grid", by decide +kernel, [], cs!" Phi Grid", rfl⟩

example : ∃ d, loadNxs (1 : Nat) (fun n => if n = cs!"entry0/data1/qx1" then some ⟨[1, 2], [7, 8]⟩ else some ⟨[1, 2], [5, 6]⟩) = .ok d ∧
    d.cols.lookup cs!"qx" = some ⟨[2], [7, 8]⟩ ∧ d.cols.lookup cs!"monitor" = some ⟨[2], [1, 1]⟩ := by
  refine ⟨_, rfl, ?_, ?_⟩ <;> decide +kernel

end Verif.FileIO
