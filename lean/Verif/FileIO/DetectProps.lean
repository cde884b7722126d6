import Verif.FileIO.Detect
import Verif.FileIO.InstrLemmas
import Mathlib.Tactic.Common

/-!
# File types

C66: which file type is detected.  C67: loading several files.
-/

namespace Verif.FileIO

open Verif.Data (DataObj Tols combineInPlace loadFiles)

/-! ### Specification -/

/-- The name ends with `suffix`, in upper or lower case. -/
def Ends (suffix name : Text) : Prop := ∃ a b, name = a ++ b ∧ lower b = suffix

/-- The ending of the name shows the type. -/
def NameMark : Filetype → Text → Prop
  | .grasp, n => Ends cs!"nxs" n
  | .dcsMslice, n => Ends cs!"iexy" n ∨ Ends cs!"spe" n ∨ Ends cs!"xye" n ∨ cs!"xyie" <:+ n
  | .neutronpy, n => Ends cs!"h5" n ∨ Ends cs!"npy" n
  | _, _ => False

/-- The first or second line shows the type. -/
def LineMark : Filetype → Text → Text → Prop
  | .ice, f, _ => cs!"#ICE" <:+: f
  | .spice, f, _ => cs!"# scan" <:+: f
  | .grasp, f, _ => ∃ w, w <:+: f ∧ upper w = cs!"GRASP"
  | .icp, _, s => cs!"Filename" <:+: s
  | .mad, f, _ => cs!"RRR" <:+: f ∨ cs!"AAA" <:+: f ∨ cs!"VVV" <:+: f
  | .neutronpy, f, _ => cs!"NeutronPy" <:+: f
  | .dcsMslice, _, _ => False

/-- `l` and `m` are the first two lines of a text; a line that is not there is empty. -/
def FirstTwo (c l m : Text) : Prop :=
  '\n' ∉ l ∧ '\n' ∉ m ∧ ((c = l ∧ m = []) ∨ c = l ++ '\n' :: m ∨ ∃ r, c = l ++ '\n' :: (m ++ '\n' :: r))

/-- The first or second line of a text shows the type. -/
def Marked (t : Filetype) (c : Text) : Prop := ∃ l m, FirstTwo c l m ∧ LineMark t l m

/-- The first line of a text has the word. -/
def Heads (w c : Text) : Prop := ∃ l m, FirstTwo c l m ∧ w <:+: l

/-! ### Lemmas -/

theorem firstTwo_firstLines {c l m : Text} (h : FirstTwo c l m) : firstLines c = (l, m) := by
  obtain ⟨hl, hm, ⟨rfl, rfl⟩ | rfl | ⟨r, rfl⟩⟩ := h
  · cases c with
    | nil => rfl
    | cons x xs => simp [firstLines, fileLines, split_of_notMem hl]
  · cases m with
    | nil => simp [firstLines, fileLines, split_append hl, split]
    | cons x xs => simp [firstLines, fileLines, split_append hl, split_of_notMem hm]
  · have e : ∃ x xs, split '\n' r = x :: xs := List.exists_cons_of_ne_nil (split_ne_nil _ _)
    obtain ⟨x, xs, e⟩ := e
    simp only [firstLines, fileLines, split_append hl, split_append hm, e]
    split_ifs
    · cases xs <;> simp
    · simp

theorem line_or (c : Text) : ∃ l, '\n' ∉ l ∧ (c = l ∨ ∃ r, c = l ++ '\n' :: r) := by
  induction c with
  | nil => exact ⟨[], by simp, .inl rfl⟩
  | cons x xs ih =>
    by_cases hx : x = '\n'
    · exact ⟨[], by simp, .inr ⟨xs, by simp [hx]⟩⟩
    · obtain ⟨l, hl, h⟩ := ih
      refine ⟨x :: l, by simp [hl, Ne.symm hx], ?_⟩
      rcases h with rfl | ⟨r, rfl⟩
      · exact .inl rfl
      · exact .inr ⟨r, rfl⟩

theorem firstTwo_spec (c : Text) : FirstTwo c (firstLines c).1 (firstLines c).2 := by
  have : ∃ l m, FirstTwo c l m := by
    obtain ⟨l, hl, rfl | ⟨r, rfl⟩⟩ := line_or c
    · exact ⟨c, [], hl, by simp, .inl ⟨rfl, rfl⟩⟩
    · obtain ⟨m, hm, rfl | ⟨r, rfl⟩⟩ := line_or r
      · exact ⟨l, r, hl, hm, .inr (.inl rfl)⟩
      · exact ⟨l, m, hl, hm, .inr (.inr ⟨r, rfl⟩)⟩
  obtain ⟨l, m, h⟩ := this
  rw [firstTwo_firstLines h]
  exact h

theorem marked_iff {t : Filetype} {c : Text} : Marked t c ↔ LineMark t (firstLines c).1 (firstLines c).2 := by
  constructor
  · rintro ⟨l, m, h, h'⟩
    rwa [firstTwo_firstLines h]
  · exact fun h => ⟨_, _, firstTwo_spec c, h⟩

theorem heads_iff {w c : Text} : Heads w c ↔ w <:+: (firstLines c).1 := by
  constructor
  · rintro ⟨l, m, h, h'⟩
    rwa [firstTwo_firstLines h]
  · exact fun h => ⟨_, _, firstTwo_spec c, h⟩

theorem suffix_lastChars {suf n : Text} {k : Nat} (hk : suf.length = k) :
    lastChars k n = suf ↔ suf <:+ n := by
  constructor
  · rintro rfl; exact List.drop_suffix _ _
  · rintro ⟨a, rfl⟩
    simp [lastChars, ← hk]

theorem ends_lastChars {suf n : Text} {k : Nat} (hk : suf.length = k) :
    lower (lastChars k n) = suf ↔ Ends suf n := by
  constructor
  · intro h
    exact ⟨n.take (n.length - k), lastChars k n, by simp [lastChars], h⟩
  · rintro ⟨a, b, rfl, hb⟩
    have hl : b.length = k := by rw [← hk, ← hb]; simp [lower]
    rw [(suffix_lastChars hl).2 (List.suffix_append a b)]
    exact hb

theorem has_upper {pat s : Text} : has pat (upper s) = true ↔ ∃ w, w <:+: s ∧ upper w = pat := by
  rw [has_iff]
  constructor
  · rintro ⟨a, b, h⟩
    obtain ⟨l, r, rfl, hl, hr⟩ := List.map_eq_append_iff.1 h.symm
    obtain ⟨l1, l2, rfl, hl1, hl2⟩ := List.map_eq_append_iff.1 hl
    exact ⟨l2, ⟨l1, r, rfl⟩, hl2⟩
  · rintro ⟨w, ⟨a, b, rfl⟩, rfl⟩
    exact ⟨upper a, upper b, by simp [upper]⟩

theorem two_ends {s t n : Text} (hs : Ends s n) (ht : Ends t n) : s <:+ t ∨ t <:+ s := by
  obtain ⟨a, b, rfl, rfl⟩ := hs
  obtain ⟨c, d, h, rfl⟩ := ht
  rcases List.append_eq_append_iff.1 h with ⟨w, h1, h2⟩ | ⟨w, h1, h2⟩
  · right; exact ⟨lower w, by rw [h2]; simp [lower]⟩
  · left; exact ⟨lower w, by rw [h2]; simp [lower]⟩

theorem xyie_ends {n : Text} (h : cs!"xyie" <:+ n) : Ends cs!"xyie" n := by
  obtain ⟨a, rfl⟩ := h
  exact ⟨a, _, rfl, by decide⟩

/-- The endings of different types exclude each other. -/
theorem nameMark_unique {t t' : Filetype} {n : Text} (h : NameMark t n) (h' : NameMark t' n) :
    t = t' := by
  have no : ∀ {s u : Text}, Ends s n → Ends u n → ¬ (s <:+ u ∨ u <:+ s) → False :=
    fun hs hu hc => hc (two_ends hs hu)
  cases t <;> cases t' <;> first | rfl | exact h.elim | exact h'.elim | skip
  all_goals
    simp only [NameMark] at h h'
    exfalso
  · rcases h with h | h | h | h
    · exact no h h' (by decide)
    · exact no h h' (by decide)
    · exact no h h' (by decide)
    · exact no (xyie_ends h) h' (by decide)
  · rcases h' with h' | h'
    · rcases h with h | h | h | h
      · exact no h h' (by decide)
      · exact no h h' (by decide)
      · exact no h h' (by decide)
      · exact no (xyie_ends h) h' (by decide)
    · rcases h with h | h | h | h
      · exact no h h' (by decide)
      · exact no h h' (by decide)
      · exact no h h' (by decide)
      · exact no (xyie_ends h) h' (by decide)
  · rcases h' with h' | h' | h' | h'
    · exact no h h' (by decide)
    · exact no h h' (by decide)
    · exact no h h' (by decide)
    · exact no h (xyie_ends h') (by decide)
  · rcases h' with h' | h'
    · exact no h h' (by decide)
    · exact no h h' (by decide)
  · rcases h with h | h
    · rcases h' with h' | h' | h' | h'
      · exact no h h' (by decide)
      · exact no h h' (by decide)
      · exact no h h' (by decide)
      · exact no h (xyie_ends h') (by decide)
    · rcases h' with h' | h' | h' | h'
      · exact no h h' (by decide)
      · exact no h h' (by decide)
      · exact no h h' (by decide)
      · exact no h (xyie_ends h') (by decide)
  · rcases h with h | h
    · exact no h h' (by decide)
    · exact no h h' (by decide)

theorem detectName_sound {n : Text} {t : Filetype} (h : detectName n = some t) : NameMark t n := by
  unfold detectName at h
  split at h
  · rename_i h1
    obtain rfl := Option.some.inj h
    exact (ends_lastChars rfl).1 h1
  · split at h
    · rename_i h1
      obtain rfl := Option.some.inj h
      rcases h1 with h1 | h1 | h1 | h1
      · exact .inl ((ends_lastChars rfl).1 h1)
      · exact .inr (.inl ((ends_lastChars rfl).1 h1))
      · exact .inr (.inr (.inl ((ends_lastChars rfl).1 h1)))
      · exact .inr (.inr (.inr ((suffix_lastChars rfl).1 h1)))
    · split at h
      · rename_i h1
        obtain rfl := Option.some.inj h
        rcases h1 with h1 | h1
        · exact .inl ((ends_lastChars rfl).1 h1)
        · exact .inr ((ends_lastChars rfl).1 h1)
      · cases h

theorem detectName_none {n : Text} (h : detectName n = none) (t : Filetype) : ¬ NameMark t n := by
  unfold detectName at h
  split_ifs at h with h1 h2 h3
  push Not at h2 h3
  cases t <;> simp only [NameMark, not_false_eq_true, not_or]
  · exact ⟨fun h => h2.1 ((ends_lastChars rfl).2 h), fun h => h2.2.1 ((ends_lastChars rfl).2 h),
      fun h => h2.2.2.1 ((ends_lastChars rfl).2 h), fun h => h2.2.2.2 ((suffix_lastChars rfl).2 h)⟩
  · exact fun h => h1 ((ends_lastChars rfl).2 h)
  · exact ⟨fun h => h3.1 ((ends_lastChars rfl).2 h), fun h => h3.2 ((ends_lastChars rfl).2 h)⟩

theorem detectName_iff {n : Text} {t : Filetype} : detectName n = some t ↔ NameMark t n := by
  refine ⟨detectName_sound, fun h => ?_⟩
  cases hd : detectName n with
  | none => exact absurd h (detectName_none hd t)
  | some t' => rw [nameMark_unique (detectName_sound hd) h]

theorem detectLines_sound {f s : Text} {t : Filetype} (h : detectLines f s = .ok t) :
    LineMark t f s := by
  unfold detectLines at h
  split at h
  · rename_i h1; obtain rfl := Except.ok.inj h; exact has_iff.1 h1
  split at h
  · rename_i h1; obtain rfl := Except.ok.inj h; exact has_iff.1 h1
  split at h
  · rename_i h1; obtain rfl := Except.ok.inj h; exact has_upper.1 h1
  split at h
  · rename_i h1; obtain rfl := Except.ok.inj h; exact has_iff.1 h1
  split at h
  · rename_i h1
    obtain rfl := Except.ok.inj h
    simp only [Bool.or_eq_true, has_iff] at h1
    rcases h1 with (h1 | h1) | h1
    · exact .inl h1
    · exact .inr (.inl h1)
    · exact .inr (.inr h1)
  split at h
  · rename_i h1; obtain rfl := Except.ok.inj h; exact has_iff.1 h1
  · cases h

theorem detectLines_error {f s : Text} {e : Err} (h : detectLines f s = .error e) :
    e = .valueError ∧ ∀ t, ¬ LineMark t f s := by
  unfold detectLines at h
  split at h
  · cases h
  rename_i h1
  split at h
  · cases h
  rename_i h2
  split at h
  · cases h
  rename_i h3
  split at h
  · cases h
  rename_i h4
  split at h
  · cases h
  rename_i h5
  split at h
  · cases h
  rename_i h6
  refine ⟨(Except.error.inj h).symm, ?_⟩
  intro t
  rw [has_iff] at h1 h2 h4 h6
  rw [has_upper] at h3
  simp only [Bool.or_eq_true, has_iff, not_or] at h5
  cases t
  · exact id
  · exact h3
  · exact h1
  · exact h4
  · simpa [LineMark] using ⟨h5.1.1, h5.1.2, h5.2⟩
  · exact h6
  · exact h2

/-! ### File type detection -/

/-- C66.  A type that is detected is shown by the ending of the name, or, when
no type is, by the first lines of the file. -/
theorem C66_sound {disk : Text → Option Text} {n : Text} {t : Filetype}
    (h : detect disk n = .ok t) :
    NameMark t n ∨ ((∀ t', ¬ NameMark t' n) ∧
      ∃ c, disk n = some c ∧ Marked t c) := by
  unfold detect at h
  cases hd : detectName n with
  | some t' =>
    rw [hd] at h
    obtain rfl := Except.ok.inj h
    exact .inl (detectName_sound hd)
  | none =>
    rw [hd] at h
    cases hc : disk n with
    | none => rw [hc] at h; cases h
    | some c =>
      rw [hc] at h
      exact .inr ⟨detectName_none hd, c, rfl, marked_iff.2 (detectLines_sound h)⟩

/-- C66.  A type shown by the ending of the name is detected whatever the file
holds, even if there is none; two endings never disagree. -/
theorem C66_name {disk : Text → Option Text} {n : Text} {t : Filetype} (h : NameMark t n) :
    detect disk n = .ok t := by
  simp [detect, detectName_iff.2 h]

/-- C66.  A type shown by the first lines is detected, provided no other type is
shown as well.  Missing for the full claim: lines that show two types, where it
is false (`C66_two_markers`). -/
theorem C66_lines_partial {disk : Text → Option Text} {n c : Text} {t : Filetype}
    (hn : ∀ t', ¬ NameMark t' n) (hc : disk n = some c)
    (h : Marked t c)
    (hu : ∀ t', Marked t' c → t' = t) :
    detect disk n = .ok t := by
  have hd : detectName n = none := by
    cases hd : detectName n with
    | none => rfl
    | some t' => exact absurd (detectName_sound hd) (hn t')
  simp only [detect, hd, hc]
  cases hl : detectLines (firstLines c).1 (firstLines c).2 with
  | ok t' => rw [hu t' (marked_iff.2 (detectLines_sound hl))]
  | error e => exact absurd (marked_iff.1 h) ((detectLines_error hl).2 t)

/-- C66.  The error case: nothing shows a type, and the error is the one for an
unknown type, or for a missing file. -/
theorem C66_unknown {disk : Text → Option Text} {n : Text} {e : Err} :
    detect disk n = .error e ↔ (∀ t, ¬ NameMark t n) ∧
      ((disk n = none ∧ e = .fileNotFound) ∨
       (e = .valueError ∧ ∃ c, disk n = some c ∧
         ∀ t, ¬ Marked t c)) := by
  constructor
  · intro h
    unfold detect at h
    cases hd : detectName n with
    | some t' => rw [hd] at h; cases h
    | none =>
      rw [hd] at h
      refine ⟨detectName_none hd, ?_⟩
      cases hc : disk n with
      | none => rw [hc] at h; exact .inl ⟨rfl, (Except.error.inj h).symm⟩
      | some c =>
        rw [hc] at h
        obtain ⟨h1, h2⟩ := detectLines_error h
        exact .inr ⟨h1, c, rfl, fun t ht => h2 t (marked_iff.1 ht)⟩
  · rintro ⟨hn, h⟩
    have hd : detectName n = none := by
      cases hd : detectName n with
      | none => rfl
      | some t' => exact absurd (detectName_sound hd) (hn t')
    rcases h with ⟨hc, rfl⟩ | ⟨rfl, c, hc, h⟩
    · simp [detect, hd, hc]
    · simp only [detect, hd, hc]
      cases hl : detectLines (firstLines c).1 (firstLines c).2 with
      | ok t' => exact absurd (marked_iff.2 (detectLines_sound hl)) (h t')
      | error e => rw [(detectLines_error hl).1]

/-- C66.  What `save_data` writes in the ASCII and HDF5 formats gets a name that
is detected as this package's own type, whatever name was asked for. -/
theorem C66_saved (disk : Text → Option Text) (name : Text) :
    detect disk (name ++ cs!".npy") = .ok .neutronpy ∧
      detect disk (name ++ cs!".h5") = .ok .neutronpy := by
  constructor
  · exact C66_name (.inr ⟨name ++ cs!".", cs!"npy", by simp, by decide⟩)
  · exact C66_name (.inl ⟨name ++ cs!".", cs!"h5", by simp, by decide⟩)

/-- C66 is false as stated: an ICP file, which has `Filename` in its second line,
is taken for a GRASP file when its first line, which holds the name of the file,
contains the word in any case. -/
theorem C66_two_markers : ∃ c n, Marked .icp c ∧
    detect (fun _ => some c) n = .ok .grasp :=
  ⟨cs!"'grasp001.bt7' 'I'\n  Filename  Date", cs!"grasp001.bt7",
    marked_iff.2 ⟨cs!"  ", cs!"  Date", by decide⟩, by decide⟩

/-- Upper and lower case are the same for every ending but one: `.XYIE` is not
recognised. -/
theorem C66_case_false : detect (fun _ => some cs!"1 2 3") cs!"a.xyie" = .ok .dcsMslice ∧
    detect (fun _ => some cs!"1 2 3") cs!"a.XYIE" = .error .valueError ∧
    detect (fun _ => some cs!"1 2 3") cs!"a.IEXY" = .ok .dcsMslice := by
  decide

example : detect (fun _ => some cs!"# scan = 1\n# date") cs!"scan0001.dat" = .ok .spice := by decide

/-! ### Several files -/

section load
variable {α : Type} [Field α] [LinearOrder α]

theorem loadStep_known (disk : Text → Option Text) (parse : Filetype → Text → Except Err (DataObj α))
    (t : Filetype) (ts : List α) :
    ∀ (files : List Text) (ds : List (DataObj α)) (o : DataObj α),
      files.map (parse t) = ds.map .ok →
      files.foldlM (loadStep disk parse) ⟨.known t, .vec ts, some o⟩ =
        ((ds.foldlM (fun acc e => combineInPlace acc e (some (.vec ts))) o).mapError
          LoadErr.data).map fun o' => (⟨.known t, .vec ts, some o'⟩ : LoadState α) := by
  intro files
  induction files with
  | nil =>
    intro ds o h
    cases ds with
    | nil => rfl
    | cons d ds => simp at h
  | cons f files ih =>
    intro ds o h
    cases ds with
    | nil => simp at h
    | cons d ds =>
      simp only [List.map_cons, List.cons.injEq] at h
      rw [List.foldlM_cons, List.foldlM_cons]
      have hstep : loadStep disk parse ⟨.known t, .vec ts, some o⟩ f =
          ((combineInPlace o d (some (.vec ts))).mapError LoadErr.data).map fun o' =>
            (⟨.known t, .vec ts, some o'⟩ : LoadState α) := by
        simp only [loadStep, resolve, ok_bind, h.1, Except.mapError, spread]
        cases combineInPlace o d (some (.vec ts)) <;> rfl
      rw [hstep]
      cases hc : combineInPlace o d (some (.vec ts)) with
      | error e => rfl
      | ok o' => exact ih ds o' h.2

/-- The general fact behind C67: every file is read by the loader of the type
of the first one. -/
theorem load_as_first {disk : Text → Option Text}
    {parse : Filetype → Text → Except Err (DataObj α)} {arg : TypeArg} {tols : Tols α}
    {f : Text} {files : List Text} {t : Filetype} (ht : resolve disk arg f = .ok t)
    {d : DataObj α} {ds : List (DataObj α)} (hd : parse t f = .ok d)
    (hds : files.map (parse t) = ds.map .ok) :
    loadData disk parse arg tols (f :: files) = (loadFiles tols (d :: ds)).mapError .data := by
  have hts : ∃ ts, spread tols d = .vec ts := by cases tols <;> exact ⟨_, rfl⟩
  obtain ⟨ts, hts⟩ := hts
  have hstep : loadStep disk parse ⟨arg, tols, none⟩ f = .ok ⟨.known t, .vec ts, some d⟩ := by
    simp [loadStep, ht, ok_bind, hd, Except.mapError, hts]
  have hl : loadFiles tols (d :: ds) =
      ds.foldlM (fun acc e => combineInPlace acc e (some (.vec ts))) d := by
    rw [← hts]; rfl
  rw [loadData, List.foldlM_cons, hstep, ok_bind, loadStep_known disk parse t ts files ds d hds, hl]
  cases ds.foldlM (fun acc e => combineInPlace acc e (some (.vec ts))) d <;> rfl

/-- C67.  Files that all have the same type, detected or given, are loaded one
by one, each as its own type, and combined in order.  Missing for the full
claim: files of different types, for which it is false (`C67_mixed`). -/
theorem C67_same_type_partial {disk : Text → Option Text}
    {parse : Filetype → Text → Except Err (DataObj α)} {tols : Tols α}
    {files : List Text} (hne : files ≠ []) {t : Filetype} (ht : ∀ f ∈ files, detect disk f = .ok t)
    {ds : List (DataObj α)} (hds : files.map (parse t) = ds.map .ok) :
    loadData disk parse .auto tols files = (loadFiles tols ds).mapError .data ∧
      ∀ f ∈ files, loadData disk parse .auto tols [f] = (parse t f).mapError .file := by
  constructor
  · cases files with
    | nil => exact absurd rfl hne
    | cons f files =>
      cases ds with
      | nil => simp at hds
      | cons d ds =>
        simp only [List.map_cons, List.cons.injEq] at hds
        exact load_as_first (by simp [resolve, ht f (by simp), Except.mapError]) hds.1 hds.2
  · intro f hf
    cases hp : parse t f with
    | ok d =>
      rw [load_as_first (t := t) (d := d) (ds := []) (by simp [resolve, ht f hf, Except.mapError])
        hp rfl]
      rfl
    | error e =>
      simp [loadData, loadStep, resolve, ht f hf, Except.mapError, ok_bind, hp]
      rfl

theorem known_stays {disk : Text → Option Text}
    {parse : Filetype → Text → Except Err (DataObj α)} {s s' : LoadState α} {t : Filetype} {f : Text}
    (hs : resolve disk s.type f = .ok t) (h : loadStep disk parse s f = .ok s') :
    s'.type = .known t := by
  simp only [loadStep, hs, ok_bind] at h
  rw [bind_eq_ok] at h
  obtain ⟨d, _, h⟩ := h
  split at h
  · obtain rfl := Except.ok.inj h
    rfl
  · rw [bind_eq_ok] at h
    obtain ⟨o', _, h⟩ := h
    obtain rfl := Except.ok.inj h
    rfl

theorem known_loop {disk : Text → Option Text}
    {parse parse' : Filetype → Text → Except Err (DataObj α)} {t : Filetype}
    (hp : ∀ n, parse' t n = parse t n) (files : List Text) :
    ∀ s : LoadState α, s.type = .known t →
      files.foldlM (loadStep disk parse) s = files.foldlM (loadStep disk parse') s := by
  induction files with
  | nil => intro s _; rfl
  | cons f files ih =>
    intro s hs
    have : loadStep disk parse s f = loadStep disk parse' s f := by
      simp only [loadStep, resolve, hs, ok_bind, hp]
    rw [List.foldlM_cons, List.foldlM_cons, this]
    cases hc : loadStep disk parse' s f with
    | error e => rfl
    | ok s' => exact ih s' (known_stays (by simp [resolve, hs]) hc)

/-- C67 is false for files of different types: with the type left to be
detected, all further files are read by the loader of the type of the first
one; the loaders of their own types are never asked. -/
theorem C67_mixed {disk : Text → Option Text}
    {parse parse' : Filetype → Text → Except Err (DataObj α)} {tols : Tols α} {f : Text}
    {t : Filetype} (hf : detect disk f = .ok t) (hp : ∀ n, parse' t n = parse t n)
    (files : List Text) :
    loadData disk parse .auto tols (f :: files) = loadData disk parse' .auto tols (f :: files) := by
  have h1 : resolve disk .auto f = .ok t := by simp [resolve, hf, Except.mapError]
  have hstep : loadStep disk parse (⟨.auto, tols, none⟩ : LoadState α) f =
      loadStep disk parse' ⟨.auto, tols, none⟩ f := by
    simp only [loadStep, h1, ok_bind, hp]
  simp only [loadData, List.foldlM_cons, hstep]
  cases hs : loadStep disk parse' (⟨.auto, tols, none⟩ : LoadState α) f with
  | error e => rfl
  | ok s =>
    rw [ok_bind, ok_bind, known_loop hp files s (known_stays (s := ⟨.auto, tols, none⟩) h1 hs)]

/-- Consequence: two files that load separately may not load together. -/
theorem C67_mixed_false (d : DataObj α) (tols : Tols α) :
    ∃ (disk : Text → Option Text) (parse : Filetype → Text → Except Err (DataObj α)) (f g : Text),
      loadData disk parse .auto tols [f] = .ok d ∧ loadData disk parse .auto tols [g] = .ok d ∧
      loadData disk parse .auto tols [f, g] = .error (.file .ioError) := by
  refine ⟨fun _ => none, fun t n => if (t = .grasp) = (n = cs!"a.nxs") then .ok d else .error .ioError,
    cs!"a.nxs", cs!"b.npy", ?_, ?_, ?_⟩
  · simp [loadData, loadStep, resolve, show detect (fun _ => none) cs!"a.nxs" = .ok .grasp from by decide,
      Except.mapError, ok_bind]
  · simp [loadData, loadStep, resolve, show detect (fun _ => none) cs!"b.npy" = .ok .neutronpy from by decide,
      Except.mapError, ok_bind]
  · simp [loadData, loadStep, resolve, show detect (fun _ => none) cs!"a.nxs" = .ok .grasp from by decide,
      Except.mapError, ok_bind]
    rfl

/-- C67.  An unknown type given by the user is an error whatever the file is. -/
theorem C67_unknown_type (disk : Text → Option Text)
    (parse : Filetype → Text → Except Err (DataObj α)) (tols : Tols α) (f : Text)
    (files : List Text) :
    loadData disk parse .unknown tols (f :: files) = .error (.file .keyError) := rfl

end load

end Verif.FileIO
