import Verif.FileIO.InstrProps

/-!
# Instrument files with whole numbers

The exact formatting of whole numbers satisfies the laws the theorems about
instrument files assume; ordinary instruments show where C65 and C97 fail.
-/

namespace Verif.FileIO

theorem digit_ok : ∀ k < 10, (digit k).isDigit = true ∧ (digit k).toNat - 48 = k := by decide

theorem natDigits_digit (n : Nat) : ∀ c ∈ natDigits n, c.isDigit = true := by
  induction n using Nat.strongRecOn with
  | ind n ih =>
    rw [natDigits]
    split
    · intro c hc
      rw [List.mem_singleton.1 hc]
      exact (digit_ok n (by assumption)).1
    · intro c hc
      rcases List.mem_append.1 hc with hc | hc
      · exact ih (n / 10) (by omega) c hc
      · rw [List.mem_singleton.1 hc]
        exact (digit_ok _ (Nat.mod_lt _ (by omega))).1

theorem natDigits_value (n : Nat) :
    (natDigits n).foldl (fun n c => 10 * n + (c.toNat - 48)) 0 = n := by
  induction n using Nat.strongRecOn with
  | ind n ih =>
    rw [natDigits]
    split
    · simpa using (digit_ok n (by assumption)).2
    · rw [List.foldl_append, ih (n / 10) (by omega)]
      simp only [List.foldl_cons, List.foldl_nil]
      rw [(digit_ok (n % 10) (by omega)).2]
      omega

theorem natDigits_ne (n : Nat) : natDigits n ≠ [] := by
  rw [natDigits]; split <;> simp

theorem len1 {n : Nat} (h : n < 10) : (natDigits n).length = 1 := by
  rw [natDigits, if_pos h]; rfl

theorem len2 {n : Nat} (h : 10 ≤ n) (h' : n < 100) : (natDigits n).length = 2 := by
  rw [natDigits, if_neg (by omega), List.length_append, len1 (by omega)]; rfl

theorem len3 {n : Nat} (h : 100 ≤ n) (h' : n < 1000) : (natDigits n).length = 3 := by
  rw [natDigits, if_neg (by omega), List.length_append, len2 (by omega) (by omega)]; rfl

theorem natOf_digits (n : Nat) : natOf (natDigits n) = some n := by
  cases h : natDigits n with
  | nil => exact absurd h (natDigits_ne n)
  | cons c cs =>
    have h1 : (c :: cs).all Char.isDigit = true := by
      rw [← h, List.all_eq_true]; exact natDigits_digit n
    have h2 := natDigits_value n
    rw [h] at h2
    simp only [natOf, h1, if_true]
    rw [h2]

theorem intFloat_str (x : Int) : intFloat (intStr x) = some x := by
  cases x with
  | ofNat n =>
    have hd := natDigits_digit n
    cases h : natDigits n with
    | nil => exact absurd h (natDigits_ne n)
    | cons c cs =>
      have hc : c ≠ '-' := by
        rintro rfl
        have := hd '-' (by rw [h]; simp)
        revert this; decide
      have he : intFloat (c :: cs) = (natOf (c :: cs)).map Int.ofNat := by
        unfold intFloat
        split
        · rename_i heq; exact absurd (List.cons.inj heq).1 hc
        · rfl
      show intFloat (natDigits n) = _
      rw [h, he, ← h, natOf_digits]
      rfl
  | negSucc n =>
    simp only [intStr, intFloat]
    rw [natOf_digits]
    simp [Int.negSucc_eq]

theorem intStr_chars (x : Int) : ∀ c ∈ intStr x, c.isDigit = true ∨ c = '-' := by
  intro c hc
  cases x with
  | ofNat n => exact .inl (natDigits_digit n c hc)
  | negSucc n =>
    rcases List.mem_cons.1 hc with rfl | hc
    · exact .inr rfl
    · exact .inl (natDigits_digit _ c hc)

theorem sep_not_digit : ∀ c ∈ cs!"[]= \n\t\r,t", ¬ (c.isDigit = true ∨ c = '-') := by decide

theorem natOf_digits_only {s : Text} {n : Nat} (h : natOf s = some n) : ∀ c ∈ s, c.isDigit = true := by
  cases s with
  | nil => simp
  | cons x xs =>
    simp only [natOf] at h
    split at h
    · rename_i h1; exact fun c hc => List.all_eq_true.1 h1 c hc
    · cases h

theorem intFloat_chars {s : Text} {x : Int} (h : intFloat s = some x) :
    ∀ c ∈ s, c.isDigit = true ∨ c = '-' := by
  unfold intFloat at h
  split at h
  · rename_i s'
    cases hn : natOf s' with
    | none => rw [hn] at h; cases h
    | some n =>
    intro c hc
    rcases List.mem_cons.1 hc with rfl | hc
    · exact .inr rfl
    · exact .inl (natOf_digits_only hn c hc)
  · rw [Option.map_eq_some_iff] at h
    obtain ⟨n, hn, _⟩ := h
    exact fun c hc => .inl (natOf_digits_only hn c hc)

/-- Whole numbers satisfy the laws the theorems assume. -/
theorem intNumerals_lawful : intNumerals.Lawful where
  float_str := intFloat_str
  str_clean := fun x c hc hs => sep_not_digit c hs (intStr_chars x c hc)
  float_blank := rfl
  float_comma := by
    intro s hs
    cases h : intNumerals.float s with
    | none => rfl
    | some x =>
      exact absurd (intFloat_chars h ',' hs) (by decide)
  cells_length := by intro xs; simp [intNumerals, intCells]
  cells_clean := by
    intro xs t ht c hc hs
    simp only [intNumerals, intCells, List.map_map, List.mem_map, Function.comp] at ht
    obtain ⟨x, _, rfl⟩ := ht
    rcases List.mem_append.1 hc with hc | hc
    · rw [(List.mem_replicate.1 hc).2] at hs
      revert hs; decide
    · exact sep_not_digit c (by
        have : ∀ c ∈ cs!"[]=\n\t\r,t", c ∈ cs!"[]= \n\t\r,t" := by decide
        exact this c hs) (intStr_chars x c hc)
  cells_blank := by
    intro xs t ht hs
    simp only [intNumerals, intCells, List.map_map, List.mem_map, Function.comp] at ht
    obtain ⟨x, _, rfl⟩ := ht
    rcases List.mem_append.1 hs with hc | hc
    · left
      obtain ⟨hn, _⟩ := List.mem_replicate.1 hc
      obtain ⟨k, hk⟩ := Nat.exists_eq_succ_of_ne_zero hn
      rw [hk]
      simp [List.replicate_succ]
    · exact absurd (intStr_chars x ' ' hc) (by decide)

/-- A vector of whole numbers is padded as soon as two of them have texts of
different lengths. -/
theorem padded_of_widths {xs : List Int} {x y : Int} (hx : x ∈ xs) (hy : y ∈ xs)
    (h : (intStr x).length < (intStr y).length) : ∃ t ∈ intNumerals.cells xs, ' ' ∈ t := by
  have hw : (intStr y).length ≤ width (xs.map intStr) := by
    have : ∀ ts : List Text, ∀ t ∈ ts, t.length ≤ width ts := by
      intro ts
      induction ts with
      | nil => simp
      | cons a ts ih =>
        intro t ht
        simp only [width, List.map_cons, List.foldr_cons] at ih ⊢
        rcases List.mem_cons.1 ht with rfl | ht
        · exact le_max_left _ _
        · exact le_trans (ih t ht) (le_max_right _ _)
    exact this _ _ (List.mem_map_of_mem hy)
  refine ⟨List.replicate (width (xs.map intStr) - (intStr x).length) ' ' ++ intStr x, ?_, ?_⟩
  · simp only [intNumerals, intCells, List.map_map, List.mem_map, Function.comp]
    exact ⟨x, hx, rfl⟩
  · rw [List.mem_append]
    left
    rw [List.mem_replicate]
    exact ⟨by omega, rfl⟩

theorem plain_of_widths {xs : List Int} (hne : xs ≠ []) {k : Nat}
    (h : ∀ x ∈ xs, (intStr x).length = k) : Value.Plain intNumerals (.arr xs) := by
  have hw : ∀ ts : List Text, (∀ t ∈ ts, t.length = k) → width ts ≤ k := by
    intro ts
    induction ts with
    | nil => simp [width]
    | cons a ts ih =>
      intro ht
      simp only [width, List.map_cons, List.foldr_cons] at ih ⊢
      exact max_le (ht a (by simp)).le (ih fun t hts => ht t (by simp [hts]))
  have hc : intNumerals.cells xs = xs.map intStr := by
    simp only [intNumerals, intCells, List.map_map]
    apply List.map_congr_left
    intro x hx
    have := hw (xs.map intStr) (by simpa using h)
    have hz : width (xs.map intStr) - (intStr x).length = 0 := by rw [h x hx]; omega
    simp [hz]
  refine ⟨hne, ?_, ?_⟩
  · rw [hc, List.map_map]
    apply List.map_congr_left
    intro x _
    exact intFloat_str x
  · rw [hc]
    intro t ht
    obtain ⟨x, _, rfl⟩ := List.mem_map.1 ht
    intro hsp
    exact absurd (intStr_chars x ' ' hsp) (by decide)

/-- C65 is false in ordinary cases: an instrument with whole-number collimations
of different lengths (`hcol = np.array([40, 40, 120, 120])`), or oriented along
a direction with a negative index (`sample.u = [1, -1, 0]`), is saved without
complaint and cannot be loaded. -/
theorem C65_whole_numbers (accepts : Value Int → Bool) (start : Obj Int) {o : Obj Int}
    {n : Text × Text} (hn : n ∈ savedNames) {xs : List Int}
    (hv : o.get n.1 n.2 = some (.arr xs)) {x y : Int} (hx : x ∈ xs) (hy : y ∈ xs)
    (h : (intStr x).length < (intStr y).length) :
    ¬ RoundTrips intNumerals accepts start o := by
  obtain ⟨t, ht, hsp⟩ := padded_of_widths hx hy h
  exact (C65_padded_array intNumerals_lawful accepts start hn hv ht hsp).1

/-! ### Examples -/

/-- The instrument `Instrument()` with whole-number attributes, and with the
collimations and first orientation vector given
(tas_instrument.py 96-123). -/
def plainInstrument (hcol u : List Int) : Obj Int where
  own := fun a =>
    if a = cs!"efixed" then some (.num 15)
    else if a = cs!"hcol" then some (.arr hcol)
    else if a = cs!"vcol" then some (.arr [120, 120, 120, 120])
    else none
  parts := fun g =>
    if g = cs!"mono" ∨ g = cs!"ana" then some fun a =>
      if a = cs!"tau" then some (.text cs!"PG(002)")
      else if a = cs!"mosaic" then some (.num 25)
      else if a = cs!"direct" then some (.num (-1))
      else none
    else if g = cs!"sample" then some fun a =>
      if a = cs!"a" then some (.num 6)
      else if a = cs!"u" then some (.arr u)
      else if a = cs!"v" then some (.arr [0, 1, 0])
      else none
    else if g = cs!"detector" ∨ g = cs!"guide" ∨ g = cs!"monitor" then some fun _ => none
    else none

theorem clean_pg : Clean cs!"PG(002)" := clean_of_all (by decide)

theorem plain_instrument_plain {hcol u : List Int}
    (hh : Value.Plain intNumerals (.arr hcol)) (hu : Value.Plain intNumerals (.arr u)) :
    ∀ n ∈ savedNames, ∀ v, (plainInstrument hcol u).get n.1 n.2 = some v → v.Plain intNumerals := by
  have h1 : Value.Plain intNumerals (.arr [120, 120, 120, 120]) :=
    plain_of_widths (k := 3) (by simp) (by
      intro x hx
      obtain rfl : x = 120 := by simpa using hx
      exact len3 (n := 120) (by omega) (by omega))
  have h3 : Value.Plain intNumerals (.arr [0, 1, 0]) :=
    plain_of_widths (k := 1) (by simp) (by
      intro x hx
      obtain rfl | rfl : x = 0 ∨ x = 1 := by
        simp only [List.mem_cons, List.not_mem_nil, or_false] at hx
        tauto
      · exact len1 (n := 0) (by omega)
      · exact len1 (n := 1) (by omega))
  have h4 : Value.Plain intNumerals (.text cs!"PG(002)") := ⟨clean_pg, by decide, by decide⟩
  intro n hn v hv
  simp only [plainInstrument, Obj.get] at hv
  by_cases hg : n.1 = []
  · rw [if_pos hg] at hv
    split_ifs at hv <;> cases hv
    all_goals trivial
  · rw [if_neg hg] at hv
    by_cases h5 : n.1 = cs!"mono" ∨ n.1 = cs!"ana"
    · simp only [if_pos h5] at hv
      split_ifs at hv <;> cases hv
      all_goals trivial
    · simp only [if_neg h5] at hv
      by_cases h6 : n.1 = cs!"sample"
      · simp only [if_pos h6] at hv
        split_ifs at hv <;> cases hv
        all_goals trivial
      · simp only [if_neg h6] at hv
        by_cases h7 : n.1 = cs!"detector" ∨ n.1 = cs!"guide" ∨ n.1 = cs!"monitor"
        · simp only [if_pos h7] at hv; cases hv
        · simp only [if_neg h7] at hv; cases hv

theorem plainInstrument_parts (h u h' u' : List Int) : ∀ n ∈ savedNames, n.1 ≠ [] →
    ((plainInstrument h u).get n.1 n.2).isSome → ((plainInstrument h' u').parts n.1).isSome := by
  intro n _ hne hs
  simp only [Obj.get, if_neg hne] at hs
  simp only [plainInstrument] at hs ⊢
  split_ifs at hs ⊢ <;> simp_all

/-- An instrument that meets the hypotheses of `C65_roundtrip_partial`,
`C65_second_save`, `C97_partial` and `C98_overwrite_partial`; it is
loaded with `orient1 = [1, 1, 0]`, although `Instrument()` has `[1, 0, 0]`. -/
theorem plain_instrument_loads : ∃ s,
    load intNumerals (fun _ => true) (plainInstrument [40, 40, 40, 40] [1, 0, 0])
      (render intNumerals (plainInstrument [40, 40, 80, 80] [1, 1, 0])) = .ok s ∧
    s.orient1 = some (.arr [1, 1, 0]) ∧ s.orient2 = some (.arr [0, 1, 0]) ∧
    s.own cs!"hcol" = some (.list [40, 40, 80, 80]) := by
  have hp := plain_instrument_plain (hcol := [40, 40, 80, 80]) (u := [1, 1, 0])
    (plain_of_widths (k := 2) (by simp) (by
      intro x hx
      obtain rfl | rfl : x = 40 ∨ x = 80 := by simpa using hx
      · exact len2 (n := 40) (by omega) (by omega)
      · exact len2 (n := 80) (by omega) (by omega)))
    (plain_of_widths (k := 1) (by simp) (by
      intro x hx
      obtain rfl | rfl : x = 1 ∨ x = 0 := by simpa using hx
      · exact len1 (n := 1) (by omega)
      · exact len1 (n := 0) (by omega)))
  have hq := plainInstrument_parts [40, 40, 80, 80] [1, 1, 0] [40, 40, 40, 40] [1, 0, 0]
  obtain ⟨s, hs, hg⟩ := load_saved intNumerals_lawful (accepts := fun _ => true)
    (start := plainInstrument [40, 40, 40, 40] [1, 0, 0]) hp (fun _ _ _ _ _ => rfl) hq
  obtain ⟨s', hs', h1, h2⟩ := C97_partial intNumerals_lawful (accepts := fun _ => true) hp
    (fun _ _ _ _ _ _ _ => rfl) hq rfl rfl
  obtain rfl := Except.ok.inj (hs.symm.trans hs')
  refine ⟨s, hs, h1, h2, ?_⟩
  have := hg [] cs!"hcol"
  rw [if_pos ⟨by decide +kernel, rfl⟩] at this
  simpa [Obj.get, plainInstrument, Value.loaded, stored] using this

/-- A line written by hand meets the hypotheses of `C97_orient_line`. -/
example : ∃ s, load intNumerals (fun _ => true) (plainInstrument [40, 40, 40, 40] [1, 0, 0])
    (cs!"instrument.orient2 = " ++ cs!"[0 0 1]") = .ok s ∧ s.orient2 = some (.arr [0, 0, 1]) ∧
    s.orient1 = some (.arr [1, 0, 0]) :=
  (C97_orient_line (t := cs!"[0 0 1]") (u := [0, 0, 1]) rfl (by
    refine ⟨by decide, by decide, fun h => ?_, by decide, by decide⟩
    have := h.subset (show 's' ∈ _ by simp)
    simp at this) (by decide +kernel)).2

/-- The usual direction `[1, -1, 0]` and the usual mixture of collimations
cannot be loaded. -/
example (accepts : Value Int → Bool) (start : Obj Int) :
    ¬ RoundTrips intNumerals accepts start (plainInstrument [40, 40, 40, 40] [1, -1, 0]) ∧
    ¬ RoundTrips intNumerals accepts start (plainInstrument [40, 40, 120, 120] [1, 0, 0]) :=
  ⟨C65_whole_numbers accepts start (n := (cs!"sample", cs!"u")) (by decide +kernel) rfl
      (x := 1) (y := -1) (by simp) (by simp) (by
        show (natDigits 1).length < (natDigits (0 + 1)).length + 1
        simp),
   C65_whole_numbers accepts start (n := ([], cs!"hcol")) (by decide +kernel) rfl
      (x := 40) (y := 120) (by simp) (by simp) (by
        show (natDigits 40).length < (natDigits 120).length
        rw [len2 (by omega) (by omega), len3 (by omega) (by omega)]
        omega)⟩

end Verif.FileIO
