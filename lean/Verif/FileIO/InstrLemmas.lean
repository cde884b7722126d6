import Verif.FileIO.Instr
import Verif.Common.Exc

/-! Lemmas about writing and reading instrument files. -/

namespace Verif.FileIO

variable {N : Type}

/-- The texts of numbers are read back and contain none of the characters that
separate fields. -/
structure Numerals.Lawful (nm : Numerals N) : Prop where
  float_str : ∀ x, nm.float (nm.str x) = some x
  str_clean : ∀ x, ∀ c ∈ nm.str x, c ∉ cs!"[]= \n\t\r,t"
  float_blank : nm.float [] = none
  float_comma : ∀ s, ',' ∈ s → nm.float s = none
  cells_length : ∀ xs, (nm.cells xs).length = xs.length
  cells_clean : ∀ xs, ∀ t ∈ nm.cells xs, ∀ c ∈ t, c ∉ cs!"[]=\n\t\r,t"
  /-- blanks stand only before or after a number -/
  cells_blank : ∀ xs, ∀ t ∈ nm.cells xs, ' ' ∈ t → t.head? = some ' ' ∨ t.getLast? = some ' '

/-- A text that survives as the right hand side of a line. -/
structure Clean (s : Text) : Prop where
  eq : '=' ∉ s
  nl : '\n' ∉ s
  inst : ¬ cs!"instrument." <:+: s
  head : ∀ x ∈ s.head?, isSpace x = false
  last : ∀ x ∈ s.getLast?, isSpace x = false

/-- The attribute path the loader sees. -/
def pathOf (g a : Text) : List Text := if g = [] then [a] else [g, a]

/-- What the proofs need of an attribute name. -/
structure Name (s : Text) : Prop where
  clean : Clean s
  dot : '.' ∉ s
  sp : ' ' ∉ s
  word : ¬ cs!"instrument" <:+: s

theorem clean_of_all {s : Text} (h : ∀ c ∈ s, c ∉ cs!"= \n\t\rt") : Clean s where
  eq := fun hc => by have := h _ hc; simp at this
  nl := fun hc => by have := h _ hc; simp at this
  inst := by
    rintro ⟨u, v, huv⟩
    have : 't' ∈ s := by rw [← huv]; simp
    have := h _ this; simp at this
  head := by
    intro x hx
    have := h x (List.mem_of_mem_head? hx)
    simp only [List.mem_cons, not_or, List.not_mem_nil, not_false_eq_true, and_true] at this
    simp [isSpace, this]
  last := by
    intro x hx
    have := h x (List.mem_of_getLast? hx)
    simp only [List.mem_cons, not_or, List.not_mem_nil, not_false_eq_true, and_true] at this
    simp [isSpace, this]

theorem names_ok : ∀ n ∈ savedNames, (n.1 ≠ [] → Name n.1) ∧ Name n.2 := by
  have key : ∀ n ∈ savedNames,
      ('=' ∉ n.1 ∧ '\n' ∉ n.1 ∧ has cs!"instrument." n.1 = false ∧
        (n.1.head?.all fun x => !isSpace x) ∧ (n.1.getLast?.all fun x => !isSpace x) ∧
        '.' ∉ n.1 ∧ ' ' ∉ n.1 ∧ has cs!"instrument" n.1 = false) ∧
      ('=' ∉ n.2 ∧ '\n' ∉ n.2 ∧ has cs!"instrument." n.2 = false ∧
        (n.2.head?.all fun x => !isSpace x) ∧ (n.2.getLast?.all fun x => !isSpace x) ∧
        '.' ∉ n.2 ∧ ' ' ∉ n.2 ∧ has cs!"instrument" n.2 = false) := by decide +kernel
  have mk : ∀ s : Text, ('=' ∉ s ∧ '\n' ∉ s ∧ has cs!"instrument." s = false ∧
        (s.head?.all fun x => !isSpace x) ∧ (s.getLast?.all fun x => !isSpace x) ∧
        '.' ∉ s ∧ ' ' ∉ s ∧ has cs!"instrument" s = false) → Name s := by
    rintro s ⟨h1, h2, h3, h4, h5, h6, h7, h8⟩
    refine ⟨⟨h1, h2, ?_, ?_, ?_⟩, h6, h7, by rw [← has_iff]; simp [h8]⟩
    · rw [← has_iff]; simp [h3]
    · intro x hx
      rw [Option.mem_def.1 hx] at h4; simpa using h4
    · intro x hx
      rw [Option.mem_def.1 hx] at h5; simpa using h5
  exact fun n hn => ⟨fun _ => mk _ (key n hn).1, mk _ (key n hn).2⟩

theorem names_nodup : savedNames.Nodup := by decide +kernel

/-! ### Lines -/

theorem parse_body {p s : Text} (hp : '=' ∉ p) (hn : '\n' ∉ p) (hi : ¬ cs!"instrument." <:+: p)
    (hs : Clean s) :
    parseLine (cs!"instrument." ++ (p ++ (cs!" = " ++ s))) =
      .ok ((split '.' (p ++ [' '])).map strip, s) := by
  have hbody : (p ++ (cs!" = " ++ s)) = (p ++ [' ']) ++ '=' :: (' ' :: s) := by simp
  have hnl : without '\n' (cs!"instrument." ++ (p ++ (cs!" = " ++ s))) =
      cs!"instrument." ++ (p ++ (cs!" = " ++ s)) := by
    apply without_of_notMem
    simp [hn, hs.nl]
  have hinf : ¬ cs!"instrument." <:+: (p ++ (cs!" = " ++ s)) := by
    intro h
    have h1 : p ++ (cs!" = " ++ s) = p ++ ' ' :: ('=' :: ' ' :: s) := by simp
    rw [h1] at h
    rcases infix_append_cons (by simp) h with h | h
    · exact hi h
    · rcases infix_append_cons (a := ['=']) (by simp) h with h | h
      · have := h.length_le; simp at this
      · exact hs.inst h
  rw [parseLine, hnl, erase_append (by simp), erase_of_not_infix hinf, hbody, split_append]
  · have hsp : '=' ∉ (' ' :: s) := by simp [hs.eq]
    rw [split_of_notMem hsp]
    simp only []
    rw [strip_cons_space, strip_of_ends hs.head hs.last]
  · simp [hp]

theorem Name.ne {s : Text} (h : Name s) : strip (s ++ [' ']) = s :=
  strip_append_space h.clean.head h.clean.last

theorem parse_line (nm : Numerals N) {g a : Text} (hg : g ≠ [] → Name g) (ha : Name a)
    (v : Value N) (hv : Clean (v.str nm)) :
    parseLine (lineOf nm g a v) = .ok (pathOf g a, v.str nm) := by
  by_cases h : g = []
  · subst h
    simp only [lineOf, if_true, pathOf]
    rw [parse_body ha.clean.eq ha.clean.nl ha.clean.inst hv, split_of_notMem (by simp [ha.dot])]
    simp [ha.ne]
  · have hg := hg h
    simp only [lineOf, if_neg h, pathOf]
    have e : g ++ '.' :: (a ++ (cs!" = " ++ v.str nm)) = (g ++ '.' :: a) ++ (cs!" = " ++ v.str nm) := by
      simp
    rw [e, parse_body]
    · rw [List.append_assoc, List.cons_append, split_append hg.dot,
        split_of_notMem (by simp [ha.dot])]
      simp [ha.ne, strip_of_ends hg.clean.head hg.clean.last]
    · simp [hg.clean.eq, ha.clean.eq]
    · simp [hg.clean.nl, ha.clean.nl]
    · rintro ⟨u, w, huw⟩
      -- the pattern ends with the dot, and `g` does not contain it
      have hpat : cs!"instrument." = cs!"instrument" ++ '.' :: [] := by simp
      rw [hpat] at huw
      have e1 : u ++ (cs!"instrument" ++ ['.']) ++ w = (u ++ cs!"instrument") ++ '.' :: w := by simp
      rw [e1] at huw
      rcases List.append_eq_append_iff.1 huw with ⟨z, h1, h2⟩ | ⟨z, h1, h2⟩
      · cases z with
        | nil =>
          simp only [List.append_nil] at h1
          exact hg.word ⟨u, [], by rw [h1]; simp⟩
        | cons y ys =>
          simp only [List.cons_append, List.cons.injEq] at h2
          exact hg.dot (by rw [h1, ← h2.1]; simp)
      · cases z with
        | nil =>
          simp only [List.append_nil] at h1
          exact hg.word ⟨u, [], by rw [← h1]; simp⟩
        | cons y ys =>
          simp only [List.cons_append, List.cons.injEq] at h2
          exact ha.dot (by rw [h2.2]; simp)
    · exact hv

/-! ### Values -/

/-- A value that is read back. -/
def Value.Plain (nm : Numerals N) : Value N → Prop
  | .num _ => True
  | .text s => Clean s ∧ '[' ∉ s ∧ nm.float s = Option.none
  | .arr xs => xs ≠ [] ∧ (nm.cells xs).map nm.float = xs.map some ∧ ∀ t ∈ nm.cells xs, ' ' ∉ t
  | .list xs => xs.length = 1
  | .none => False

/-- The value the loader returns for a value that was saved: an array comes
back as a list. -/
def Value.loaded : Value N → Value N
  | .arr xs => .list xs
  | v => v

theorem floats_of_map {nm : Numerals N} {ts : List Text} {xs : List N}
    (h : ts.map nm.float = xs.map some) : floats nm ts = .ok xs := by
  induction ts generalizing xs with
  | nil => cases xs with
    | nil => rfl
    | cons x xs => simp at h
  | cons t ts ih => cases xs with
    | nil => simp at h
    | cons x xs =>
      simp only [List.map_cons, List.cons.injEq] at h
      simp [floats, h.1, ih h.2, Except.map]

theorem floats_fails {nm : Numerals N} {ts : List Text} {t : Text} (ht : t ∈ ts)
    (h : nm.float t = none) : floats nm ts = .error .valueError := by
  induction ts with
  | nil => simp at ht
  | cons s ts ih =>
    rcases List.mem_cons.1 ht with rfl | ht
    · simp [floats, h]
    · simp only [floats]
      cases nm.float s with
      | none => rfl
      | some x => simp [ih ht, Except.map]

theorem brackets {s : Text} (h1 : '[' ∉ s) (h2 : ']' ∉ s) :
    without '[' (without ']' ('[' :: s ++ [']'])) = s := by
  have e : without ']' ('[' :: s ++ [']']) = '[' :: s := by
    rw [show ('[' :: s ++ [']'] : Text) = ('[' :: s) ++ [']'] from rfl, without_append,
      without_of_notMem (by simp [h2])]
    simp [without]
  rw [e, show ('[' :: s : Text) = ['['] ++ s from rfl, without_append, without_of_notMem h1]
  simp [without]

theorem bracket_clean {s : Text} (h : ∀ c ∈ s, c ∉ cs!"=\n\t\rt") : Clean ('[' :: s ++ [']']) where
  eq := fun hc => by
    simp only [List.cons_append, List.mem_cons, List.mem_append, List.not_mem_nil, or_false] at hc
    rcases hc with hc | hc | hc
    · simp at hc
    · have := h _ hc; simp at this
    · simp at hc
  nl := fun hc => by
    simp only [List.cons_append, List.mem_cons, List.mem_append, List.not_mem_nil, or_false] at hc
    rcases hc with hc | hc | hc
    · simp at hc
    · have := h _ hc; simp at this
    · simp at hc
  inst := by
    rintro ⟨u, v, huv⟩
    have : 't' ∈ ('[' :: s ++ [']']) := by rw [← huv]; simp
    simp only [List.cons_append, List.mem_cons, List.mem_append, List.not_mem_nil, or_false] at this
    rcases this with hc | hc | hc
    · simp at hc
    · have := h _ hc; simp at this
    · simp at hc
  head := by intro x hx; simp at hx; simp [← hx, isSpace]
  last := by
    intro x hx
    rw [List.getLast?_append] at hx
    simp at hx; simp [← hx, isSpace]

theorem cells_join_clean {nm : Numerals N} (h : nm.Lawful) (xs : List N) :
    ∀ c ∈ join ' ' (nm.cells xs), c ∉ cs!"[]=\n\t\r,t" := by
  intro c hc
  rcases mem_join hc with rfl | ⟨t, ht, hct⟩
  · simp
  · exact h.cells_clean xs t ht c hct

theorem commaJoin_clean {nm : Numerals N} (h : nm.Lawful) (xs : List N) :
    ∀ c ∈ commaJoin (xs.map nm.str), c ∉ cs!"[]=\n\t\rt" := by
  induction xs with
  | nil => simp [commaJoin]
  | cons x xs ih =>
    have hx : ∀ c ∈ nm.str x, c ∉ cs!"[]=\n\t\rt" := by
      intro c hc
      have := h.str_clean x c hc
      simp only [List.mem_cons, not_or, List.not_mem_nil, not_false_eq_true, and_true] at this ⊢
      tauto
    cases xs with
    | nil => simpa [commaJoin] using hx
    | cons y ys =>
      intro c hc
      rw [List.map_cons, List.map_cons, commaJoin] at hc
      · rcases List.mem_append.1 hc with hc | hc
        · exact hx c hc
        · rcases List.mem_cons.1 hc with rfl | hc
          · simp
          · rcases List.mem_cons.1 hc with rfl | hc
            · simp
            · exact ih c hc
      · simp

theorem sub_clean {s : Text} {p q : Text} (hpq : ∀ c ∈ q, c ∈ p) (h : ∀ c ∈ s, c ∉ p) :
    ∀ c ∈ s, c ∉ q := fun c hc hq => h c hc (hpq c hq)

/-- Every value but a string with special characters is clean. -/
theorem str_clean {nm : Numerals N} (h : nm.Lawful) (v : Value N)
    (hv : ∀ s, v = .text s → Clean s) : Clean (v.str nm) := by
  cases v with
  | num x => exact clean_of_all (sub_clean (by decide) (h.str_clean x))
  | text s => exact hv s rfl
  | arr xs => exact bracket_clean (sub_clean (by decide) (cells_join_clean h xs))
  | list xs => exact bracket_clean (sub_clean (by decide) (commaJoin_clean h xs))
  | none =>
    exact clean_of_all (s := cs!"None") (by decide)

theorem Value.Plain.clean {nm : Numerals N} (h : nm.Lawful) {v : Value N} (hv : v.Plain nm) :
    Clean (v.str nm) :=
  str_clean h v (by rintro s rfl; exact hv.1)

theorem read_plain {nm : Numerals N} (h : nm.Lawful) {v : Value N} (hv : v.Plain nm) :
    readValue nm (v.str nm) = .ok v.loaded := by
  cases v with
  | num x =>
    have : '[' ∉ nm.str x := fun hc => by have := h.str_clean x _ hc; simp at this
    simp [readValue, Value.str, this, h.float_str, Value.loaded]
  | text s =>
    obtain ⟨_, h1, h2⟩ := hv
    simp [readValue, Value.str, h1, h2, Value.loaded]
  | arr xs =>
    obtain ⟨hne, hf, hsp⟩ := hv
    have hc := cells_join_clean h xs
    have hl := h.cells_length xs
    have hne' : nm.cells xs ≠ [] := by
      intro e; rw [e] at hl; exact hne (List.length_eq_zero_iff.1 hl.symm)
    rw [readValue, Value.str, if_pos (by simp), brackets
      (fun hx => by have := hc _ hx; simp at this) (fun hx => by have := hc _ hx; simp at this),
      split_join hsp hne', floats_of_map hf]
    rfl
  | list xs =>
    match xs, hv with
    | [x], _ =>
      have hc := h.str_clean x
      rw [readValue, Value.str, if_pos (by simp)]
      simp only [List.map_cons, List.map_nil, commaJoin]
      rw [brackets (fun hx => by have := hc _ hx; simp at this)
          (fun hx => by have := hc _ hx; simp at this),
        split_of_notMem (fun hx => by have := hc _ hx; simp at this)]
      simp [floats, h.float_str, Except.map, Value.loaded]
  | none => exact hv.elim

theorem split_two (c : Char) (a b : Text) : split c (a ++ c :: b) = split c a ++ split c b := by
  induction a with
  | nil => simp [split]
  | cons x xs ih =>
    simp only [List.cons_append, split]
    by_cases hx : x = c
    · simp [hx, ih]
    · simp only [if_neg hx, ih]
      cases h : split c xs with
      | nil => exact absurd h (split_ne_nil c xs)
      | cons w ws => simp

theorem split_join_all {c : Char} (ts : List Text) (h : ts ≠ []) :
    split c (join c ts) = ts.flatMap (split c) := by
  induction ts with
  | nil => exact absurd rfl h
  | cons t ts ih =>
    cases ts with
    | nil => simp [join]
    | cons u us =>
      rw [join, split_two, ih (by simp)]
      · simp
      · simp

/-- An array with a padded element cannot be read. -/
theorem read_padded {nm : Numerals N} (h : nm.Lawful) {xs : List N} {t : Text}
    (ht : t ∈ nm.cells xs) (hsp : ' ' ∈ t) :
    readValue nm (Value.str nm (.arr xs)) = .error .valueError := by
  have hc := cells_join_clean h xs
  rw [readValue, Value.str, if_pos (by simp), brackets
      (fun hx => by have := hc _ hx; simp at this) (fun hx => by have := hc _ hx; simp at this)]
  have hmem : ([] : Text) ∈ split ' ' (join ' ' (nm.cells xs)) := by
    rw [split_join_all _ (List.ne_nil_of_mem ht), List.mem_flatMap]
    refine ⟨t, ht, ?_⟩
    rcases h.cells_blank xs t ht hsp with hb | hb
    · obtain ⟨t', rfl⟩ := List.head?_eq_some_iff.1 hb
      simp [split]
    · obtain ⟨t', rfl⟩ := List.getLast?_eq_some_iff.1 hb
      rw [split_two]
      simp [split]
  rw [floats_fails hmem h.float_blank]
  rfl

/-- A Python list of two or more numbers cannot be read. -/
theorem read_list {nm : Numerals N} (h : nm.Lawful) {xs : List N} (hx : 2 ≤ xs.length) :
    readValue nm (Value.str nm (.list xs)) = .error .valueError := by
  have hc := commaJoin_clean h xs
  rw [readValue, Value.str, if_pos (by simp), brackets
      (fun hx => by have := hc _ hx; simp at this) (fun hx => by have := hc _ hx; simp at this)]
  match xs, hx with
  | x :: y :: zs, _ =>
    have hsp : ' ' ∉ nm.str x ++ [','] := by
      intro hm
      rcases List.mem_append.1 hm with hm | hm
      · have := h.str_clean x _ hm; simp at this
      · simp at hm
    have e : commaJoin ((x :: y :: zs).map nm.str) =
        (nm.str x ++ [',']) ++ ' ' :: commaJoin ((y :: zs).map nm.str) := by
      rw [List.map_cons, List.map_cons, commaJoin]
      · simp
      · simp
    rw [e, split_append hsp, floats_fails (t := nm.str x ++ [',']) (by simp)
      (h.float_comma _ (by simp))]
    rfl

end Verif.FileIO
