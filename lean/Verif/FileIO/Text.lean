import Mathlib.Data.List.Basic
import Mathlib.Data.List.Infix
import Verif.Common.Chars

/-!
# Python string operations used by `neutronpy/fileio`

Strings are lists of characters.  Only the operations the modelled code calls
are defined; each comment says which Python method it stands for.
-/

namespace Verif.FileIO

/-- A Python string. -/
abbrev Text := List Char

/-- `s.split(c)` for a one-character separator: never empty, keeps empty pieces
(used in fileio/instrument.py 397, 398, 411). -/
def split (c : Char) : Text → List Text
  | [] => [[]]
  | x :: xs =>
    if x = c then [] :: split c xs
    else match split c xs with
      | [] => [[x]]
      | w :: ws => (x :: w) :: ws

/-- `c.join(parts)` for a one-character separator. -/
def join (c : Char) : List Text → Text
  | [] => []
  | [w] => w
  | w :: ws => w ++ c :: join c ws

/-- `s.replace(pat, '')` for a non-empty `pat`: occurrences are removed from
the left, without overlaps (fileio/instrument.py 397).  The first argument
counts characters of an occurrence that remain to be dropped. -/
def eraseFrom (pat : Text) : Nat → Text → Text
  | _, [] => []
  | k + 1, _ :: xs => eraseFrom pat k xs
  | 0, x :: xs =>
    if pat.isPrefixOf (x :: xs) then eraseFrom pat (pat.length - 1) xs
    else x :: eraseFrom pat 0 xs

/-- `s.replace(pat, '')`. -/
def erase (pat : Text) (s : Text) : Text := eraseFrom pat 0 s

/-- `s.replace(c, '')` for a single character. -/
def without (c : Char) (s : Text) : Text := s.filter (· ≠ c)

/-- The characters `str.strip()` removes; other Unicode white space is not
modelled. -/
def isSpace (c : Char) : Bool := c = ' ' || c = '\t' || c = '\n' || c = '\r'

/-- `s.strip()` (fileio/instrument.py 400, 402). -/
def strip (s : Text) : Text := ((s.dropWhile isSpace).reverse.dropWhile isSpace).reverse

/-- `pat in s`. -/
def has (pat s : Text) : Bool := s.tails.any (fun t => pat.isPrefixOf t)

/-- `for line in f` on a text file: the pieces between line ends, without a last
empty piece.  The line ends themselves are left out: every caller removes or
ignores them.  Only `'\n'` ends a line. -/
def fileLines (s : Text) : List Text :=
  let ps := split '\n' s
  if ps.getLast? = some [] then ps.dropLast else ps

/-! ### Lemmas -/

theorem split_ne_nil (c : Char) (s : Text) : split c s ≠ [] := by
  cases s with
  | nil => simp [split]
  | cons x xs =>
    simp only [split]
    split
    · simp
    · split <;> simp

theorem split_of_notMem {c : Char} {s : Text} (h : c ∉ s) : split c s = [s] := by
  induction s with
  | nil => rfl
  | cons x xs ih =>
    simp only [List.mem_cons, not_or] at h
    simp [split, Ne.symm h.1, ih h.2]

theorem split_append {c : Char} {w : Text} (h : c ∉ w) (s : Text) :
    split c (w ++ c :: s) = w :: split c s := by
  induction w with
  | nil => simp [split]
  | cons x xs ih =>
    simp only [List.mem_cons, not_or] at h
    simp [split, Ne.symm h.1, ih h.2]

theorem split_join {c : Char} {ws : List Text} (h : ∀ w ∈ ws, c ∉ w) (hn : ws ≠ []) :
    split c (join c ws) = ws := by
  induction ws with
  | nil => exact absurd rfl hn
  | cons w ws ih =>
    cases ws with
    | nil => simpa [join] using split_of_notMem (h w (by simp))
    | cons w' ws' =>
      rw [join, split_append (h w (by simp)), ih (fun v hv => h v (by simp [hv])) (by simp)]
      simp

theorem mem_join {c x : Char} {ws : List Text} (h : x ∈ join c ws) :
    x = c ∨ ∃ w ∈ ws, x ∈ w := by
  induction ws with
  | nil => simp [join] at h
  | cons w ws ih =>
    cases ws with
    | nil => exact .inr ⟨w, by simp, by simpa [join] using h⟩
    | cons w' ws' =>
      rw [join] at h
      · rcases List.mem_append.1 h with h | h
        · exact .inr ⟨w, by simp, h⟩
        · rcases List.mem_cons.1 h with h | h
          · exact .inl h
          · rcases ih h with h | ⟨v, hv, hx⟩
            · exact .inl h
            · exact .inr ⟨v, by simp [hv], hx⟩
      · simp

theorem eraseFrom_zero_of_not_infix {pat s : Text} (h : ¬ pat <:+: s) : eraseFrom pat 0 s = s := by
  induction s with
  | nil => rfl
  | cons x xs ih =>
    have h1 : pat.isPrefixOf (x :: xs) = false := by
      by_contra hp
      simp only [Bool.not_eq_false, List.isPrefixOf_iff_prefix] at hp
      exact h hp.isInfix
    have h2 : ¬ pat <:+: xs := fun hi => h (hi.trans (List.suffix_cons x xs).isInfix)
    simp only [eraseFrom, h1]
    rw [ih h2]
    simp

theorem erase_of_not_infix {pat s : Text} (h : ¬ pat <:+: s) : erase pat s = s :=
  eraseFrom_zero_of_not_infix h

theorem eraseFrom_drop (pat : Text) (k : Nat) (s : Text) :
    eraseFrom pat k s = eraseFrom pat 0 (s.drop k) := by
  induction k generalizing s with
  | zero => rfl
  | succ k ih =>
    cases s with
    | nil => simp [eraseFrom]
    | cons x xs => simpa [eraseFrom] using ih xs

theorem erase_append {pat : Text} (hp : pat ≠ []) (s : Text) : erase pat (pat ++ s) = erase pat s := by
  cases pat with
  | nil => exact absurd rfl hp
  | cons x xs =>
    have h : (x :: xs).isPrefixOf (x :: (xs ++ s)) = true := by
      rw [List.isPrefixOf_iff_prefix]; exact ⟨s, by simp⟩
    show eraseFrom _ 0 (x :: (xs ++ s)) = _
    simp only [eraseFrom, h, if_true]
    rw [eraseFrom_drop]
    simp [erase]

/-- A separator that the pattern does not contain cannot lie inside an
occurrence. -/
theorem infix_append_cons {pat a b : Text} {c : Char} (hc : c ∉ pat) :
    pat <:+: a ++ c :: b → pat <:+: a ∨ pat <:+: b := by
  rintro ⟨u, v, h⟩
  rw [List.append_assoc] at h
  rcases List.append_eq_append_iff.1 h with ⟨w, h1, h2⟩ | ⟨w, h1, h2⟩
  · -- a = u ++ w, pat ++ v = w ++ c :: b
    rcases List.append_eq_append_iff.1 h2 with ⟨z, h3, h4⟩ | ⟨z, h3, h4⟩
    · left; exact ⟨u, z, by rw [h1, h3]; simp⟩
    · cases z with
      | nil => left; exact ⟨u, [], by simp [h1, h3]⟩
      | cons y ys =>
        simp only [List.cons_append, List.cons.injEq] at h4
        exact absurd (by rw [h3, h4.1]; simp) hc
  · -- u = a ++ w, c :: b = w ++ (pat ++ v)
    right
    cases w with
    | nil =>
      cases pat with
      | nil => exact ⟨[], b, by simp⟩
      | cons x xs =>
        simp only [List.nil_append, List.cons_append, List.cons.injEq] at h2
        exact absurd (by rw [h2.1]; simp) hc
    | cons y ys =>
      simp only [List.cons_append, List.cons.injEq] at h2
      exact ⟨ys, v, by rw [h2.2]; simp⟩

theorem without_of_notMem {c : Char} {s : Text} (h : c ∉ s) : without c s = s := by
  rw [without, List.filter_eq_self]
  intro x hx
  simp only [ne_eq, decide_not, Bool.not_eq_eq_eq_not, Bool.not_true, decide_eq_false_iff_not]
  rintro rfl; exact h hx

theorem without_append (c : Char) (s t : Text) : without c (s ++ t) = without c s ++ without c t := by
  simp [without]

theorem strip_of_ends {s : Text} (h1 : ∀ x ∈ s.head?, isSpace x = false)
    (h2 : ∀ x ∈ s.getLast?, isSpace x = false) : strip s = s := by
  have drop : ∀ t : Text, (∀ x ∈ t.head?, isSpace x = false) → t.dropWhile isSpace = t := by
    intro t ht
    cases t with
    | nil => rfl
    | cons x xs => simp [List.dropWhile, ht x (by simp)]
  rw [strip, drop s h1, drop s.reverse (by simpa using h2), List.reverse_reverse]

theorem strip_cons_space (s : Text) : strip (' ' :: s) = strip s := by
  simp [strip, List.dropWhile, isSpace]

theorem strip_append_space {s : Text} (h1 : ∀ x ∈ s.head?, isSpace x = false)
    (h2 : ∀ x ∈ s.getLast?, isSpace x = false) : strip (s ++ [' ']) = s := by
  cases s with
  | nil => rfl
  | cons x xs =>
    have hx := h1 x (by simp)
    have hd : ((x :: xs) ++ [' ']).dropWhile isSpace = (x :: xs) ++ [' '] := by
      simp [hx]
    rw [strip, hd, List.reverse_append]
    have : (([' '] : Text).reverse ++ (x :: xs).reverse).dropWhile isSpace =
        ((x :: xs).reverse).dropWhile isSpace := by
      simp [isSpace]
    rw [this]
    have hs := strip_of_ends h1 h2
    rw [strip] at hs
    simpa [List.dropWhile, hx] using hs

theorem fileLines_terminated {ls : List Text} (h : ∀ l ∈ ls, '\n' ∉ l) :
    fileLines (ls.map (· ++ ['\n'])).flatten = ls := by
  have hs : split '\n' (ls.map (· ++ ['\n'])).flatten = ls ++ [[]] := by
    induction ls with
    | nil => rfl
    | cons l ls ih =>
      simp only [List.map_cons, List.flatten_cons, List.append_assoc, List.singleton_append]
      rw [split_append (h l (by simp)), ih (fun l' hl => h l' (by simp [hl]))]
      rfl
  simp [fileLines, hs]

theorem has_iff {pat s : Text} : has pat s = true ↔ pat <:+: s := by
  simp only [has, List.any_eq_true, List.mem_tails, List.isPrefixOf_iff_prefix]
  constructor
  · rintro ⟨t, ht, hp⟩; exact hp.isInfix.trans ht.isInfix
  · rintro ⟨a, b, h⟩
    exact ⟨pat ++ b, ⟨a, by rw [← h]; simp⟩, ⟨b, rfl⟩⟩

end Verif.FileIO
