import Verif.FileIO.LoadersSpe

/-! # Property theorems: the numbers of a line of an SPE file (C116) -/

namespace Verif.FileIO

/-! ### Specification -/

/-- A numeral: no blanks and no comment mark; a minus sign only at its beginning or right after an `e`; it does not end with
an `e`. -/
structure Numeral (f : Text) : Prop where
  ne : f ≠ []
  dense : ∀ x ∈ f, isSpace x = false ∧ x ≠ '#'
  minus : ∀ a b, f = a ++ '-' :: b → a = [] ∨ a.getLast? = some 'e'
  last : f.getLast? ≠ some 'e'

/-- A line that shows the numerals, in columns of fixed width: each one after any number of blanks; without any, if it begins
with a minus sign or (as the argument says) at the beginning of the line. -/
inductive Columns : Bool → List Text → Text → Prop
  | nil (b : Bool) (k : Nat) : Columns b [] (List.replicate k ' ')
  | cons {b : Bool} {k : Nat} {f : Text} {fs : List Text} {t : Text} (hf : Numeral f)
      (hk : b = true ∨ 0 < k ∨ f.head? = some '-') (ht : Columns false fs t) :
      Columns b (f :: fs) (List.replicate k ' ' ++ f ++ t)

/-! ### Lemmas -/

theorem spaceMinus_blanks (p : Char) (k : Nat) (t : Text) :
    ∃ q, (q = p ∨ q = ' ') ∧ spaceMinus p (List.replicate k ' ' ++ t) = List.replicate k ' ' ++ spaceMinus q t := by
  induction k generalizing p with
  | zero => exact ⟨p, .inl rfl, rfl⟩
  | succ k ih =>
    obtain ⟨q, h1, h2⟩ := ih ' '
    refine ⟨q, .inr (h1.elim id id), ?_⟩
    rw [List.replicate_succ, List.cons_append, spaceMinus, if_neg (fun h => absurd h.1 (by decide)), h2]
    rfl

/-- Nothing is changed where each minus sign follows an `e`. -/
theorem spaceMinus_same (p : Char) (f t : Text)
    (h : ∀ a b, f = a ++ '-' :: b → (p :: a).getLast? = some 'e') :
    spaceMinus p (f ++ t) = f ++ spaceMinus ((p :: f).getLast (by simp)) t := by
  induction f generalizing p with
  | nil => rfl
  | cons c f ih =>
    rw [List.cons_append, spaceMinus, if_neg, ih c, List.getLast_cons (by simp : c :: f ≠ []), List.cons_append]
    · intro a b e
      have := h (c :: a) b (by rw [e]; rfl)
      rwa [List.getLast?_cons_cons] at this
    · rintro ⟨rfl, hp⟩
      have := h [] f rfl
      simp at this
      exact hp this

theorem Numeral.spaceMinus {f : Text} (hf : Numeral f) {p : Char} (hp : p ≠ 'e') (t : Text) :
    ∃ k q, q ≠ 'e' ∧ (f.head? = some '-' → k = 1) ∧
      Verif.FileIO.spaceMinus p (f ++ t) = List.replicate k ' ' ++ f ++ Verif.FileIO.spaceMinus q t := by
  obtain ⟨c, g, rfl⟩ := List.exists_cons_of_ne_nil hf.ne
  have hlast : ∀ h, (c :: g).getLast h ≠ 'e' := fun h e => hf.last (by rw [List.getLast?_eq_getLast_of_ne_nil h, e])
  by_cases hc : c = '-'
  · subst hc
    refine ⟨1, ('-' :: g).getLast (by simp), hlast _, fun _ => rfl, ?_⟩
    rw [List.cons_append, Verif.FileIO.spaceMinus, if_pos ⟨rfl, hp⟩, spaceMinus_same '-' g t]
    · rfl
    · intro a b e
      have := hf.minus ('-' :: a) b (by rw [e]; rfl)
      simpa using this
  · refine ⟨0, (p :: c :: g).getLast (by simp), ?_, fun h => absurd (by simpa using h) hc, ?_⟩
    · rw [List.getLast_cons (by simp : c :: g ≠ [])]
      exact hlast _
    · rw [spaceMinus_same p (c :: g) t]
      · rfl
      · intro a b e
        rcases hf.minus a b e with rfl | h
        · simp at e
          exact absurd e.1 hc
        · rcases List.eq_nil_or_concat a with rfl | ⟨a', x, rfl⟩
          · simp at h
          · rw [← h]
            simp [List.getLast?_cons]

theorem words_blanks (k : Nat) (t : Text) : words (List.replicate k ' ' ++ t) = words t := by
  induction k with
  | zero => rfl
  | succ k ih =>
    rw [List.replicate_succ, List.cons_append, words.eq_def]
    exact ih

/-- The words of what a line of columns becomes; it begins with a blank or is empty unless it is at the beginning. -/
theorem Columns.words {b : Bool} {fs : List Text} {t : Text} (h : Columns b fs t) {p : Char} (hp : p ≠ 'e') :
    Verif.FileIO.words (spaceMinus p t) = fs ∧
      (b = false → spaceMinus p t = [] ∨ ∃ u, spaceMinus p t = ' ' :: u) := by
  induction h generalizing p with
  | nil b k =>
    obtain ⟨q, -, h⟩ := spaceMinus_blanks p k []
    rw [List.append_nil] at h
    rw [h]
    refine ⟨by rw [words_blanks]; rfl, fun _ => ?_⟩
    cases k with
    | zero => exact .inl rfl
    | succ k => exact .inr ⟨_, rfl⟩
  | @cons b k f fs t hf hk ht ih =>
    obtain ⟨q, hq, h1⟩ := spaceMinus_blanks p k (f ++ t)
    have hq : q ≠ 'e' := by
      rcases hq with rfl | rfl
      · exact hp
      · decide
    obtain ⟨j, q', hq', hj, h2⟩ := hf.spaceMinus hq t
    obtain ⟨i1, i2⟩ := ih hq'
    rw [List.append_assoc, h1, h2]
    refine ⟨?_, fun hb => ?_⟩
    · rw [List.append_assoc, words_blanks, words_blanks]
      have hs : ∀ x ∈ f, isSpace x = false := fun x hx => (hf.dense x hx).1
      rcases i2 rfl with e | ⟨u, e⟩
      · rw [e] at i1 ⊢
        rw [List.append_nil, words_single hf.ne hs, ← i1]
        rfl
      · rw [e] at i1 ⊢
        rw [words_append hf.ne hs (by decide), ← i1]
        congr 1
    · right
      rcases hk with hk | hk | hk
      · rw [hb] at hk; cases hk
      · obtain ⟨m, rfl⟩ := Nat.exists_eq_succ_of_ne_zero hk.ne'
        exact ⟨_, rfl⟩
      · rw [hj hk]
        cases k with
        | zero => exact ⟨_, rfl⟩
        | succ k => exact ⟨_, rfl⟩

theorem Columns.no_mark {b : Bool} {fs : List Text} {t : Text} (h : Columns b fs t) : '#' ∉ t := by
  induction h with
  | nil b k => simp
  | cons hf _ _ ih =>
    simp only [List.mem_append, not_or]
    exact ⟨⟨by simp, fun hx => (hf.dense _ hx).2 rfl⟩, ih⟩

/-! ### C116 -/

/-- **C116**, lines: a line of numerals in columns of fixed width gives these numerals, also where a minus sign fills the
gap between two columns, and whether or not they have exponents. -/
theorem C116_line {fs : List Text} {t : Text} (h : Columns true fs t) : speLine t = .toks fs := by
  unfold speLine
  rw [if_neg, (h.words (p := ' ') (by decide)).1]
  intro hm
  obtain ⟨a, b, e⟩ := has_iff.1 hm
  exact h.no_mark (by rw [← e]; simp)

/-- **C116**, lines: a line with three comment marks separates. -/
theorem C116_mark {t : Text} : speLine t = .mark ↔ cs!"###" <:+: t := by
  unfold speLine
  rw [← has_iff]
  split <;> simp_all

/-- **C116** fails for exponents with a capital letter: a numeral with one is taken for two. -/
theorem C116_capital_false {m x : Text} (hm : m ≠ []) (hx : x ≠ []) (h : ∀ c ∈ m ++ x, isSpace c = false ∧ c ≠ '-' ∧ c ≠ '#') :
    speLine (m ++ cs!"E-" ++ x) = .toks [m ++ cs!"E", cs!"-" ++ x] := by
  have h1 : ∀ (p : Char) (u t : Text), (∀ c ∈ u, c ≠ '-') →
      spaceMinus p (u ++ t) = u ++ spaceMinus ((p :: u).getLast (by simp)) t := fun p u t hu =>
    spaceMinus_same p u t fun a b e => absurd rfl (hu '-' (by rw [e]; simp))
  have e1 : spaceMinus ' ' (m ++ cs!"E-" ++ x) = m ++ cs!"E" ++ ' ' :: (cs!"-" ++ x) := by
    have e : m ++ cs!"E-" ++ x = (m ++ cs!"E") ++ '-' :: x := by simp
    rw [e, h1 ' ' (m ++ cs!"E") _ (by
      intro c hc
      rcases List.mem_append.1 hc with hc | hc
      · exact (h c (by simp [hc])).2.1
      · simp at hc; subst hc; decide)]
    have el : (' ' :: (m ++ cs!"E")).getLast (by simp) = 'E' := by simp
    rw [el, spaceMinus, if_pos ⟨rfl, by decide⟩]
    have := h1 '-' x [] (fun c hc => (h c (by simp [hc])).2.1)
    rw [List.append_nil] at this
    rw [this]
    simp [spaceMinus]
  unfold speLine
  rw [if_neg, e1, words_append (by simp) (by
    intro c hc
    rcases List.mem_append.1 hc with hc | hc
    · exact (h c (by simp [hc])).1
    · simp at hc; subst hc; decide) (by decide), words_single (by simp) (by
    intro c hc
    rcases List.mem_append.1 hc with hc | hc
    · simp at hc; subst hc; decide
    · exact (h c (by simp [hc])).1)]
  intro hb
  obtain ⟨a, b, e⟩ := has_iff.1 hb
  have hmem : '#' ∈ m ++ cs!"E-" ++ x := by rw [← e]; simp
  simp only [List.mem_append] at hmem
  rcases hmem with (hc | hc) | hc
  · exact (h _ (by simp [hc])).2.2 rfl
  · revert hc; decide
  · exact (h _ (by simp [hc])).2.2 rfl

/-! ### The hypotheses are met -/

example : speLine cs!" 1.5e-03-2.0e-03 4" = .toks [cs!"1.5e-03", cs!"-2.0e-03", cs!"4"] := by decide +kernel

theorem numeral_demo : Numeral cs!"-2.0e-03" where
  ne := by decide
  dense := by decide
  minus a b e := by
    have hl := congrArg List.length e
    simp at hl
    match a, e with
    | [], _ => exact .inl rfl
    | [_], e => simp at e
    | [_, _], e => simp at e
    | [_, _, _], e => simp at e
    | [_, _, _, _], e => simp at e
    | [_, _, _, _, x], e => simp at e; simp [← e.2.2.2.2.1]
    | [_, _, _, _, _, _], e => simp at e
    | [_, _, _, _, _, _, _], e => simp at e
    | _ :: _ :: _ :: _ :: _ :: _ :: _ :: _ :: _, _ => simp at hl; omega
  last := by decide

example : Columns true [cs!"-2.0e-03", cs!"-2.0e-03"] cs!" -2.0e-03-2.0e-03 " :=
  .cons (k := 1) numeral_demo (.inl rfl) (.cons (k := 0) numeral_demo (.inr (.inr rfl)) (.nil false 1))

example : speLine cs!"1.5E-03" = .toks [cs!"1.5E", cs!"-03"] :=
  C116_capital_false (m := cs!"1.5") (x := cs!"03") (by decide) (by decide) (by decide)

end Verif.FileIO
