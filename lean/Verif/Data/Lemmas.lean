import Verif.Data.Spec
import Mathlib.Data.List.Basic
import Mathlib.Data.List.Sort
import Mathlib.Tactic.Linarith

/-! Helper lemmas for combining data sets. -/

set_option linter.unusedSectionVars false

namespace Verif.Data

variable {α β γ : Type}

theorem getE_ok {xs : List α} {i : Nat} (h : i < xs.length) : getE xs i = .ok xs[i] := by
  simp [getE, h]

theorem mapM_ok {f : α → Except Err β} {g : α → β} {l : List α}
    (h : ∀ x ∈ l, f x = .ok (g x)) : l.mapM f = .ok (l.map g) := by
  induction l with
  | nil => rfl
  | cons x xs ih =>
    rw [List.mapM_cons, h x (by simp), ih (fun y hy => h y (by simp [hy]))]
    rfl

theorem lookup_eq_of_mem {t : Table α} (hn : (t.map Prod.fst).Nodup) {c : String × List α}
    (hc : c ∈ t) : t.lookup c.1 = some c.2 := by
  induction t with
  | nil => simp at hc
  | cons d t ih =>
    obtain ⟨k, v⟩ := d
    simp only [List.map_cons, List.nodup_cons] at hn
    rcases List.mem_cons.1 hc with rfl | hc'
    · simp [List.lookup]
    · have : (c.1 == k) = false := by
        rw [beq_eq_false_iff_ne]
        intro h
        exact hn.1 (h ▸ List.mem_map_of_mem hc')
      rw [List.lookup, this]
      exact ih hn.2 hc'

theorem lookup_isSome_of_mem_keys {t : Table α} {k : String} (h : k ∈ t.map Prod.fst) :
    ∃ c ∈ t, c.1 = k ∧ t.lookup k = some c.2 := by
  induction t with
  | nil => simp at h
  | cons d t ih =>
    obtain ⟨k', v⟩ := d
    by_cases hk : k = k'
    · subst hk; exact ⟨(k, v), by simp, rfl, by simp [List.lookup]⟩
    · simp only [List.map_cons, List.mem_cons] at h
      obtain ⟨c, hc, h1, h2⟩ := ih (h.resolve_left hk)
      refine ⟨c, by simp [hc], h1, ?_⟩
      rw [List.lookup, beq_eq_false_iff_ne.2 hk]; exact h2

/-- With equal key lists without duplicates, looking up the keys of one table in
the other pairs the columns up by position. -/
theorem map_lookup_eq_zipWith {t : Table α} {o : Table β} (hk : t.map Prod.fst = o.map Prod.fst)
    (hn : (o.map Prod.fst).Nodup) (f : (String × List α) → Option (List β) → γ) :
    t.map (fun c => f c (o.lookup c.1)) = List.zipWith (fun c d => f c (some d.2)) t o := by
  have key : ∀ c d, (c, d) ∈ t.zip o → o.lookup c.1 = some d.2 := by
    intro c d hcd
    have hd : d ∈ o := (List.of_mem_zip hcd).2
    have : c.1 = d.1 := by
      obtain ⟨i, hi, hcd'⟩ := List.mem_iff_getElem.1 hcd
      rw [List.getElem_zip] at hcd'
      have h1 : i < t.length := by simp at hi; omega
      have h2 : i < o.length := by simp at hi; omega
      have := congrArg (fun l => l[i]?) hk
      simp only [List.getElem?_map] at this
      rw [List.getElem?_eq_getElem h1, List.getElem?_eq_getElem h2] at this
      simp at this
      simp at hcd'
      rw [← hcd'.1, ← hcd'.2]; exact this
    rw [this]; exact lookup_eq_of_mem hn hd
  have hlen : t.length = o.length := by simpa using congrArg List.length hk
  apply List.ext_getElem
  · simp [hlen]
  · intro i h1 h2
    simp only [List.getElem_map, List.getElem_zipWith]
    rw [key (t[i]'(by simpa using h1)) (o[i]'(by simp at h2; omega))]
    rw [List.mem_iff_getElem]
    exact ⟨i, by simp at h1 h2 ⊢; omega, by simp⟩

section order
variable [Field α] [LinearOrder α]

theorem lexLe_iff (xs ys : List α) :
    lexLe xs ys = true ↔ xs = ys ∨ List.Lex (· < ·) xs ys := by
  induction xs generalizing ys with
  | nil => cases ys <;> simp [lexLe]
  | cons x xs ih =>
    cases ys with
    | nil => simp [lexLe]
    | cons y ys =>
      rw [lexLe]
      rcases lt_trichotomy x y with h | h | h
      · simp [h, List.Lex.rel h]
      · subst h; simp [ih, List.lex_cons_iff]
      · simp only [not_lt_of_gt h, h, if_true, if_false, List.cons.injEq, ne_of_gt h, false_and,
          false_or, Bool.false_eq_true, false_iff]
        intro hl
        cases hl with
        | cons _ => exact lt_irrefl _ h
        | rel h' => exact lt_asymm h h'

end order

end Verif.Data
