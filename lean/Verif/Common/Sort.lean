import Mathlib.Data.List.Basic

/-!
# A stable sort

Insertion sort with a Boolean comparison.  It is the model of every stable
numpy / Python sort in this development (`np.lexsort`, `sorted`, `list.sort`); it
is defined by structural recursion so that the kernel can evaluate it.
-/

namespace Verif

variable {β γ : Type}

/-- Insert before the first element that is not smaller. -/
def insertSorted (le : β → β → Bool) (x : β) : List β → List β
  | [] => [x]
  | y :: ys => if le x y then x :: y :: ys else y :: insertSorted le x ys

/-- Stable insertion sort. -/
def isort (le : β → β → Bool) : List β → List β
  | [] => []
  | x :: xs => insertSorted le x (isort le xs)

theorem insertSorted_perm (le : β → β → Bool) (x : β) (l : List β) :
    (insertSorted le x l).Perm (x :: l) := by
  induction l with
  | nil => exact List.Perm.refl _
  | cons y ys ih =>
    unfold insertSorted
    split
    · exact List.Perm.refl _
    · exact (ih.cons y).trans (List.Perm.swap x y ys)

theorem isort_perm (le : β → β → Bool) (l : List β) : (isort le l).Perm l := by
  induction l with
  | nil => exact List.Perm.refl _
  | cons x xs ih => exact (insertSorted_perm le x _).trans (ih.cons x)

@[simp] theorem length_isort (le : β → β → Bool) (l : List β) : (isort le l).length = l.length :=
  (isort_perm le l).length_eq

theorem insertSorted_pairwise {le : β → β → Bool} (trans : ∀ a b c, le a b → le b c → le a c)
    (total : ∀ a b, le a b || le b a) (x : β) {l : List β}
    (h : l.Pairwise (fun a b => le a b = true)) :
    (insertSorted le x l).Pairwise (fun a b => le a b = true) := by
  induction l with
  | nil => simp [insertSorted]
  | cons y ys ih =>
    rw [List.pairwise_cons] at h
    unfold insertSorted
    split
    · next hxy =>
      rw [List.pairwise_cons]
      refine ⟨?_, List.pairwise_cons.2 h⟩
      intro z hz
      rcases List.mem_cons.1 hz with rfl | hz
      · exact hxy
      · exact trans _ _ _ hxy (h.1 z hz)
    · next hxy =>
      rw [List.pairwise_cons]
      refine ⟨?_, ih h.2⟩
      intro z hz
      rcases List.mem_cons.1 ((insertSorted_perm le x ys).mem_iff.1 hz) with rfl | hz
      · have := total z y
        simp only [Bool.or_eq_true] at this
        exact this.resolve_left hxy
      · exact h.1 z hz

theorem isort_pairwise {le : β → β → Bool} (trans : ∀ a b c, le a b → le b c → le a c)
    (total : ∀ a b, le a b || le b a) (l : List β) :
    (isort le l).Pairwise (fun a b => le a b = true) := by
  induction l with
  | nil => simp [isort]
  | cons x xs ih => exact insertSorted_pairwise trans total x ih

theorem insertSorted_map {le : β → β → Bool} {le' : γ → γ → Bool} {f : β → γ}
    (h : ∀ a b, le' (f a) (f b) = le a b) (x : β) (l : List β) :
    (insertSorted le x l).map f = insertSorted le' (f x) (l.map f) := by
  induction l with
  | nil => rfl
  | cons y ys ih =>
    simp only [insertSorted, List.map_cons, h]
    split
    · simp
    · simp [ih]

theorem isort_map {le : β → β → Bool} {le' : γ → γ → Bool} {f : β → γ}
    (h : ∀ a b, le' (f a) (f b) = le a b) (l : List β) :
    (isort le l).map f = isort le' (l.map f) := by
  induction l with
  | nil => rfl
  | cons x xs ih => simp only [isort, List.map_cons, insertSorted_map h, ih]

/-- Stability. -/
theorem isort_filter {le : β → β → Bool} {p : β → Bool}
    (h : ∀ a b, p a = true → p b = true → le a b = true) (l : List β) :
    (isort le l).filter p = l.filter p := by
  have key : ∀ x l, (insertSorted le x l).filter p = (x :: l).filter p := by
    intro x l
    induction l with
    | nil => rfl
    | cons y ys ih =>
      unfold insertSorted
      split
      · rfl
      · next hxy =>
        rw [List.filter_cons, ih]
        by_cases hx : p x = true
        · have hy : ¬ p y = true := fun hy => hxy (h x y hx hy)
          simp [hx, hy]
        · simp [hx, List.filter_cons]
  induction l with
  | nil => rfl
  | cons x xs ih => rw [isort, key, List.filter_cons, List.filter_cons, ih]

/-- A list that is already in order is left alone. -/
theorem isort_eq_self {le : β → β → Bool} {l : List β}
    (h : l.Pairwise (fun a b => le a b = true)) : isort le l = l := by
  induction l with
  | nil => rfl
  | cons x xs ih =>
    rw [List.pairwise_cons] at h
    rw [isort, ih h.2]
    cases xs with
    | nil => rfl
    | cons y ys => simp [insertSorted, h.1 y (by simp)]

end Verif
