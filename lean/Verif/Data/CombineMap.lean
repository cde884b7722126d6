import Verif.Data.CombineRows
import Mathlib.Data.Set.Basic
import Mathlib.Data.List.Perm.Basic
import Mathlib.Data.List.Pairwise

set_option linter.unusedSectionVars false

/-! Exact combining is addition of coordinate-to-counts maps. -/

namespace Verif.Data

variable {α β γ : Type} [Field α] [LinearOrder α]

theorem sum_modify_add' (f : Row α → α) (R : List (Row α)) (j : Nat) (g : Row α → Row α) (d : α)
    (hj : j < R.length) (hg : f (g R[j]) = f R[j] + d) :
    ((R.modify j g).map f).sum = (R.map f).sum + d := by
  induction R generalizing j with
  | nil => simp at hj
  | cons r R ih =>
    cases j with
    | zero => simp at hg; simp [hg]; ring
    | succ j =>
      have := ih j (by simpa using hj) (by simpa using hg)
      simp [this]; ring

theorem specMerge_getElem_coord (tols : List α) (A B : List (Row α)) (j : Nat) (hj : j < A.length)
    (h : j < (specMerge tols A B).length) : ((specMerge tols A B)[j]).coord = A[j].coord := by
  have : (specMerge tols A B)[j]? = some
      ((B.filter (fun b => firstNear tols A b = some j)).foldl Row.add A[j]) := by
    rw [specMerge, List.getElem?_append_left (by simpa using hj)]
    simp [hj]
  rw [List.getElem?_eq_getElem h] at this
  rw [Option.some.inj this, foldl_add_coord]

theorem map_coord_specMerge (tols : List α) (A B : List (Row α)) :
    (specMerge tols A B).map Row.coord = A.map Row.coord ++
      (B.filter (fun b => firstNear tols A b = none)).map Row.coord := by
  unfold specMerge
  rw [List.map_append]
  congr 1
  apply List.ext_getElem
  · simp
  · intro i h1 h2
    simp [foldl_add_coord]

theorem countsMap_append (A B : List (Row α)) (c : List α) (i : Nat) :
    countsMap (A ++ B) c i = countsMap A c i + countsMap B c i := by
  simp [countsMap]

theorem countsMap_specMerge {m : Nat} (tols : List α) (A B : List (Row α))
    (hA : ∀ a ∈ A, a.counts.length = m) (hB : ∀ b ∈ B, b.counts.length = m)
    (hex : ∀ a ∈ A, ∀ b ∈ B, Near tols a b → a.coord = b.coord) (c : List α) (i : Nat) :
    countsMap (specMerge tols A B) c i = countsMap A c i + countsMap B c i := by
  induction B using List.reverseRecOn with
  | nil => simp [specMerge, mapIdx_id, countsMap]
  | append_singleton B b ih =>
    have hB' : ∀ b ∈ B, b.counts.length = m := fun b' h => hB b' (by simp [h])
    have hb : b.counts.length = m := hB b (by simp)
    specialize ih hB' (fun a ha b hb => hex a ha b (by simp [hb]))
    rw [← mergeStep_spec, countsMap_append, ← add_assoc, ← ih]
    unfold mergeStep
    cases h : firstNear tols A b with
    | none => simp only [countsMap_append]
    | some j =>
      obtain ⟨hj, hn, _⟩ := firstNear_some.1 h
      have hge := length_specMerge_ge tols A B
      have hj' : j < (specMerge tols A B).length := by omega
      have hcoord : ((specMerge tols A B)[j]).coord = b.coord := by
        rw [specMerge_getElem_coord _ _ _ _ hj]
        exact hex _ (List.getElem_mem _) _ (by simp) hn
      have hlen := specMerge_counts_length tols A B hA hB' _ (List.getElem_mem hj')
      simp only [countsMap]
      rw [sum_modify_add' _ _ _ _ (if b.coord = c then b.counts.getD i 0 else 0) hj']
      · simp
      · generalize (specMerge tols A B)[j] = r at hcoord hlen
        have hr : (r.add b).coord = r.coord := rfl
        have hs : (r.add b).counts = List.zipWith (· + ·) r.counts b.counts := rfl
        rw [hr, hs, getD_zipWith_add (by rw [hlen, hb]), hcoord]
        by_cases hc : b.coord = c
        · simp [hc]
        · simp [hc]

theorem coordsOf_append (A B : List (Row α)) : coordsOf (A ++ B) = coordsOf A ∪ coordsOf B := by
  ext c
  simp only [coordsOf, Set.mem_union, Set.mem_ofPred_eq, List.mem_append]
  constructor
  · rintro ⟨r, h | h, e⟩
    · exact Or.inl ⟨r, h, e⟩
    · exact Or.inr ⟨r, h, e⟩
  · rintro (⟨r, h, e⟩ | ⟨r, h, e⟩)
    · exact ⟨r, Or.inl h, e⟩
    · exact ⟨r, Or.inr h, e⟩

theorem mem_coordsOf {R : List (Row α)} {c : List α} : c ∈ coordsOf R ↔ c ∈ R.map Row.coord := by
  simp [coordsOf]

theorem coordsOf_specMerge (tols : List α) (A B : List (Row α))
    (hex : ∀ a ∈ A, ∀ b ∈ B, Near tols a b → a.coord = b.coord) :
    coordsOf (specMerge tols A B) = coordsOf A ∪ coordsOf B := by
  ext c
  rw [mem_coordsOf, map_coord_specMerge, Set.mem_union, mem_coordsOf, mem_coordsOf, List.mem_append]
  constructor
  · rintro (h | h)
    · exact Or.inl h
    · obtain ⟨b, hb, rfl⟩ := List.mem_map.1 h
      exact Or.inr (List.mem_map.2 ⟨b, List.mem_of_mem_filter hb, rfl⟩)
  · rintro (h | h)
    · exact Or.inl h
    · obtain ⟨b, hb, rfl⟩ := List.mem_map.1 h
      cases hf : firstNear tols A b with
      | none => exact Or.inr (List.mem_map.2 ⟨b, List.mem_filter.2 ⟨hb, by simp [hf]⟩, rfl⟩)
      | some j =>
        obtain ⟨hj, hn, _⟩ := firstNear_some.1 hf
        left
        rw [← hex _ (List.getElem_mem hj) _ hb hn]
        exact List.mem_map.2 ⟨_, List.getElem_mem hj, rfl⟩

theorem distinct_specMerge (tols : List α) (A B : List (Row α)) (hA : DistinctCoords A)
    (hB : DistinctCoords B) (hex : ∀ a ∈ A, ∀ b ∈ B, a.coord = b.coord → Near tols a b) :
    DistinctCoords (specMerge tols A B) := by
  unfold DistinctCoords
  rw [map_coord_specMerge]
  refine List.Nodup.append hA ?_ ?_
  · exact hB.sublist ((List.filter_sublist).map _)
  · intro c h1 h2
    obtain ⟨a, ha, rfl⟩ := List.mem_map.1 h1
    obtain ⟨b, hb, e⟩ := List.mem_map.1 h2
    have hb' := List.mem_of_mem_filter hb
    have hn := List.of_mem_filter hb
    simp only [decide_eq_true_eq] at hn
    exact firstNear_none.1 hn a ha (hex a ha b hb' e.symm)

theorem countsMap_of_distinct {R : List (Row α)} (h : DistinctCoords R) {r : Row α} (hr : r ∈ R)
    (i : Nat) : countsMap R r.coord i = r.counts.getD i 0 := by
  induction R with
  | nil => simp at hr
  | cons x R ih =>
    simp only [DistinctCoords, List.map_cons, List.nodup_cons] at h
    have hz : ∀ c, c ∉ R.map Row.coord → countsMap R c i = 0 := by
      intro c hc
      unfold countsMap
      apply List.sum_eq_zero
      intro y hy
      obtain ⟨r', hr', rfl⟩ := List.mem_map.1 hy
      rw [if_neg]
      rintro rfl
      exact hc (List.mem_map.2 ⟨r', hr', rfl⟩)
    rcases List.mem_cons.1 hr with rfl | hr'
    · have := hz _ h.1
      unfold countsMap at this ⊢
      simp only [List.map_cons, List.sum_cons, this, if_pos, add_zero]
    · have hne : x.coord ≠ r.coord := by
        intro e
        exact h.1 (e ▸ List.mem_map.2 ⟨r, hr', rfl⟩)
      have := ih h.2 hr'
      unfold countsMap at this ⊢
      simp only [List.map_cons, List.sum_cons, this, if_neg hne, zero_add]

theorem list_ext_getD {xs ys : List α} (h : xs.length = ys.length)
    (e : ∀ i, xs.getD i 0 = ys.getD i 0) : xs = ys := by
  apply List.ext_getElem h
  intro i h1 h2
  have := e i
  simpa [List.getD_eq_getElem?_getD, h1, h2] using this

theorem CoordLe.antisymm {a b : Row α} (h1 : CoordLe a b) (h2 : CoordLe b a) : a.coord = b.coord := by
  rcases h1 with h | h1
  · exact h
  rcases h2 with h | h2
  · exact h.symm
  exact absurd h2 (asymm_of (List.Lex (· < ·)) h1)

theorem canonical {m : Nat} {R S : List (Row α)} (hR : DistinctCoords R) (hS : DistinctCoords S)
    (lR : ∀ r ∈ R, r.counts.length = m) (lS : ∀ r ∈ S, r.counts.length = m)
    (sR : R.Pairwise CoordLe) (sS : S.Pairwise CoordLe) (hc : coordsOf R = coordsOf S)
    (hm : ∀ c i, countsMap R c i = countsMap S c i) : R = S := by
  have half : ∀ {R S : List (Row α)}, DistinctCoords R → DistinctCoords S →
      (∀ r ∈ R, r.counts.length = m) → (∀ r ∈ S, r.counts.length = m) →
      coordsOf R = coordsOf S → (∀ c i, countsMap R c i = countsMap S c i) → ∀ r ∈ R, r ∈ S := by
    intro R S hR hS lR lS hc hm r hr
    have : r.coord ∈ coordsOf S := hc ▸ ⟨r, hr, rfl⟩
    obtain ⟨s, hs, e⟩ := this
    have : s = r := by
      cases s with
      | mk sc sn =>
        cases r with
        | mk rc rn =>
          simp only at e
          subst e
          congr 1
          apply list_ext_getD
          · rw [lS _ hs, lR _ hr]
          · intro i
            have h1 := countsMap_of_distinct hR hr i
            have h2 := countsMap_of_distinct hS hs i
            simp only at h1 h2
            rw [← h1, ← h2, hm]
    exact this ▸ hs
  have hp : R.Perm S := by
    rw [List.perm_ext_iff_of_nodup (List.Nodup.of_map _ hR) (List.Nodup.of_map _ hS)]
    exact fun r => ⟨half hR hS lR lS hc hm r, half hS hR lS lR hc.symm (fun c i => (hm c i).symm) r⟩
  refine hp.eq_of_pairwise ?_ sR sS
  intro a b ha hb h1 h2
  have e := CoordLe.antisymm h1 h2
  have hb' := hp.mem_iff.2 hb
  exact List.inj_on_of_nodup_map hR ha hb' e

theorem countsMap_perm {R S : List (Row α)} (h : R.Perm S) (c : List α) (i : Nat) :
    countsMap R c i = countsMap S c i := (h.map _).sum_eq

theorem coordsOf_perm {R S : List (Row α)} (h : R.Perm S) : coordsOf R = coordsOf S := by
  ext c; simp only [coordsOf, Set.mem_ofPred_eq, h.mem_iff]

/-- Closeness depends on the coordinates only. -/
theorem Near.congr {tols : List α} {a a' b b' : Row α} (h1 : a.coord = a'.coord)
    (h2 : b.coord = b'.coord) : Near tols a b ↔ Near tols a' b' := by
  unfold Near; rw [h1, h2]

end Verif.Data
