import Verif.Data.PartsProps

/-!
# How much background is taken away

How the background in percent depends on the percentage, and how the integral depends on the
background.
-/

namespace Verif.Data

variable {α : Type} [Field α] [LinearOrder α]

/-! ## Lemmas -/

theorem smallest_take {S : List α} (h : S.Pairwise (· ≤ ·)) {k k' : Nat} (hk : k ≤ k') :
    IsSmallest (S.take k) (S.take k') := by
  refine ⟨(S.take k').drop k, ?_, ?_⟩
  · have : S.take k = (S.take k').take k := by rw [List.take_take, Nat.min_eq_left hk]
    rw [this, List.take_append_drop]
  · have hp := h.sublist (List.take_sublist k' S)
    rw [← List.take_append_drop k (S.take k'), List.pairwise_append, List.take_take,
      Nat.min_eq_left hk] at hp
    exact hp.2.2

theorem sorted_isort (l : List α) : (isort (fun x y : α => decide (x ≤ y)) l).Pairwise (· ≤ ·) :=
  (isort_pairwise (fun a b c h1 h2 => by simp at *; exact h1.trans h2)
    (fun a b => by simpa using le_total a b) l).imp (by simp)

variable [FloorRing α]

theorem background_percent [IsStrictOrderedRing α] (int : List α) {v : α} (hv : 0 ≤ v) :
    background int (.percent v) = .ok (average? ((isort (fun x y : α => decide (x ≤ y))
      (int.filter fun x => decide (0 ≤ x))).take
        ⌊((int.filter fun x => decide (0 ≤ x)).length : α) * (v / 100)⌋.toNat)) := by
  have hx : (0 : α) ≤ ((int.filter fun x => decide (0 ≤ x)).length : α) * (v / 100) := by positivity
  simp only [background]
  rw [trunc_of_nonneg hx, sliceTo, if_pos (Int.floor_nonneg.2 hx)]

omit [FloorRing α] in
theorem trapSum_less [IsStrictOrderedRing α] {x y z : List α} {c : α} (h : ∀ i < x.length, z.getD i 0 = y.getD i 0 - c) :
    trapSum x z = trapSum x y - c * (x.getD (x.length - 1) 0 - x.getD 0 0) := by
  have hc := trapSum_flat (x := x) (y := List.replicate x.length c) (c := c) fun i hi => by
    rw [List.getD_eq_getElem _ _ (by simpa using hi), List.getElem_replicate]
  rw [← hc]
  unfold trapSum
  rw [← Finset.sum_sub_distrib]
  refine Finset.sum_congr rfl fun i hi => ?_
  rw [Finset.mem_range] at hi
  rw [h i (by omega), h (i + 1) (by omega), List.getD_eq_getElem (List.replicate _ _) _ (by simp; omega),
    List.getD_eq_getElem (List.replicate _ _) _ (by simp; omega), List.getElem_replicate,
    List.getElem_replicate]
  ring

/-! ## C228 -/

/-- **C228** a larger percentage never lowers the background in percent, and gives a number
wherever a smaller one does. -/
theorem C228_percent [IsStrictOrderedRing α] (int : List α) {v v' β : α} (hv : 0 ≤ v) (hle : v ≤ v')
    (h : background int (.percent v) = .ok (some β)) :
    ∃ β', background int (.percent v') = .ok (some β') ∧ β ≤ β' := by
  rw [background_percent int hv] at h
  rw [background_percent int (hv.trans hle)]
  set S := isort (fun x y : α => decide (x ≤ y)) (int.filter fun x => decide (0 ≤ x)) with hS
  set N := ((int.filter fun x => decide (0 ≤ x)).length : α) with hN
  have hk : ⌊N * (v / 100)⌋.toNat ≤ ⌊N * (v' / 100)⌋.toNat := by
    refine Int.toNat_le_toNat (Int.floor_le_floor ?_)
    have : 0 ≤ N := by positivity
    exact mul_le_mul_of_nonneg_left (by linarith) this
  generalize ⌊N * (v / 100)⌋.toNat = k at h hk
  generalize ⌊N * (v' / 100)⌋.toNat = k' at hk
  have hsm := smallest_take (sorted_isort (int.filter fun x => decide (0 ≤ x))) hk
  rw [← hS] at hsm
  unfold average? at h ⊢
  by_cases hne : S.take k = []
  · rw [if_pos hne] at h; cases h
  rw [if_neg hne] at h
  have hne' : S.take k' ≠ [] := by
    intro h0
    apply hne
    have : S.take k = (S.take k').take k := by rw [List.take_take, Nat.min_eq_left hk]
    rw [this, h0, List.take_nil]
  rw [if_neg hne']
  refine ⟨_, rfl, ?_⟩
  rw [← Option.some.inj (Except.ok.inj h)]
  exact (mean_le_of_smallest hsm hne).2

/-- **C228** from 100 on the background in percent is the average of the intensities that are
not negative. -/
theorem C228_all [IsStrictOrderedRing α] (int : List α) {v : α} (hv : 100 ≤ v) :
    background int (.percent v) = .ok (average? (int.filter fun x => decide (0 ≤ x))) := by
  rw [background_percent int (by linarith)]
  set L := int.filter fun x => decide (0 ≤ x) with hL
  have hp := isort_perm (fun x y : α => decide (x ≤ y)) L
  rw [List.take_of_length_le]
  · unfold average?
    rw [hp.sum_eq, hp.length_eq]
    by_cases h0 : L = []
    · rw [if_pos h0, if_pos]
      rw [h0] at hp ⊢
      exact hp.eq_nil
    · rw [if_neg h0, if_neg]
      intro h
      rw [h] at hp
      exact h0 hp.symm.eq_nil
  · rw [hp.length_eq]
    have : (L.length : Int) ≤ ⌊(L.length : α) * (v / 100)⌋ := by
      rw [Int.le_floor]
      push_cast
      have h0 : (0 : α) ≤ (L.length : α) := by positivity
      have h1 : (1 : α) ≤ v / 100 := by rw [le_div_iff₀ (by norm_num)]; linarith
      nlinarith
    omega

/-- **C228** the integral along a line falls by the rise of the background times the length of the
range, whatever kinds of background are compared. -/
theorem C228_integral [IsStrictOrderedRing α] {d : DataObj α} {n : Nat} {bg bg' : Bg α} {int : List α} {β β' : α}
    (h : Measured d n bg int β) (h' : Measured d n bg' int β') {bounds : Option (List Bool)}
    {sel : List Nat} (hs : Selects d n bounds sel) {key : String} (hline : LineScan d sel key)
    (hkle : Bool) : ∃ I first last, integrate d bounds bg hkle = .ok (some I) ∧
      (column d sel key).head? = some first ∧ (column d sel key).getLast? = some last ∧
      integrate d bounds bg' hkle = .ok (some (I - (β' - β) * (last - first))) := by
  have h2 := hline.two
  have hlen : (column d sel key).length = sel.length := by simp [column]
  refine ⟨_, (column d sel key).getD 0 0, (column d sel key).getD ((column d sel key).length - 1) 0,
    integrate_ok h hs (by omega) hkle, ?_, ?_, ?_⟩
  · rw [List.getD_eq_getElem _ _ (by omega), List.head?_eq_getElem?,
      List.getElem?_eq_getElem (by omega)]
  · rw [List.getD_eq_getElem _ _ (by omega), List.getLast?_eq_getElem?,
      List.getElem?_eq_getElem (by omega)]
  · rw [integrate_ok h' hs (by omega) hkle, sum_line h hline, sum_line h' hline,
      trapSum_less (y := net int β sel) (c := β' - β)]
    intro i hi
    rw [List.getD_eq_getElem _ _ (by simp [net]; omega), List.getD_eq_getElem _ _ (by simp [net]; omega)]
    simp only [net, List.getElem_map]
    ring

/-- **C228** along an increasing axis a larger percentage never gives a larger integral. -/
theorem C228_falls [IsStrictOrderedRing α] {d : DataObj α} {n : Nat} {int : List α} {v v' β : α}
    (hv : 0 ≤ v) (hle : v ≤ v') (h : Measured d n (.percent v) int β) {bounds : Option (List Bool)}
    {sel : List Nat} (hs : Selects d n bounds sel) {key : String} (hline : LineScan d sel key)
    (hinc : (column d sel key).Pairwise (· ≤ ·)) (hkle : Bool) :
    ∃ I I', integrate d bounds (.percent v) hkle = .ok (some I) ∧
      integrate d bounds (.percent v') hkle = .ok (some I') ∧ I' ≤ I := by
  obtain ⟨β', hb, hββ⟩ := C228_percent int hv hle h.back
  have h' : Measured d n (.percent v') int β' := { h with back := hb }
  obtain ⟨I, first, last, h1, h2, h3, h4⟩ := C228_integral h h' hs hline hkle
  refine ⟨I, _, h1, h4, ?_⟩
  have hfl : first ≤ last := by
    have h2' := hline.two
    have hlen : (column d sel key).length = sel.length := by simp [column]
    rw [List.head?_eq_getElem?, List.getElem?_eq_getElem (by omega), Option.some.injEq] at h2
    rw [List.getLast?_eq_getElem?, List.getElem?_eq_getElem (by omega), Option.some.injEq] at h3
    rw [← h2, ← h3]
    exact List.pairwise_iff_getElem.1 hinc _ _ _ _ (by omega)
  have : 0 ≤ (β' - β) * (last - first) := mul_nonneg (by linarith) (by linarith)
  linarith

theorem measured_kScan1_percent : Measured kScan1 3 (.percent 70) [10, 20, 10] 10 :=
  { measured_kScan1 with back := by decide +kernel }

/-- The hypotheses are met by a scan for which the integral does fall. -/
example : Measured kScan1 3 (.percent 70) [10, 20, 10] 10 ∧
    background [10, 20, 10] (.percent (100 : ℚ)) = .ok (some (40 / 3)) ∧
    integrate kScan1 none (.percent 70) true = .ok (some 10) ∧
    integrate kScan1 none (.percent 100) true = .ok (some (10 / 3)) :=
  ⟨measured_kScan1_percent, by decide +kernel, by decide +kernel, by decide +kernel⟩

end Verif.Data
