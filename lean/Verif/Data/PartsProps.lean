import Verif.Data.AnalysisProps

set_option linter.unusedSectionVars false

/-!
# Property C225: integrals over parts of a scan
-/

namespace Verif.Data

open Finset

variable {α : Type} [Field α] [LinearOrder α]

/-! ## Specification -/

/-- Two masks for `n` points that meet at the point `m`: the first selects it and points before it, the second selects it
and points after it. -/
structure Meet (n m : Nat) (b₁ b₂ : List Bool) : Prop where
  len₁ : b₁.length = n
  len₂ : b₂.length = n
  at₁ : b₁.getD m false = true
  at₂ : b₂.getD m false = true
  before : ∃ i, i < m ∧ b₁.getD i false = true
  after : ∃ i, m < i ∧ b₂.getD i false = true
  none₁ : ∀ i, m < i → b₁.getD i false = false
  none₂ : ∀ i, i < m → b₂.getD i false = false

/-- The points that one of two masks selects. -/
def eitherMask (b₁ b₂ : List Bool) : List Bool := List.zipWith (· || ·) b₁ b₂

/-! ## Lemmas -/

/-- The trapezoidal rule over two parts that share a point. -/
theorem trapSum_cut {xs ys : List α} (h : xs.length = ys.length) (x y : α) (xs' ys' : List α) :
    trapSum (xs ++ x :: xs') (ys ++ y :: ys') = trapSum (xs ++ [x]) (ys ++ [y]) + trapSum (x :: xs') (y :: ys') := by
  unfold trapSum
  have hl : (xs ++ x :: xs').length - 1 = xs.length + xs'.length := by simp
  rw [hl, Finset.sum_range_add]
  have hl1 : (xs ++ [x]).length - 1 = xs.length := by simp
  have hl2 : (x :: xs').length - 1 = xs'.length := by simp
  rw [hl1, hl2]
  have first : ∀ (us : List α) (u : α) (us' : List α) (i : Nat), i ≤ us.length →
      (us ++ u :: us').getD i 0 = (us ++ [u]).getD i 0 := by
    intro us u us' i hi
    induction us generalizing i with
    | nil =>
      have : i = 0 := by simpa using hi
      subst this
      rfl
    | cons v us ih =>
      cases i with
      | zero => rfl
      | succ i => simpa using ih i (by simpa using hi)
  have second : ∀ (us : List α) (u : α) (us' : List α) (i : Nat), (us ++ u :: us').getD (us.length + i) 0 = (u :: us').getD i 0 := by
    intro us u us' i
    induction us with
    | nil => simp
    | cons v us ih =>
      have : (v :: us).length + i = (us.length + i) + 1 := by simp; omega
      rw [this]
      simpa using ih
  congr 1
  · refine Finset.sum_congr rfl fun i hi => ?_
    rw [Finset.mem_range] at hi
    rw [first xs x xs' i (by omega), first xs x xs' (i + 1) (by omega), first ys y ys' i (by omega), first ys y ys' (i + 1) (by omega)]
  · refine Finset.sum_congr rfl fun i hi => ?_
    rw [add_assoc, second xs x xs' i, second xs x xs' (i + 1), h, second ys y ys' i, second ys y ys' (i + 1)]

theorem trapSum_nonneg [IsStrictOrderedRing α] {x y : List α} (hx : ∀ i, i + 1 < x.length → x.getD i 0 ≤ x.getD (i + 1) 0)
    (h : ∀ i < x.length, 0 ≤ y.getD i 0) : 0 ≤ trapSum x y := by
  unfold trapSum
  refine Finset.sum_nonneg fun i hi => ?_
  rw [Finset.mem_range] at hi
  have h1 := hx i (by omega)
  have h2 := h i (by omega)
  have h3 := h (i + 1) (by omega)
  have : 0 ≤ (x.getD (i + 1) 0 - x.getD i 0) * (y.getD i 0 + y.getD (i + 1) 0) := mul_nonneg (by linarith) (by linarith)
  linarith

/-- The trapezoidal rule for one value everywhere. -/
theorem trapSum_flat [IsStrictOrderedRing α] {x y : List α} {c : α} (h : ∀ i < x.length, y.getD i 0 = c) :
    trapSum x y = c * (x.getD (x.length - 1) 0 - x.getD 0 0) := by
  unfold trapSum
  rw [← Finset.sum_range_sub (fun i => x.getD i 0), Finset.mul_sum]
  refine Finset.sum_congr rfl fun i hi => ?_
  rw [Finset.mem_range] at hi
  rw [h i (by omega), h (i + 1) (by omega)]
  ring

theorem getD_steps {x : List α} (h : x.Pairwise (· ≤ ·)) : ∀ i, i + 1 < x.length → x.getD i 0 ≤ x.getD (i + 1) 0 := by
  intro i hi
  rw [List.getD_eq_getElem _ _ (by omega), List.getD_eq_getElem _ _ hi]
  exact List.pairwise_iff_getElem.1 h i (i + 1) (by omega) hi (by omega)

/-- What masks that meet select. -/
theorem meet_selects {n m : Nat} {b₁ b₂ : List Bool} (h : Meet n m b₁ b₂) : ∃ pre post : List Nat, pre ≠ [] ∧ post ≠ [] ∧
    (List.range n).filter (fun i => b₁.getD i false) = pre ++ [m] ∧
    (List.range n).filter (fun i => b₂.getD i false) = m :: post ∧
    (List.range n).filter (fun i => (eitherMask b₁ b₂).getD i false) = pre ++ m :: post := by
  have inRange : ∀ (b : List Bool) (i : Nat), b.length = n → b.getD i false = true → i < n := by
    intro b i hb hi
    by_contra hn
    rw [List.getD_eq_default _ _ (by omega)] at hi
    cases hi
  have hm : m < n := inRange b₁ m h.len₁ h.at₁
  have either : ∀ i, i < n → (eitherMask b₁ b₂).getD i false = (b₁.getD i false || b₂.getD i false) := by
    intro i hi
    have h1 := h.len₁
    have h2 := h.len₂
    unfold eitherMask
    rw [List.getD_eq_getElem _ _ (by simp; omega), List.getD_eq_getElem b₁ _ (by omega), List.getD_eq_getElem b₂ _ (by omega)]
    simp
  obtain ⟨r, rfl⟩ : ∃ r, n = m + (r + 1) := ⟨n - m - 1, by omega⟩
  have hsplit : List.range (m + (r + 1)) = List.range m ++ m :: (List.range r).map (m + · + 1) := by
    rw [List.range_add, List.range_succ_eq_map, List.map_cons, List.map_map, Nat.add_zero]
    rfl
  have tail_gt : ∀ i ∈ (List.range r).map (m + · + 1), m < i ∧ i < m + (r + 1) := by
    intro i hi
    obtain ⟨j, hj, rfl⟩ := List.mem_map.1 hi
    rw [List.mem_range] at hj
    exact ⟨by omega, by omega⟩
  refine ⟨(List.range m).filter (fun i => b₁.getD i false), ((List.range r).map (m + · + 1)).filter (fun i => b₂.getD i false), ?_, ?_, ?_, ?_, ?_⟩
  · obtain ⟨i, hi, hb⟩ := h.before
    exact List.ne_nil_of_mem (List.mem_filter.2 ⟨List.mem_range.2 hi, hb⟩)
  · obtain ⟨i, hi, hb⟩ := h.after
    have hin := inRange b₂ i h.len₂ hb
    refine List.ne_nil_of_mem (a := i) (List.mem_filter.2 ⟨List.mem_map.2 ⟨i - m - 1, List.mem_range.2 (by omega), by omega⟩, hb⟩)
  · rw [hsplit, List.filter_append, List.filter_cons, h.at₁]
    rw [if_pos rfl]
    congr 2
    rw [List.filter_eq_nil_iff]
    intro i hi
    rw [h.none₁ i (tail_gt i hi).1]
    exact Bool.false_ne_true
  · rw [hsplit, List.filter_append, List.filter_cons, h.at₂, if_pos rfl]
    have : (List.range m).filter (fun i => b₂.getD i false) = [] := by
      rw [List.filter_eq_nil_iff]
      intro i hi
      rw [h.none₂ i (List.mem_range.1 hi)]
      exact Bool.false_ne_true
    rw [this, List.nil_append]
  · rw [hsplit, List.filter_append, List.filter_cons, either m hm, h.at₁, Bool.true_or, if_pos rfl]
    congr 1
    · refine List.filter_congr fun i hi => ?_
      rw [List.mem_range] at hi
      rw [either i (by omega), h.none₂ i hi, Bool.or_false]
    · congr 1
      refine List.filter_congr fun i hi => ?_
      obtain ⟨h1, h2⟩ := tail_gt i hi
      rw [either i h2, h.none₁ i h1, Bool.false_or]

theorem sum_map_add (L : List String) (f g k : String → α) (h : ∀ s, f s = g s + k s) : (L.map f).sum = (L.map g).sum + (L.map k).sum := by
  induction L with
  | nil => simp
  | cons s L ih =>
    rw [List.map_cons, List.map_cons, List.map_cons, List.sum_cons, List.sum_cons, List.sum_cons, ih, h]
    ring

/-! ## C225 -/

variable [FloorRing α]

/-- **C225** the integral over a range is the sum of the integrals over two parts that meet at a measured point, for every
background. -/
theorem C225_parts {d : DataObj α} {n m : Nat} {bg : Bg α} {int : List α} {β : α} (h : Measured d n bg int β)
    {b₁ b₂ : List Bool} (hm : Meet n m b₁ b₂) (hkle : Bool) :
    ∃ I₁ I₂, integrate d (some b₁) bg hkle = .ok (some I₁) ∧ integrate d (some b₂) bg hkle = .ok (some I₂) ∧
      integrate d (some (eitherMask b₁ b₂)) bg hkle = .ok (some (I₁ + I₂)) := by
  obtain ⟨pre, post, hpre, hpost, e1, e2, e3⟩ := meet_selects hm
  have s1 := Selects.mask (d := d) b₁ hm.len₁
  have s2 := Selects.mask (d := d) b₂ hm.len₂
  have s3 := Selects.mask (d := d) (n := n) (eitherMask b₁ b₂) (by
    have h1 := hm.len₁
    have h2 := hm.len₂
    unfold eitherMask
    simp [h1, h2])
  rw [e1] at s1
  rw [e2] at s2
  rw [e3] at s3
  have l1 := List.length_pos_of_ne_nil hpre
  have l2 := List.length_pos_of_ne_nil hpost
  refine ⟨_, _, integrate_ok h s1 (by simp; omega) hkle, integrate_ok h s2 (by simp; omega) hkle, ?_⟩
  rw [integrate_ok h s3 (by simp; omega) hkle]
  congr 2
  refine sum_map_add _ _ _ _ fun k => ?_
  unfold column net
  simp only [List.map_append, List.map_cons, List.map_nil]
  exact trapSum_cut (by simp) _ _ _ _

/-- **C225** along an increasing axis the mean of the background-corrected intensity, the integral divided by the length of the
range, lies between the least and the greatest of its values. -/
theorem C225_mean [IsStrictOrderedRing α] {d : DataObj α} {n : Nat} {bg : Bg α} {int : List α} {β : α} (h : Measured d n bg int β)
    {bounds : Option (List Bool)} {sel : List Nat} (hs : Selects d n bounds sel) {key : String} (hline : LineScan d sel key)
    (hinc : (column d sel key).Pairwise (· ≤ ·)) {lo hi : α} (hlo : ∀ y ∈ net int β sel, lo ≤ y) (hhi : ∀ y ∈ net int β sel, y ≤ hi)
    (hkle : Bool) : ∃ I first last, integrate d bounds bg hkle = .ok (some I) ∧ (column d sel key).head? = some first ∧
      (column d sel key).getLast? = some last ∧ lo * (last - first) ≤ I ∧ I ≤ hi * (last - first) := by
  have h2 := hline.two
  have hlen : (column d sel key).length = sel.length := by simp [column]
  have hnet : (net int β sel).length = sel.length := by simp [net]
  have hmem : ∀ i < (column d sel key).length, (net int β sel).getD i 0 ∈ net int β sel := by
    intro i hi
    rw [List.getD_eq_getElem _ _ (by omega)]
    exact List.getElem_mem _
  have hrep : ∀ c : α, trapSum (column d sel key) (List.replicate sel.length c) =
      c * ((column d sel key).getD ((column d sel key).length - 1) 0 - (column d sel key).getD 0 0) := by
    intro c
    refine trapSum_flat fun i hi => ?_
    rw [List.getD_eq_getElem _ _ (by simp; omega), List.getElem_replicate]
  have hr : ∀ c : α, ∀ i < (column d sel key).length, (List.replicate sel.length c).getD i 0 = c := by
    intro c i hi
    rw [List.getD_eq_getElem _ _ (by simp; omega), List.getElem_replicate]
  refine ⟨_, (column d sel key).getD 0 0, (column d sel key).getD ((column d sel key).length - 1) 0,
    integrate_ok h hs (by omega) hkle, ?_, ?_, ?_, ?_⟩
  · rw [List.getD_eq_getElem _ _ (by omega), List.head?_eq_getElem?, List.getElem?_eq_getElem (by omega)]
  · rw [List.getD_eq_getElem _ _ (by omega), List.getLast?_eq_getElem?, List.getElem?_eq_getElem (by omega)]
  · rw [sum_line h hline, ← hrep]
    refine trapSum_le (getD_steps hinc) fun i hi => ?_
    rw [hr _ i hi]
    exact hlo _ (hmem i hi)
  · rw [sum_line h hline, ← hrep]
    refine trapSum_le (getD_steps hinc) fun i hi => ?_
    rw [hr _ i hi]
    exact hhi _ (hmem i hi)

/-- **C225** along an increasing axis, with no negative background-corrected intensity, the integral does not become smaller when
the range is extended. -/
theorem C225_grows [IsStrictOrderedRing α] {d : DataObj α} {n m : Nat} {bg : Bg α} {int : List α} {β : α} (h : Measured d n bg int β)
    {b₁ b₂ : List Bool} (hm : Meet n m b₁ b₂) {sel : List Nat} (hs : Selects d n (some b₂) sel) {key : String} (hline : LineScan d sel key)
    (hinc : (column d sel key).Pairwise (· ≤ ·)) (hnn : ∀ y ∈ net int β sel, 0 ≤ y) (hkle : Bool) :
    ∃ I₁ I, integrate d (some b₁) bg hkle = .ok (some I₁) ∧ integrate d (some (eitherMask b₁ b₂)) bg hkle = .ok (some I) ∧ I₁ ≤ I := by
  obtain ⟨I₁, I₂, h1, h2, h3⟩ := C225_parts h hm hkle
  refine ⟨I₁, _, h1, h3, ?_⟩
  have h4 := integrate_ok h hs (by have := hline.two; omega) hkle
  rw [h2, sum_line h hline] at h4
  have h5 : I₂ = trapSum (column d sel key) (net int β sel) := Option.some.inj (Except.ok.inj h4)
  have hlen : (column d sel key).length = (net int β sel).length := by simp [column, net]
  have : 0 ≤ I₂ := by
    rw [h5]
    refine trapSum_nonneg (getD_steps hinc) fun i hi => ?_
    rw [List.getD_eq_getElem _ _ (by omega)]
    exact hnn _ (List.getElem_mem _)
  linarith

/-- The hypotheses are met by a scan of three points that is cut at the second. -/
example : Measured kScan1 3 .none [10, 20, 10] 0 ∧ Meet 3 1 [true, true, false] [false, true, true] ∧
    eitherMask [true, true, false] [false, true, true] = [true, true, true] := by
  refine ⟨measured_kScan1, ⟨rfl, rfl, rfl, rfl, ⟨0, by decide, rfl⟩, ⟨2, by decide, rfl⟩, ?_, ?_⟩, rfl⟩
  · intro i hi
    match i, hi with
    | 2, _ => rfl
    | i + 3, _ => rfl
  · intro i hi
    match i, hi with
    | 0, _ => rfl

end Verif.Data
