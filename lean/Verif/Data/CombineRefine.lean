import Verif.Data.CombineLemmas
import Mathlib.Data.List.Induction

set_option linter.unusedSectionVars false

/-! The table computed by `combine_data` is the specified one, sorted. -/

namespace Verif.Data

variable {α β γ : Type} [Field α] [LinearOrder α]

/-- One step of the row-wise loop. -/
def mergeStep (tols : List α) (A : List (Row α)) (R : List (Row α)) (b : Row α) : List (Row α) :=
  match firstNear tols A b with
  | some j => R.modify j (fun r => r.add b)
  | none => R ++ [b]

theorem firstNear_lt {tols : List α} {A : List (Row α)} {b : Row α} {j : Nat}
    (h : firstNear tols A b = some j) : j < A.length := by
  unfold firstNear at h
  rw [List.findIdx?_eq_some_iff_getElem] at h
  exact h.1

theorem modify_append_left {l₁ l₂ : List β} {j : Nat} (h : j < l₁.length) (f : β → β) :
    (l₁ ++ l₂).modify j f = l₁.modify j f ++ l₂ := by
  induction l₁ generalizing j with
  | nil => simp at h
  | cons x xs ih =>
    cases j with
    | zero => simp
    | succ j => simp only [List.cons_append, List.modify_succ_cons]; rw [ih (by simpa using h)]

theorem mapIdx_id (l : List β) : l.mapIdx (fun _ a => a) = l := by
  apply List.ext_getElem <;> simp

theorem mergeStep_spec (tols : List α) (A B : List (Row α)) (b : Row α) :
    mergeStep tols A (specMerge tols A B) b = specMerge tols A (B ++ [b]) := by
  unfold mergeStep
  cases h : firstNear tols A b with
  | none =>
    simp only [specMerge, List.filter_append, List.append_assoc]
    simp [h]
  | some j =>
    have hj := firstNear_lt h
    simp only [specMerge, List.filter_append]
    have hf : ([b].filter fun b => decide (firstNear tols A b = none)) = [] := by simp [h]
    rw [hf, List.append_nil]
    have hlen : ∀ B : List (Row α), (A.mapIdx (fun j a =>
        (B.filter (fun b => firstNear tols A b = some j)).foldl Row.add a)).length = A.length := by
      simp
    rw [modify_append_left (by rw [hlen]; exact hj)]
    congr 1
    apply List.ext_getElem
    · simp
    intro r h1 h2
    rw [List.getElem_modify]
    simp only [List.getElem_mapIdx]
    by_cases hr : j = r
    · subst hr
      simp [h]
    · have : ([b].filter fun b => decide (firstNear tols A b = some r)) = [] := by
        simp [h, hr]
      simp [hr, this]

theorem foldl_mergeStep (tols : List α) (A B : List (Row α)) :
    B.foldl (mergeStep tols A) A = specMerge tols A B := by
  induction B using List.reverseRecOn with
  | nil => simp [specMerge, mapIdx_id]
  | append_singleton B b ih => rw [List.foldl_append, ih]; exact mergeStep_spec _ _ _ _

theorem length_specMerge_ge (tols : List α) (A B : List (Row α)) :
    A.length ≤ (specMerge tols A B).length := by
  simp [specMerge]

/-- Initial representation. -/
theorem repr_init {dk : DataKeys} {t : Table α} {n : Nat} (hr : Rect n t) :
    Repr dk (t.map Prod.fst) t (rowsOf dk n t) := by
  have hl : (rowsOf dk n t).length = n := by simp [rowsOf]
  exact ⟨rfl, by rw [hl]; exact hr, by rw [hl]⟩

theorem get_det {a : DataObj α} {n : Nat} (hr : Rect n a.cols)
    (h : a.dk.detector ∈ a.cols.map Prod.fst) :
    ∃ d, a.cols.get a.dk.detector = .ok d ∧ d.length = n := by
  obtain ⟨d, h1, h2⟩ := lookup_rect hr h
  exact ⟨d, by rw [Table.get, h1], h2⟩

theorem combineStep_ok {a b : DataObj α} {na nb : Nat} (hc : Compatible a b na nb)
    (tols : Tols α)
    (ht : (tols.expand (coordCols a.dk a.cols).length).length = (coordCols a.dk a.cols).length)
    {temp : Table α} {R : List (Row α)} (h : Repr a.dk (a.cols.map Prod.fst) temp R)
    (hR : na ≤ R.length) {i : Nat} (hi : i < nb) :
    ∃ temp', combineStep a b tols temp i = .ok temp' ∧
      Repr a.dk (a.cols.map Prod.fst) temp'
        (mergeStep (tols.expand (coordCols a.dk a.cols).length) (rowsOf a.dk na a.cols) R
          (rowAt a.dk b.cols i)) := by
  have hlenc : (rowAt a.dk b.cols i).coord.length = (coordCols a.dk a.cols).length := by
    have := congrArg List.length (filter_key_map hc.keys (fun k => decide (k ∉ a.dk.values)))
    simp only [List.length_map] at this
    simp only [rowAt, valuesAt, List.length_map, coordCols_eq]
    exact this
  obtain ⟨d, hd, hdl⟩ := get_det hc.rectA hc.det
  have hvals : valsAt (coordCols b.dk b.cols) i = .ok (rowAt a.dk b.cols i).coord := by
    rw [hc.dk, valsAt_ok (by rw [coordCols_eq]; exact hc.rectB.filter _) hi, coordCols_eq]; rfl
  have hfm := findMatch_ok tols a.dk a.cols (rowAt a.dk b.cols i) hc.rectA hlenc ht
    (List.range na) (by simp)
  have hfi : (List.range na).find? (fun j =>
      decide (Near (tols.expand (coordCols a.dk a.cols).length) (rowAt a.dk a.cols j)
        (rowAt a.dk b.cols i))) = firstNear (tols.expand (coordCols a.dk a.cols).length)
          (rowsOf a.dk na a.cols) (rowAt a.dk b.cols i) := by
    rw [firstNear, rowsOf_eq]
    exact find?_range_eq_findIdx? na (rowAt a.dk a.cols) (fun r => decide (Near
      (tols.expand (coordCols a.dk a.cols).length) r (rowAt a.dk b.cols i)))
  rw [hfi] at hfm
  have hstep : combineStep a b tols temp i =
      (match firstNear (tols.expand (coordCols a.dk a.cols).length)
          (rowsOf a.dk na a.cols) (rowAt a.dk b.cols i) with
       | some j => addCounts a.dk b.cols i j temp
       | none => appendRow b.cols i temp) := by
    unfold combineStep
    rw [hvals, hd]
    show ((findMatch tols _ _ (List.range d.length)).bind _) = _
    rw [hdl, hfm]
    rfl
  rw [hstep]
  unfold mergeStep
  cases hfn : firstNear (tols.expand (coordCols a.dk a.cols).length)
      (rowsOf a.dk na a.cols) (rowAt a.dk b.cols i) with
  | none => exact h.appendRow hc.keys hc.nodup hc.rectB hi
  | some j =>
    have hj := firstNear_lt hfn
    have : (rowsOf a.dk na a.cols).length = na := by simp [rowsOf]
    exact h.addCounts hc.keys hc.nodup hc.rectB hi (by omega)

theorem loop_ok {a b : DataObj α} {na nb : Nat} (hc : Compatible a b na nb) (tols : Tols α)
    (ht : (tols.expand (coordCols a.dk a.cols).length).length = (coordCols a.dk a.cols).length)
    (m : Nat) (hm : m ≤ nb) :
    ∃ temp', (List.range m).foldlM (combineStep a b tols) a.cols = .ok temp' ∧
      Repr a.dk (a.cols.map Prod.fst) temp'
        (specMerge (tols.expand (coordCols a.dk a.cols).length) (rowsOf a.dk na a.cols)
          ((List.range m).map (rowAt a.dk b.cols))) := by
  induction m with
  | zero =>
    refine ⟨a.cols, rfl, ?_⟩
    simpa [specMerge, mapIdx_id] using repr_init (dk := a.dk) hc.rectA
  | succ m ih =>
    obtain ⟨temp, h1, h2⟩ := ih (by omega)
    have hge := length_specMerge_ge (tols.expand (coordCols a.dk a.cols).length)
      (rowsOf a.dk na a.cols) ((List.range m).map (rowAt a.dk b.cols))
    have hl : (rowsOf a.dk na a.cols).length = na := by simp [rowsOf]
    obtain ⟨temp', h3, h4⟩ := combineStep_ok hc tols ht h2 (by omega) (i := m) (by omega)
    refine ⟨temp', ?_, ?_⟩
    · rw [List.range_succ, List.foldlM_append, h1]
      show ((combineStep a b tols temp m).bind _) = _
      rw [h3]; rfl
    · rw [List.range_succ, List.map_append]
      rw [mergeStep_spec] at h4
      exact h4

/-- The order used for sorting, as a Boolean function on rows. -/
def rowLe (a b : Row α) : Bool := lexLe a.coord.reverse b.coord.reverse

theorem rowLe_iff (a b : Row α) : rowLe a b = true ↔ CoordLe a b := by
  rw [rowLe, lexLe_iff, CoordLe, List.reverse_inj]

theorem take_ok {ind : List Nat} {xs : List α} (h : ∀ i ∈ ind, i < xs.length) :
    take ind xs = .ok (ind.map (fun i => xs.getD i 0)) := by
  apply mapM_ok
  intro i hi
  rw [getE_ok (h i hi)]
  simp [List.getD_eq_getElem?_getD, h i hi]

theorem sortTable_ok {dk : DataKeys} {keys : List String} {t : Table α} {R : List (Row α)}
    (h : Repr dk keys t R) (hcoord : ∃ k ∈ keys, k ∉ dk.values) :
    ∃ t', sortTable dk t = .ok t' ∧ Repr dk keys t' (isort rowLe R) := by
  obtain ⟨k, hk, hkd⟩ := hcoord
  rw [← h.keys] at hk
  obtain ⟨c0, hc0, hc0k⟩ := List.mem_map.1 hk
  have hne : coordCols dk t ≠ [] := by
    rw [coordCols_eq]
    exact List.ne_nil_of_mem (List.mem_filter.2 ⟨hc0, by simp [hc0k, hkd]⟩)
  have hrect : Rect R.length (coordCols dk t) := by
    rw [coordCols_eq]; exact h.rect.filter _
  cases hcc : coordCols dk t with
  | nil => exact absurd hcc hne
  | cons c cs =>
    rw [hcc] at hrect
    have hcl : c.2.length = R.length := hrect c (by simp)
    have hall : cs.all (fun d => d.2.length = c.2.length) = true := by
      rw [List.all_eq_true]
      intro d hd
      simp [hcl, hrect d (by simp [hd])]
    let ind := lexsort (c :: cs) R.length
    have hind : ∀ i ∈ ind, i < R.length := by
      intro i hi
      have : i ∈ List.range R.length := (isort_perm _ _).mem_iff.1 hi
      simpa using this
    have hindl : ind.length = R.length := by
      show (isort _ _).length = _
      simp
    refine ⟨t.map fun d => (d.1, ind.map (fun i => d.2.getD i 0)), ?_, ?_, ?_, ?_⟩
    · unfold sortTable
      rw [hcc]
      show (if (cs.all fun d => decide (d.2.length = c.2.length)) = true then _ else _) = _
      rw [if_pos hall, hcl]
      apply mapM_ok
      intro d hd
      show ((take ind d.2).bind _) = _
      rw [take_ok (by intro i hi; rw [h.rect d hd]; exact hind i hi)]
      rfl
    · rw [← h.keys, List.map_map]; rfl
    · intro d hd
      obtain ⟨d', _, rfl⟩ := List.mem_map.1 hd
      simp [hindl]
    · have hmap : isort rowLe R = ind.map (rowAt dk t) := by
        have hR : R = (List.range R.length).map (rowAt dk t) := by
          rw [← rowsOf_eq, h.rows]
        conv_lhs => rw [hR]
        symm
        apply isort_map
        intro i j
        show rowLe (rowAt dk t i) (rowAt dk t j) = lexLe (sortKey (c :: cs) i) (sortKey (c :: cs) j)
        rw [← hcc, coordCols_eq]; rfl
      rw [hmap, List.length_map, hindl, rowsOf_eq]
      apply List.ext_getElem
      · simp [hindl]
      intro r h1 h2
      have hr : r < ind.length := by simpa using h2
      rw [List.getElem_map, List.getElem_map, List.getElem_range]
      have e : ∀ p : String → Bool,
          valuesAt ((t.map fun d => (d.1, ind.map (fun i => d.2.getD i 0))).filter
            fun c => p c.1) r = valuesAt (t.filter fun c => p c.1) ind[r] := by
        intro p
        rw [List.filter_map, valuesAt, List.map_map]
        apply List.map_congr_left
        intro d _
        simp [List.getD_eq_getElem?_getD, hr]
      unfold rowAt
      rw [e (fun k => decide (k ∉ dk.values)), e (fun k => decide (k ∈ dk.values))]

/-- **Refinement theorem.**  For compatible data sets `combine_data` succeeds,
keeps the columns, and its row view is the specified merge, sorted. -/
theorem combineTable_refines_aux {a b : DataObj α} {na nb : Nat} (hc : Compatible a b na nb)
    (tols : Option (Tols α)) (ts : List α)
    (hts : ts = (resolveTols b tols).expand (ncoord a)) (hlen : ts.length = ncoord a) :
    ∃ t, combineTable a b tols = .ok t ∧
      Repr a.dk (a.cols.map Prod.fst) t
        (isort rowLe (specMerge ts (rowsOf a.dk na a.cols) (rowsOf a.dk nb b.cols))) := by
  have hcl : (coordCols a.dk a.cols).length = ncoord a := by rw [coordCols_eq]; rfl
  have hdet : b.dk.detector ∈ b.cols.map Prod.fst := by rw [hc.keys, hc.dk]; exact hc.det
  obtain ⟨d, hd, hdl⟩ := get_det hc.rectB hdet
  obtain ⟨temp, h1, h2⟩ := loop_ok hc (resolveTols b tols)
    (by rw [hcl, ← hts, hlen]) nb le_rfl
  rw [hcl, ← hts] at h2
  obtain ⟨t, h3, h4⟩ := sortTable_ok h2 hc.coord
  refine ⟨t, ?_, ?_⟩
  · unfold combineTable
    rw [hd]
    show (Except.bind (List.foldlM _ _ (List.range d.length)) _) = _
    rw [hdl, h1]
    exact h3
  · exact h4

theorem Combinable.compatible {a b : DataObj α} {na nb : Nat} (h : Combinable a b na nb) :
    Compatible a b na nb :=
  ⟨h.keys, h.nodup, h.rectA, h.rectB, h.dk, h.present _ (by simp [DataKeys.values]), h.coord⟩

/-- Columns are coordinates plus the three counts. -/
theorem Combinable.length {a b : DataObj α} {na nb : Nat} (h : Combinable a b na nb) :
    b.cols.length - 3 = ncoord a := by
  have hb : b.cols.length = a.cols.length := by simpa using congrArg List.length h.keys
  have h3 : ((a.cols.map Prod.fst).filter (fun k => decide (k ∈ a.dk.values))).length = 3 := by
    have : (a.dk.values).Perm ((a.cols.map Prod.fst).filter (fun k => decide (k ∈ a.dk.values))) := by
      rw [List.perm_ext_iff_of_nodup h.names (h.nodup.filter _)]
      intro k
      simp only [List.mem_filter, decide_eq_true_eq]
      exact ⟨fun hk => ⟨h.present k hk, hk⟩, fun hk => hk.2⟩
    rw [← this.length_eq]; rfl
  have hs := List.length_eq_length_filter_add (l := a.cols)
    (fun c => decide (c.1 ∈ a.dk.values))
  have h4 : (a.cols.filter (fun c => decide (c.1 ∈ a.dk.values))).length = 3 := by
    rw [← h3, List.filter_map, List.length_map]; rfl
  have h5 : (a.cols.filter (fun c => !decide (c.1 ∈ a.dk.values))).length = ncoord a := by
    unfold ncoord; congr 2; funext c; simp
  omega

theorem bcast_single (f : α → α → Bool) (d : List α) (t : α) :
    bcast f d [t] = .ok (d.map (fun x => f x t)) := by
  unfold bcast
  split
  · next h =>
    match d, h with
    | [x], _ => rfl
  · split
    · next h => simp at h
    · next heq _ => cases heq; rfl
    · next h => simp_all

theorem within_single (t : α) (o n : List α) : within (.vec [t]) o n = within (.scalar t) o n := by
  unfold within
  congr 1
  funext d
  simp only [bcast_single]

theorem findMatch_single (t : α) (o : Table α) (n : List α) (js : List Nat) :
    findMatch (.vec [t]) o n js = findMatch (.scalar t) o n js := by
  induction js with
  | nil => rfl
  | cons j js ih => unfold findMatch; simp only [within_single, ih]

theorem combineTable_single (a b : DataObj α) (t : α) :
    combineTable a b (some (.vec [t])) = combineTable a b (some (.scalar t)) := by
  unfold combineTable
  have : combineStep a b (resolveTols b (some (.vec [t])))
      = combineStep a b (resolveTols b (some (.scalar t))) := by
    funext temp i
    unfold combineStep
    simp only [resolveTols, findMatch_single]
  rw [this]

/-- **Refinement theorem.**  For combinable data sets `combine_data` succeeds,
keeps the columns, and its row view is the specified merge, sorted. -/
theorem combineTable_refines {a b : DataObj α} {na nb : Nat} (hc : Combinable a b na nb)
    {tols : Option (Tols α)} {ts : List α} (ht : TolsMean (ncoord a) tols ts) :
    ∃ t, combineTable a b tols = .ok t ∧
      Repr a.dk (a.cols.map Prod.fst) t
        (isort rowLe (specMerge ts (rowsOf a.dk na a.cols) (rowsOf a.dk nb b.cols))) := by
  cases ht with
  | default =>
    exact combineTable_refines_aux hc.compatible none _
      (by simp [resolveTols, Tols.expand, hc.length]) (by simp)
  | scalar t => exact combineTable_refines_aux hc.compatible _ _ rfl (by simp)
  | single t =>
    rw [combineTable_single]
    exact combineTable_refines_aux hc.compatible (some (.scalar t)) _ rfl (by simp)
  | vec ts h => exact combineTable_refines_aux hc.compatible _ _ rfl h

end Verif.Data
