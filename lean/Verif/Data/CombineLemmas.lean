import Verif.Data.Lemmas

/-! The loops of `combine_data` refine the row-wise specification. -/

set_option linter.unusedSectionVars false

namespace Verif.Data

variable {α β γ : Type} [Field α] [LinearOrder α]

/-- The tolerance of each of `n` coordinates. -/
def Tols.expand (n : Nat) : Tols α → List α
  | .scalar t => List.replicate n t
  | .vec ts => ts

/-- Two data sets that `combine_data` documents as combinable: the same columns
in the same order, rectangular, the same naming of the count columns, a detector
column, and at least one coordinate column. -/
structure Compatible (a b : DataObj α) (na nb : Nat) : Prop where
  keys : b.cols.map Prod.fst = a.cols.map Prod.fst
  nodup : (a.cols.map Prod.fst).Nodup
  rectA : Rect na a.cols
  rectB : Rect nb b.cols
  dk : b.dk = a.dk
  det : a.dk.detector ∈ a.cols.map Prod.fst
  coord : ∃ k ∈ a.cols.map Prod.fst, k ∉ a.dk.values

theorem coordCols_eq (dk : DataKeys) (t : Table α) :
    coordCols dk t = t.filter (fun c => decide (c.1 ∉ dk.values)) := by
  unfold coordCols isCount
  congr 1; funext c; simp

theorem Rect.filter {n : Nat} {t : Table α} (h : Rect n t) (p) : Rect n (t.filter p) :=
  fun c hc => h c (List.mem_of_mem_filter hc)

theorem valsAt_ok {n i : Nat} {t : Table α} (h : Rect n t) (hi : i < n) :
    valsAt t i = .ok (valuesAt t i) := by
  unfold valsAt valuesAt
  apply mapM_ok
  intro c hc
  have : i < c.2.length := by rw [h c hc]; exact hi
  rw [getE_ok this]
  simp [List.getD_eq_getElem?_getD, this]

theorem bcast_ok {f : α → β → γ} {xs : List α} {ys : List β} (h : xs.length = ys.length) :
    bcast f xs ys = .ok (List.zipWith f xs ys) := by
  simp [bcast, h]

theorem within_ok (tols : Tols α) (a b : Row α) (h1 : a.coord.length = b.coord.length)
    (h2 : (tols.expand a.coord.length).length = a.coord.length) :
    within tols a.coord b.coord = .ok (decide (Near (tols.expand a.coord.length) a b)) := by
  have key : ∀ (xs ys ts : List α), xs.length = ys.length → ts.length = xs.length →
      ((List.zipWith (fun x t => decide (x ≤ t))
        (List.zipWith (fun x y => |x - y|) xs ys) ts).all id = true ↔
      List.Forall₂ (fun (p : α × α) t => |p.1 - p.2| ≤ t) (xs.zip ys) ts) := by
    intro xs
    induction xs with
    | nil => intro ys ts h1 h2; cases ys <;> cases ts <;> simp at *
    | cons x xs ih =>
      intro ys ts h1 h2
      cases ys with
      | nil => simp at h1
      | cons y ys =>
        cases ts with
        | nil => simp at h2
        | cons t ts =>
          simp only [List.length_cons, Nat.add_right_cancel_iff] at h1 h2
          simp only [List.zipWith_cons_cons, List.all_cons, id, Bool.and_eq_true, decide_eq_true_eq,
            List.zip_cons_cons, List.forall₂_cons]
          rw [← ih ys ts h1 h2]
  unfold within
  rw [bcast_ok h1]
  cases tols with
  | scalar t =>
    have hm : ∀ d : List α, d.map (fun x => decide (x ≤ t)) =
        List.zipWith (fun x t => decide (x ≤ t)) d (List.replicate d.length t) := by
      intro d
      induction d with
      | nil => rfl
      | cons x d ih => simp [List.replicate_succ, ih]
    show Except.ok _ = Except.ok _
    congr 1
    rw [hm, Bool.eq_iff_iff, decide_eq_true_eq]
    have := key a.coord b.coord (List.replicate a.coord.length t) h1 (by simp)
    rw [List.length_zipWith, ← h1, Nat.min_self]
    exact this
  | vec ts =>
    replace h2 : ts.length = a.coord.length := h2
    show ((bcast _ _ ts).bind fun b => Except.ok (b.all id)) = _
    rw [bcast_ok (by simp [h2, ← h1])]
    show Except.ok _ = Except.ok _
    congr 1
    rw [Bool.eq_iff_iff, decide_eq_true_eq]
    exact key _ _ _ h1 h2

/-- The coordinate part of the row view. -/
def rowAt (dk : DataKeys) (t : Table α) (i : Nat) : Row α :=
  ⟨valuesAt (t.filter (fun c => decide (c.1 ∉ dk.values))) i,
   valuesAt (t.filter (fun c => decide (c.1 ∈ dk.values))) i⟩

theorem rowsOf_eq (dk : DataKeys) (n : Nat) (t : Table α) :
    rowsOf dk n t = (List.range n).map (rowAt dk t) := rfl

theorem findMatch_ok {n : Nat} (tols : Tols α) (dk : DataKeys) (t : Table α) (b : Row α)
    (hr : Rect n t) (hb : b.coord.length = (coordCols dk t).length)
    (ht : (tols.expand (coordCols dk t).length).length = (coordCols dk t).length)
    (js : List Nat) (hjs : ∀ j ∈ js, j < n) :
    findMatch tols (coordCols dk t) b.coord js =
      .ok (js.find? fun j =>
        decide (Near (tols.expand (coordCols dk t).length) (rowAt dk t j) b)) := by
  induction js with
  | nil => rfl
  | cons j js ih =>
    have hl : (rowAt dk t j).coord.length = (coordCols dk t).length := by
      simp [rowAt, valuesAt, coordCols_eq]
    rw [findMatch, valsAt_ok (by rw [coordCols_eq]; exact hr.filter _) (hjs j (by simp))]
    have : valuesAt (coordCols dk t) j = (rowAt dk t j).coord := by simp [rowAt, coordCols_eq]
    rw [this]
    show ((within tols _ _).bind fun c => if c then _ else _) = _
    rw [within_ok tols (rowAt dk t j) b (by rw [hl, hb]) (by rw [hl]; exact ht), hl]
    show (if _ then _ else _) = _
    rw [List.find?_cons]
    by_cases h : Near (tols.expand (coordCols dk t).length) (rowAt dk t j) b
    · simp [h]; rfl
    · simp only [h, decide_false]
      exact ih (fun j hj => hjs j (by simp [hj]))

theorem find?_range_eq_findIdx? (n : Nat) (f : Nat → β) (p : β → Bool) :
    (List.range n).find? (fun j => p (f j)) = ((List.range n).map f).findIdx? p := by
  rw [List.findIdx?_map]
  induction n with
  | zero => rfl
  | succ n ih =>
    rw [List.range_succ, List.find?_append, List.findIdx?_append]
    rw [ih]
    congr 1
    simp only [List.find?_cons, List.find?_nil, List.findIdx?_cons, List.findIdx?_nil,
      List.length_range, Function.comp]
    by_cases h : p (f n) <;> simp [h]

theorem filter_key_map {t : Table α} {o : Table α} (hk : t.map Prod.fst = o.map Prod.fst)
    (p : String → Bool) :
    (t.filter (fun c => p c.1)).map Prod.fst = (o.filter (fun c => p c.1)).map Prod.fst := by
  have : ∀ u : Table α, (u.filter (fun c => p c.1)).map Prod.fst = (u.map Prod.fst).filter p := by
    intro u; rw [List.filter_map]; rfl
  rw [this, this, hk]

theorem pair_filter {t o : Table α} (hk : t.map Prod.fst = o.map Prod.fst)
    (hn : (o.map Prod.fst).Nodup) (p : String → Bool)
    (f : (String × List α) → Option (List α) → β) :
    (t.filter (fun c => p c.1)).map (fun c => f c (o.lookup c.1)) =
      List.zipWith (fun c d => f c (some d.2)) (t.filter (fun c => p c.1))
        (o.filter (fun c => p c.1)) := by
  have hn' : ((o.filter (fun c => p c.1)).map Prod.fst).Nodup :=
    hn.sublist (List.filter_sublist.map _)
  rw [← map_lookup_eq_zipWith (filter_key_map hk p) hn' f]
  apply List.map_congr_left
  intro c hc
  have hpc : p c.1 = true := by simpa using (List.mem_filter.1 hc).2
  have hmem : c.1 ∈ o.map Prod.fst := hk ▸ List.mem_map_of_mem (List.mem_filter.1 hc).1
  obtain ⟨d, hd, h1, h2⟩ := lookup_isSome_of_mem_keys hmem
  have hd' : d ∈ o.filter (fun c => p c.1) := List.mem_filter.2 ⟨hd, by simpa [h1] using hpc⟩
  rw [h2, ← h1, lookup_eq_of_mem hn' hd']

theorem lookup_rect {o : Table α} {n : Nat} (hr : Rect n o) {k : String}
    (h : k ∈ o.map Prod.fst) : ∃ d, o.lookup k = some d ∧ d.length = n := by
  obtain ⟨c, hc, _, h2⟩ := lookup_isSome_of_mem_keys h
  exact ⟨c.2, h2, hr c hc⟩

/-- Value of column `k` of `o` in row `i`. -/
def cell (o : Option (List α)) (i : Nat) : α := (o.getD []).getD i 0

theorem addCounts_ok {dk : DataKeys} {temp o : Table α} {i j m n : Nat}
    (hk : temp.map Prod.fst = o.map Prod.fst) (hm : Rect m temp) (hn : Rect n o)
    (hi : i < n) (hj : j < m) :
    addCounts dk o i j temp = .ok (temp.map fun c =>
      if decide (c.1 ∈ dk.values) then (c.1, c.2.set j (c.2.getD j 0 + cell (o.lookup c.1) i))
      else c) := by
  unfold addCounts
  apply mapM_ok
  intro c hc
  unfold isCount
  by_cases h : c.1 ∈ dk.values
  · have hc1 : c.1 ∈ o.map Prod.fst := hk ▸ List.mem_map_of_mem hc
    obtain ⟨d, hd, hdl⟩ := lookup_rect hn hc1
    have hl := hm c hc
    simp only [h, decide_true, if_true]
    rw [getE_ok (by omega), Table.get, hd]
    show ((getE d i).bind fun y => Except.ok _) = _
    rw [getE_ok (by omega)]
    simp [Except.bind, cell, List.getD_eq_getElem?_getD, hl, hj, hdl, hi]
  · simp [h]

theorem appendRow_ok {temp o : Table α} {i n : Nat}
    (hk : temp.map Prod.fst = o.map Prod.fst) (hn : Rect n o) (hi : i < n) :
    appendRow o i temp = .ok (temp.map fun c => (c.1, c.2 ++ [cell (o.lookup c.1) i])) := by
  unfold appendRow
  apply mapM_ok
  intro c hc
  have hc1 : c.1 ∈ o.map Prod.fst := hk ▸ List.mem_map_of_mem hc
  obtain ⟨d, hd, hdl⟩ := lookup_rect hn hc1
  rw [Table.get, hd]
  show ((getE d i).bind fun y => Except.ok _) = _
  rw [getE_ok (by omega)]
  simp [Except.bind, cell, List.getD_eq_getElem?_getD, hdl, hi]

/-- The loop invariant: `temp` has the right columns and its row view is `R`. -/
structure Repr (dk : DataKeys) (keys : List String) (temp : Table α) (R : List (Row α)) : Prop where
  keys : temp.map Prod.fst = keys
  rect : Rect R.length temp
  rows : rowsOf dk R.length temp = R

theorem Repr.rowAt {dk : DataKeys} {keys} {temp : Table α} {R : List (Row α)}
    (h : Repr dk keys temp R) {r : Nat} (hr : r < R.length) : rowAt dk temp r = R[r] := by
  have := congrArg (fun l => l[r]?) h.rows
  simp only [rowsOf_eq, List.getElem?_map] at this
  rw [List.getElem?_eq_getElem (by simpa using hr), List.getElem?_eq_getElem hr] at this
  simpa using this

theorem zipWith_valuesAt {t o : Table α} (hk : t.map Prod.fst = o.map Prod.fst)
    (hn : (o.map Prod.fst).Nodup) (p : String → Bool) (f : α → α → α) (i j : Nat) :
    (t.filter (fun c => p c.1)).map (fun c => f (c.2.getD j 0) (cell (o.lookup c.1) i)) =
      List.zipWith f (valuesAt (t.filter (fun c => p c.1)) j)
        (valuesAt (o.filter (fun c => p c.1)) i) := by
  rw [pair_filter hk hn p (fun c d => f (c.2.getD j 0) (cell d i))]
  unfold valuesAt
  rw [List.zipWith_map]
  rfl

theorem Repr.addCounts {dk : DataKeys} {keys} {temp o : Table α} {R : List (Row α)}
    (h : Repr dk keys temp R) (ho : o.map Prod.fst = keys) (hnd : keys.Nodup) {n i j : Nat}
    (hn : Rect n o) (hi : i < n) (hj : j < R.length) :
    ∃ temp', Data.addCounts dk o i j temp = .ok temp' ∧
      Repr dk keys temp' (R.modify j (fun r => r.add (Data.rowAt dk o i))) := by
  have hk : temp.map Prod.fst = o.map Prod.fst := h.keys.trans ho.symm
  refine ⟨_, addCounts_ok hk h.rect hn hi hj, ?_, ?_, ?_⟩
  · rw [← h.keys, List.map_map]
    apply List.map_congr_left
    intro c _; simp only [Function.comp]; split <;> rfl
  · intro c hc
    obtain ⟨d, hd, rfl⟩ := List.mem_map.1 hc
    rw [List.length_modify]
    split <;> simp [h.rect d hd]
  · rw [rowsOf_eq, List.length_modify]
    apply List.ext_getElem
    · simp
    intro r h1 h2
    simp only [List.length_map, List.length_range] at h1
    rw [List.getElem_map, List.getElem_range, List.getElem_modify, ← h.rowAt h1]
    unfold Data.rowAt
    have e1 : ∀ (u : Table α) (F : String × List α → String × List α) (p : String → Bool)
        (_ : ∀ c ∈ u, (F c).1 = c.1), (u.map F).filter (fun c => p c.1) =
          (u.filter (fun c => p c.1)).map F := by
      intro u F p hF
      rw [List.filter_map]
      congr 1
      apply List.filter_congr
      intro c hc; simp [hF c hc]
    have hF : ∀ c ∈ temp, (if decide (c.1 ∈ dk.values) then
        (c.1, c.2.set j (c.2.getD j 0 + cell (o.lookup c.1) i)) else c).1 = c.1 := by
      intro c _; split <;> rfl
    rw [e1 temp _ (fun k => decide (k ∉ dk.values)) hF,
      e1 temp _ (fun k => decide (k ∈ dk.values)) hF]
    have ecoord : valuesAt ((temp.filter fun c => decide (c.1 ∉ dk.values)).map fun c =>
        if decide (c.1 ∈ dk.values) then
          (c.1, c.2.set j (c.2.getD j 0 + cell (o.lookup c.1) i)) else c) r =
        valuesAt (temp.filter fun c => decide (c.1 ∉ dk.values)) r := by
      unfold valuesAt
      rw [List.map_map]
      apply List.map_congr_left
      intro c hc
      have : c.1 ∉ dk.values := by simpa using (List.mem_filter.1 hc).2
      simp [this]
    have ecount : valuesAt ((temp.filter fun c => decide (c.1 ∈ dk.values)).map fun c =>
        if decide (c.1 ∈ dk.values) then
          (c.1, c.2.set j (c.2.getD j 0 + cell (o.lookup c.1) i)) else c) r =
        if r = j then List.zipWith (· + ·)
          (valuesAt (temp.filter fun c => decide (c.1 ∈ dk.values)) r)
          (valuesAt (o.filter fun c => decide (c.1 ∈ dk.values)) i)
        else valuesAt (temp.filter fun c => decide (c.1 ∈ dk.values)) r := by
      by_cases hrj : r = j
      · subst hrj
        simp only [if_true]
        rw [← zipWith_valuesAt hk (ho ▸ hnd) (fun k => decide (k ∈ dk.values)) (· + ·) i r]
        rw [valuesAt, List.map_map]
        apply List.map_congr_left
        intro c hc
        have hc' := List.mem_filter.1 hc
        have : c.1 ∈ dk.values := by simpa using hc'.2
        have hl := h.rect c hc'.1
        simp [this, List.getD_eq_getElem?_getD, hl, hj]
      · simp only [hrj, if_false]
        rw [valuesAt, List.map_map]
        apply List.map_congr_left
        intro c hc
        have hc' := List.mem_filter.1 hc
        have : c.1 ∈ dk.values := by simpa using hc'.2
        simp [this, List.getD_eq_getElem?_getD, Ne.symm hrj]
    rw [ecoord, ecount]
    by_cases hrj : r = j
    · subst hrj; simp [Row.add]
    · simp [hrj, Ne.symm hrj]

theorem Repr.appendRow {dk : DataKeys} {keys} {temp o : Table α} {R : List (Row α)}
    (h : Repr dk keys temp R) (ho : o.map Prod.fst = keys) (hnd : keys.Nodup) {n i : Nat}
    (hn : Rect n o) (hi : i < n) :
    ∃ temp', Data.appendRow o i temp = .ok temp' ∧
      Repr dk keys temp' (R ++ [Data.rowAt dk o i]) := by
  have hk : temp.map Prod.fst = o.map Prod.fst := h.keys.trans ho.symm
  refine ⟨_, appendRow_ok hk hn hi, ?_, ?_, ?_⟩
  · rw [← h.keys, List.map_map]; rfl
  · intro c hc
    obtain ⟨d, hd, rfl⟩ := List.mem_map.1 hc
    simp [h.rect d hd]
  · rw [rowsOf_eq]
    apply List.ext_getElem
    · simp
    intro r h1 h2
    simp only [List.length_map, List.length_range, List.length_append, List.length_singleton] at h1
    rw [List.getElem_map, List.getElem_range]
    have e : ∀ p : String → Bool,
        valuesAt ((temp.map fun c => (c.1, c.2 ++ [cell (o.lookup c.1) i])).filter
          fun c => p c.1) r = if r < R.length then valuesAt (temp.filter fun c => p c.1) r
            else valuesAt (o.filter fun c => p c.1) i := by
      intro p
      rw [List.filter_map, valuesAt, List.map_map]
      by_cases hr : r < R.length
      · simp only [hr, if_true, valuesAt]
        apply List.map_congr_left
        intro c hc
        have hl := h.rect c (List.mem_filter.1 hc).1
        simp [List.getD_eq_getElem?_getD, List.getElem?_append, hl, hr]
      · have hr' : r = R.length := by omega
        simp only [hr, if_false]
        have := zipWith_valuesAt hk (ho ▸ hnd) p (fun _ y => y) i r
        have hz : List.zipWith (fun _ y => y) (valuesAt (temp.filter fun c => p c.1) r)
            (valuesAt (o.filter fun c => p c.1) i) = valuesAt (o.filter fun c => p c.1) i := by
          have hlen : (valuesAt (temp.filter fun c => p c.1) r).length =
              (valuesAt (o.filter fun c => p c.1) i).length := by
            have := congrArg List.length (filter_key_map hk p)
            simpa [valuesAt] using this
          generalize valuesAt (temp.filter fun c => p c.1) r = xs at hlen
          generalize valuesAt (o.filter fun c => p c.1) i = ys at hlen
          apply List.ext_getElem
          · simp [hlen]
          · intro q _ _; simp
        rw [hz] at this
        rw [← this]
        apply List.map_congr_left
        intro c hc
        have hl := h.rect c (List.mem_filter.1 hc).1
        simp [List.getD_eq_getElem?_getD, hl, hr']
    have e' : Data.rowAt dk (temp.map fun c => (c.1, c.2 ++ [cell (o.lookup c.1) i])) r =
        if r < R.length then Data.rowAt dk temp r else Data.rowAt dk o i := by
      unfold Data.rowAt
      rw [e (fun k => decide (k ∉ dk.values)), e (fun k => decide (k ∈ dk.values))]
      split <;> rfl
    rw [e']
    by_cases hr : r < R.length
    · rw [List.getElem_append_left hr, ← h.rowAt hr]; simp [hr]
    · rw [List.getElem_append_right (by omega)]; simp [hr]

end Verif.Data
