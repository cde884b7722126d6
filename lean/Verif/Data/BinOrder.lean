import Verif.Data.ReverseProps
import Verif.Data.BinProps

/-!
# Rebinning points measured in another order
-/

namespace Verif.Data

variable {α : Type} [Field α] [LinearOrder α]

/-! ## Specification -/

/-- The entries of a column in the order `o`. -/
def inOrder (o : List Nat) (c : List α) : List α := o.map fun i => c.getD i 0

/-- The same points, measured in the order `o`. -/
def DataObj.ordered (d : DataObj α) (o : List Nat) : DataObj α :=
  { d with cols := d.cols.map fun c => (c.1, inOrder o c.2), err := d.err.map (inOrder o) }

/-! ## Lemmas -/

section lemmas

omit [LinearOrder α] in
theorem get_ordered (d : DataObj α) (o : List Nat) (k : String) :
    (d.ordered o).cols.get k = (d.cols.get k).map (inOrder o) := by
  unfold Table.get DataObj.ordered
  simp only [lookup_map_snd (inOrder o)]
  cases d.cols.lookup k <;> rfl

omit [LinearOrder α] in
theorem inOrder_length {o : List Nat} {n : Nat} (ho : o.Perm (List.range n)) (c : List α) : (inOrder o c).length = n := by
  rw [inOrder, List.length_map, ho.length_eq, List.length_range]

omit [LinearOrder α] in
theorem map_range_getD {n : Nat} {c : List α} (h : c.length = n) : ((List.range n).map fun i => c.getD i 0) = c := by
  apply List.ext_getElem
  · simp [h]
  · intro i h1 h2
    simp [List.getElem?_eq_getElem h2]

omit [LinearOrder α] in
theorem inOrder_perm {o : List Nat} {n : Nat} (ho : o.Perm (List.range n)) {c : List α} (h : c.length = n) : (inOrder o c).Perm c := by
  have := ho.map fun i => c.getD i 0
  rw [map_range_getD h] at this
  exact this

omit [LinearOrder α] in
theorem inOrder_zipWith {o : List Nat} {n : Nat} (ho : o.Perm (List.range n)) (f : α → α → α) {a b : List α} (ha : a.length = n)
    (hb : b.length = n) : List.zipWith f (inOrder o a) (inOrder o b) = inOrder o (List.zipWith f a b) := by
  unfold inOrder
  rw [List.zipWith_map, List.zipWith_self]
  apply List.map_congr_left
  intro i hi
  have hi : i < n := List.mem_range.1 (ho.mem_iff.1 hi)
  rw [List.getD_eq_getElem _ _ (by omega), List.getD_eq_getElem _ _ (by omega), List.getD_eq_getElem _ _ (by simp; omega),
    List.getElem_zipWith]

omit [LinearOrder α] in
theorem inOrder_map {o : List Nat} {n : Nat} (ho : o.Perm (List.range n)) (f : α → α) {a : List α} (ha : a.length = n) :
    (inOrder o a).map f = inOrder o (a.map f) := by
  unfold inOrder
  rw [List.map_map]
  apply List.map_congr_left
  intro i hi
  have hi : i < n := List.mem_range.1 (ho.mem_iff.1 hi)
  rw [List.getD_eq_getElem _ _ (by simp; omega), Function.comp, List.getD_eq_getElem _ _ (by omega), List.getElem_map]

omit [Field α] in
theorem nanmax_perm {xs ys : List α} (hp : xs.Perm ys) : nanmax xs = nanmax ys := by
  have key : ∀ (l : List α) (a : α), (∀ x ∈ a :: l, x ≤ l.foldl max a) ∧ l.foldl max a ∈ a :: l := by
    intro l
    induction l with
    | nil => intro a; simp
    | cons c l ih =>
      intro a
      obtain ⟨h1, h2⟩ := ih (max a c)
      rw [List.foldl_cons]
      constructor
      · intro x hx
        have hm := h1 (max a c) (by simp)
        rcases List.mem_cons.1 hx with rfl | hx
        · exact (le_max_left _ _).trans hm
        · rcases List.mem_cons.1 hx with rfl | hx
          · exact (le_max_right _ _).trans hm
          · exact h1 x (by simp [hx])
      · rcases List.mem_cons.1 h2 with h2 | h2
        · rw [h2]
          rcases max_choice a c with h | h <;> rw [h] <;> simp
        · simp [h2]
  cases xs with
  | nil => rw [hp.nil_eq]
  | cons a l =>
    cases ys with
    | nil => exact absurd hp.eq_nil (by simp)
    | cons b l' =>
      exact congrArg Except.ok (le_antisymm ((key l' b).1 _ (hp.mem_iff.1 (key l a).2))
        ((key l a).1 _ (hp.mem_iff.2 (key l' b).2)))

omit [Field α] in
theorem colMin_perm {xs ys : List α} (hp : xs.Perm ys) : colMin xs = colMin ys := by
  have key : ∀ (l : List α) (a : α), (∀ x ∈ a :: l, l.foldl min a ≤ x) ∧ l.foldl min a ∈ a :: l := by
    intro l
    induction l with
    | nil => intro a; simp
    | cons c l ih =>
      intro a
      obtain ⟨h1, h2⟩ := ih (min a c)
      rw [List.foldl_cons]
      constructor
      · intro x hx
        have hm := h1 (min a c) (by simp)
        rcases List.mem_cons.1 hx with rfl | hx
        · exact hm.trans (min_le_left _ _)
        · rcases List.mem_cons.1 hx with rfl | hx
          · exact hm.trans (min_le_right _ _)
          · exact h1 x (by simp [hx])
      · rcases List.mem_cons.1 h2 with h2 | h2
        · rw [h2]
          rcases min_choice a c with h | h <;> rw [h] <;> simp
        · simp [h2]
  cases xs with
  | nil => rw [hp.nil_eq]
  | cons a l =>
    cases ys with
    | nil => exact absurd hp.eq_nil (by simp)
    | cons b l' =>
      exact congrArg Except.ok (le_antisymm ((key l a).1 _ (hp.mem_iff.2 (key l' b).2))
        ((key l' b).1 _ (hp.mem_iff.1 (key l a).2)))

theorem rect_length {t : Table α} {n : Nat} (hr : Rect n t) {k : String} {c : List α}
    (h : t.get k = .ok c) : c.length = n := by
  rw [get_eq_ok] at h
  induction t with
  | nil => cases h
  | cons p t ih =>
    rw [List.lookup_cons] at h
    split at h
    · cases h; exact hr p (by simp)
    · exact ih (fun q hq => hr q (by simp [hq])) h

theorem normalise_ordered {d : DataObj α} {n : Nat} (hr : Rect n d.cols) {o : List Nat} (ho : o.Perm (List.range n)) :
    normalise (d.ordered o) = (normalise d).map fun p => (p.1.ordered o, inOrder o p.2.1, p.2.2) := by
  have hdk : (d.ordered o).dk = d.dk := rfl
  unfold normalise DataObj.time DataObj.monitor
  rw [hdk, get_ordered, get_ordered, show (d.ordered o).timeNorm = d.timeNorm from rfl,
    show (d.ordered o).t0 = d.t0 from rfl, show (d.ordered o).m0 = d.m0 from rfl]
  by_cases htn : d.timeNorm = true
  · simp only [htn, if_true]
    rcases hg : d.cols.get d.dk.time with e | t
    · rfl
    simp only [ok_bind, Except.map]
    by_cases h0 : d.t0 = 0
    · simp only [h0, if_true, nanmax_perm (inOrder_perm ho (rect_length hr hg))]
      rcases nanmax t with e | t0
      · rfl
      · simp only [ok_bind, pure_ok]
        simp [DataObj.ordered, htn]
    · simp only [h0, if_false, ok_bind, pure_ok]
      simp [DataObj.ordered, htn]
  · simp only [htn, if_false, Bool.false_eq_true]
    rcases hg : d.cols.get d.dk.monitor with e | t
    · rfl
    simp only [ok_bind, Except.map]
    by_cases h0 : d.m0 = 0
    · simp only [h0, if_true, nanmax_perm (inOrder_perm ho (rect_length hr hg))]
      rcases nanmax t with e | t0
      · rfl
      · simp only [ok_bind, pure_ok]
        simp [DataObj.ordered, htn]
    · simp only [h0, if_false, ok_bind, pure_ok]
      simp [DataObj.ordered, htn]

/-- Errors of one length with the data. -/
theorem error_ordered {sqrt : α → α} {d : DataObj α} {n : Nat} (hr : Rect n d.cols) (he : ∀ e, d.err = some e → e.length = n)
    {o : List Nat} (ho : o.Perm (List.range n)) :
    (error sqrt (d.ordered o)).map Prod.fst = (error sqrt d).map (fun p => inOrder o p.1) ∧
      ∀ p, error sqrt d = .ok p → p.1.length = n := by
  have hraw : rawError sqrt (d.ordered o) = (rawError sqrt d).map (inOrder o) ∧ ∀ e, rawError sqrt d = .ok e → e.length = n := by
    unfold rawError
    cases hd : d.err with
    | some e =>
      have : (d.ordered o).err = some (inOrder o e) := by simp [DataObj.ordered, hd]
      rw [this]
      exact ⟨rfl, fun e' h => by cases h; exact he e hd⟩
    | none =>
      have : (d.ordered o).err = none := by simp [DataObj.ordered, hd]
      rw [this]
      have hdk : (d.ordered o).dk = d.dk := rfl
      simp only [DataObj.detector, hdk, get_ordered]
      rcases hg : d.cols.get d.dk.detector with e | t
      · exact ⟨rfl, fun e' h => by cases h⟩
      · have hl := rect_length hr hg
        refine ⟨?_, fun e' h => by cases h; simp [hl]⟩
        simp only [Except.map, ok_bind, pure_ok, inOrder_map ho sqrt hl]
  have hmon : ∀ p, normalise d = .ok p → p.2.1.length = n := by
    intro p h1
    unfold normalise at h1
    by_cases htn : d.timeNorm = true
    · simp only [htn, if_true] at h1
      obtain ⟨t, e1, h1⟩ := bind_eq_ok.1 h1
      by_cases h0 : d.t0 = 0
      · simp only [h0, if_true] at h1
        obtain ⟨t0, e2, h1⟩ := bind_eq_ok.1 h1
        cases h1
        exact rect_length hr e1
      · simp only [h0, if_false] at h1
        cases h1
        exact rect_length hr e1
    · simp only [htn, if_false, Bool.false_eq_true] at h1
      obtain ⟨t, e1, h1⟩ := bind_eq_ok.1 h1
      by_cases h0 : d.m0 = 0
      · simp only [h0, if_true] at h1
        obtain ⟨t0, e2, h1⟩ := bind_eq_ok.1 h1
        cases h1
        exact rect_length hr e1
      · simp only [h0, if_false] at h1
        cases h1
        exact rect_length hr e1
  unfold error
  rw [hraw.1, normalise_ordered hr ho]
  rcases h1 : rawError sqrt d with e | e
  · exact ⟨rfl, fun p h => by cases h⟩
  have l1 := hraw.2 e h1
  simp only [Except.map, ok_bind]
  rcases h2 : normalise d with e' | ⟨d', m, m0⟩
  · exact ⟨rfl, fun p h => by cases h⟩
  have l2 : m.length = n := hmon _ h2
  simp only [ok_bind]
  have b1 : bcast (· / ·) e m = .ok (List.zipWith (· / ·) e m) := by
    unfold bcast
    rw [if_pos (by rw [l1, l2])]
  have b2 : bcast (· / ·) (inOrder o e) (inOrder o m) = .ok (inOrder o (List.zipWith (· / ·) e m)) := by
    unfold bcast
    rw [if_pos (by rw [inOrder_length ho, inOrder_length ho]), inOrder_zipWith ho _ l1 l2]
  rw [b1, b2]
  simp only [ok_bind, pure_ok]
  refine ⟨?_, fun p h => by cases h; simp [l1, l2]⟩
  rw [inOrder_map ho _ (n := n) (by simp [l1, l2])]

theorem binArg_ordered {d : DataObj α} {n : Nat} (hr : Rect n d.cols) {o : List Nat} (ho : o.Perm (List.range n))
    (toBin : List (String × BinAxis α)) (key : String) : binArg (d.ordered o) toBin key = binArg d toBin key := by
  unfold binArg
  cases toBin.lookup key with
  | some a => rfl
  | none =>
    have hq : (d.ordered o).qk = d.qk := rfl
    simp only [hq, get_ordered]
    rcases hg : d.cols.get key with e | c
    · rfl
    · have hp := inOrder_perm ho (rect_length hr hg)
      simp only [Except.map, ok_bind, colMin_perm hp, nanmax_perm hp]

omit [LinearOrder α] in
theorem avg_perm {xs ys : List α} (h : xs.Perm ys) : avg xs = avg ys := by
  unfold avg
  rw [h.sum_eq, h.length_eq]

omit [LinearOrder α] in
/-- Entries chosen by a condition on the points. -/
theorem chosen_perm {o : List Nat} {n : Nat} (ho : o.Perm (List.range n)) (P : Nat → Bool) (c : List α) :
    (((List.range n).filter fun i => P (o.getD i 0)).map fun i => (inOrder o c).getD i 0).Perm
      (((List.range n).filter P).map fun i => c.getD i 0) := by
  have hl : o.length = n := by rw [ho.length_eq, List.length_range]
  have e : (((List.range n).filter fun i => P (o.getD i 0)).map fun i => (inOrder o c).getD i 0) = (o.filter P).map fun i => c.getD i 0 := by
    have e1 : ((List.range n).map fun i => o.getD i 0) = o := by
      apply List.ext_getElem
      · simp [hl]
      · intro i h1 h2
        simp [List.getElem?_eq_getElem h2]
    conv_rhs => rw [← e1, List.filter_map, List.map_map]
    apply List.map_congr_left
    intro i hi
    have hi : i < n := List.mem_range.1 (List.mem_filter.1 hi).1
    unfold inOrder
    rw [List.getD_eq_getElem _ _ (by simp; omega), List.getElem_map, Function.comp, List.getD_eq_getElem o _ (by omega)]
  rw [e]
  exact (ho.filter P).map _

theorem binCell_ordered {sqrt : α → α} {d : DataObj α} {n : Nat} (hr : Rect n d.cols) (he : ∀ e, d.err = some e → e.length = n)
    {o : List Nat} (ho : o.Perm (List.range n)) (keys : List String) (hk : keys ≠ []) (steps c : List α) :
    binCell sqrt (d.ordered o) keys steps c = binCell sqrt d keys steps c := by
  have hl : o.length = n := by rw [ho.length_eq, List.length_range]
  have hcols : keys.mapM (d.ordered o).cols.get = (keys.mapM d.cols.get).map (List.map (inOrder o)) := by
    clear hk
    induction keys with
    | nil => rfl
    | cons k L ih =>
      rw [List.mapM_cons, List.mapM_cons, ih, get_ordered]
      cases d.cols.get k <;> [rfl; skip]
      cases L.mapM d.cols.get <;> rfl
  have hlen : ∀ L : List String, ∀ cs, L.mapM d.cols.get = .ok cs → cs.length = L.length ∧ ∀ c ∈ cs, c.length = n := by
    intro L
    induction L with
    | nil => intro cs h; cases h; simp
    | cons k L ih =>
      intro cs h
      rw [List.mapM_cons] at h
      obtain ⟨c, e1, h⟩ := bind_eq_ok.1 h
      obtain ⟨cs', e2, h⟩ := bind_eq_ok.1 h
      cases h
      refine ⟨by simp [(ih cs' e2).1], fun c' hc' => ?_⟩
      rcases List.mem_cons.1 hc' with rfl | hc'
      · exact rect_length hr e1
      · exact (ih cs' e2).2 c' hc'
  obtain ⟨h1, h2⟩ := error_ordered (sqrt := sqrt) hr he ho
  unfold binCell
  rw [hcols]
  rcases hc : keys.mapM d.cols.get with e | cs
  · rfl
  obtain ⟨m1, m2⟩ := hlen keys cs hc
  have g1 : (cs.headD []).length = n := by
    cases cs with
    | nil => exact absurd (List.length_eq_zero_iff.1 m1.symm) hk
    | cons c0 cs' => exact m2 c0 (by simp)
  have g2 : ((cs.map (inOrder o)).headD []).length = n := by
    cases cs with
    | nil => exact absurd (List.length_eq_zero_iff.1 m1.symm) hk
    | cons c0 cs' => exact inOrder_length ho c0
  have a1 : cs.all (fun col => decide (col.length = n)) = true := by
    rw [List.all_eq_true]
    intro col hcol
    rw [decide_eq_true_eq, m2 col hcol]
  have a2 : (cs.map (inOrder o)).all (fun col => decide (col.length = n)) = true := by
    rw [List.all_eq_true]
    intro col hcol
    obtain ⟨c', -, rfl⟩ := List.mem_map.1 hcol
    rw [decide_eq_true_eq, inOrder_length ho]
  simp only [Except.map, ok_bind, g1, g2]
  have hin : ∀ i ∈ List.range n, inCell steps c ((cs.map (inOrder o)).map fun col => col.getD i 0) =
      inCell steps c (cs.map fun col => col.getD (o.getD i 0) 0) := by
    intro i hi
    have hi : i < n := List.mem_range.1 hi
    rw [List.map_map]
    congr 1
    apply List.map_congr_left
    intro col hcol
    unfold inOrder
    rw [Function.comp, List.getD_eq_getElem _ _ (by simp; omega), List.getElem_map, List.getD_eq_getElem o _ (by omega)]
  rw [List.filter_congr hin]
  generalize hP : (fun j => inCell steps c (cs.map fun col => col.getD j 0)) = P
  have hP' : ∀ j, inCell steps c (cs.map fun col => col.getD j 0) = P j := fun j => congrFun hP j
  simp only [hP']
  have hch := chosen_perm (α := α) ho P
  generalize hI' : (List.range n).filter (fun i => P (o.getD i 0)) = I' at hch
  generalize hI : (List.range n).filter P = I at hch
  have lI' : ∀ i ∈ I', i < n := fun i hi => by rw [← hI'] at hi; exact List.mem_range.1 (List.mem_filter.1 hi).1
  have lI : ∀ i ∈ I, i < n := fun i hi => by rw [← hI] at hi; exact List.mem_range.1 (List.mem_filter.1 hi).1
  have hempty : I' = [] ↔ I = [] := by
    have := (hch []).length_eq
    rw [List.length_map, List.length_map] at this
    rw [← List.length_eq_zero_iff, ← List.length_eq_zero_iff, this]
  have houts : ((d.ordered o).cols.filter (fun col => decide (col.1 ∉ keys))).map Prod.snd =
      ((d.cols.filter (fun col => decide (col.1 ∉ keys))).map Prod.snd).map (inOrder o) := by
    unfold DataObj.ordered
    simp only [List.filter_map, List.map_map]
    rfl
  have hol : ∀ col ∈ (d.cols.filter (fun col => decide (col.1 ∉ keys))).map Prod.snd, col.length = n := by
    intro col hcol
    obtain ⟨q, hq, rfl⟩ := List.mem_map.1 hcol
    exact hr q (List.mem_filter.1 hq).1
  rw [houts]
  generalize (d.cols.filter (fun col => decide (col.1 ∉ keys))).map Prod.snd = outs at hol
  have tk : ∀ col : List α, col.length = n → take I col = .ok (I.map fun i => col.getD i 0) := fun col h =>
    take_getD fun i hi => by rw [h]; exact lI i hi
  have tk' : ∀ col : List α, take I' (inOrder o col) = .ok (I'.map fun i => (inOrder o col).getD i 0) := fun col =>
    take_getD fun i hi => by rw [inOrder_length ho]; exact lI' i hi
  have havg : (outs.map (inOrder o)).mapM (fun col => do return avg (← take I' col)) =
      outs.mapM (fun col => do return avg (← take I col) : List α → Except Err α) := by
    clear houts
    induction outs with
    | nil => rfl
    | cons col outs ih =>
      rw [List.map_cons, List.mapM_cons, List.mapM_cons, ih fun col hcol => hol col (by simp [hcol]), tk col (hol col (by simp)), tk' col]
      simp only [ok_bind, pure_ok, avg_perm (hch col)]
  have main : ∀ E E' : Except Err (List α × DataObj α), E'.map Prod.fst = E.map (fun p => inOrder o p.1) →
      (∀ p, E = .ok p → p.1.length = n) →
      (do
        let (err, _) ← E'
        if I' = [] then return none
        else
          let avgs ← (outs.map (inOrder o)).mapM fun col => do return avg (← take I' col)
          let e ← take I' err
          return some (avgs, sqrt (avg (e.map (· ^ 2)))) : Except Err (Option (List α × α))) =
      (do
        let (err, _) ← E
        if I = [] then return none
        else
          let avgs ← outs.mapM fun col => do return avg (← take I col)
          let e ← take I err
          return some (avgs, sqrt (avg (e.map (· ^ 2))))) := by
    intro E E' hE hl
    rcases E with e | ⟨er, d1⟩
    · rcases E' with e' | p'
      · simp only [Except.map, Except.error.injEq] at hE
        rw [hE]; rfl
      · simp [Except.map] at hE
    · rcases E' with e' | ⟨er', d2⟩
      · simp [Except.map] at hE
      · simp only [Except.map, Except.ok.injEq] at hE
        subst hE
        have hl : er.length = n := hl _ rfl
        simp only [ok_bind]
        by_cases h0 : I = []
        · rw [if_pos h0, if_pos (hempty.2 h0)]
        · rw [if_neg h0, if_neg (fun h => h0 (hempty.1 h)), havg, tk er hl, tk' er]
          simp only [ok_bind]
          rw [avg_perm ((hch er).map (· ^ 2))]
  have := main _ _ h1 h2
  exact (if_pos a2).trans (this.trans (if_pos a1).symm)

end lemmas

/-- **C207** the result of rebinning, or the error that is raised, does not depend on the order in which the points were
measured: for every order, every grid and every number of processes. -/
theorem C207_order {sqrt : α → α} {p : Nat} {d : DataObj α} {n : Nat} (hr : Rect n d.cols) (he : ∀ e, d.err = some e → e.length = n)
    {o : List Nat} (ho : o.Perm (List.range n)) (toBin : List (String × BinAxis α)) (b : Bool) :
    bin sqrt p (d.ordered o) toBin b = bin sqrt p d toBin b := by
  have hasm : ∀ keys kept m (t : Table α), assemble keys kept m (t.map fun c => (c.1, inOrder o c.2)) = assemble keys kept m t := by
    intro keys kept m t
    induction t generalizing m with
    | nil => rfl
    | cons c t ih => simp only [List.map_cons, assemble, ih]
  unfold bin
  have hq : (d.ordered o).qk = d.qk := rfl
  have hb : binArg (d.ordered o) toBin = binArg d toBin := funext fun key => binArg_ordered hr ho toBin key
  rw [hq, hb]
  by_cases hk : binKeys toBin d.qk b = []
  · rw [hk]
    rfl
  · have hc : ∀ st, binCell sqrt (d.ordered o) (binKeys toBin d.qk b) st = binCell sqrt d (binKeys toBin d.qk b) st := fun st =>
      funext fun c => binCell_ordered hr he ho _ hk st c
    simp only [hc]
    congr 1
    funext args
    congr 1
    funext Q
    congr 1
    funext outputs
    unfold DataObj.ordered
    simp only [hasm]

/-- The hypotheses are met, by a scan whose points are measured in a mixed order, and the result is not empty. -/
example : Rect 3 kScan1.cols ∧ (∀ e, kScan1.err = some e → e.length = 3) ∧ [2, 0, 1].Perm (List.range 3) ∧
    (kScan1.ordered [2, 0, 1]).cols.lookup "k" = some [3, 1, 2] ∧
    (bin id 1 (kScan1.ordered [2, 0, 1]) [("k", (⟨1, 3, 2⟩ : BinAxis ℚ))] false).map (fun r => r.cols.lookup "detector") = .ok (some [15, 15]) :=
  ⟨measured_kScan1.rect, (by rintro _ ⟨⟩), by decide, by decide +kernel, by decide +kernel⟩

end Verif.Data
